import Verif.Proofs.Builds.Blocks
import Verif.Model.Crunch

namespace Verif.Proofs.Builds

open Verif Verif.Model

/-! Each function of Crunch in a build with overflow checks panics or has the outcome it has without. -/

theorem Crn_Codec_refill_builds {c : Crn.Codec} :
    LeO (@Crn.Codec.refill Build.debug c) (@Crn.Codec.refill Build.release c) := by
  unfold Crn.Codec.refill
  repeat' builds_step

theorem Crn_findLen_builds {maxCodes : List Nat} {k len n : Nat} :
    LeR (@Crn.findLen Build.debug maxCodes k len n)
      (@Crn.findLen Build.release maxCodes k len n) := by
  induction n generalizing len with
  | zero => exact LeR.same _
  | succ n ih =>
    unfold Crn.findLen
    repeat' (first | with_reducible apply ih | builds_step)

theorem Crn_lookupSymbol_builds {m : Crn.DataModel} {bitBuf : Nat} :
    LeR (@Crn.lookupSymbol Build.debug m bitBuf) (@Crn.lookupSymbol Build.release m bitBuf) := by
  unfold Crn.lookupSymbol
  repeat' (first | with_reducible apply Crn_findLen_builds | builds_step)

theorem Crn_Codec_decode_builds {c : Crn.Codec} {m : Crn.DataModel} :
    LeR (@Crn.Codec.decode Build.debug c m) (@Crn.Codec.decode Build.release c m) := by
  unfold Crn.Codec.decode
  repeat' (first | with_reducible apply Crn_Codec_refill_builds
                 | with_reducible apply Crn_lookupSymbol_builds | builds_step)

theorem Crn_Codec_fill_builds {c : Crn.Codec} {numBits n : Nat} :
    LeR (@Crn.Codec.fill Build.debug c numBits n) (@Crn.Codec.fill Build.release c numBits n) := by
  induction n generalizing c with
  | zero => exact LeR.same _
  | succ n ih =>
    unfold Crn.Codec.fill
    repeat' (first | with_reducible apply ih | builds_step)

theorem Crn_Codec_getBits_builds {c : Crn.Codec} {numBits : Nat} :
    LeR (@Crn.Codec.getBits Build.debug c numBits)
      (@Crn.Codec.getBits Build.release c numBits) := by
  unfold Crn.Codec.getBits
  repeat' (first | with_reducible apply Crn_Codec_fill_builds | builds_step)

theorem Crn_Codec_decodeBits_builds {c : Crn.Codec} {numBits : Nat} :
    LeR (@Crn.Codec.decodeBits Build.debug c numBits)
      (@Crn.Codec.decodeBits Build.release c numBits) := by
  unfold Crn.Codec.decodeBits
  repeat' (first | with_reducible apply Crn_Codec_getBits_builds | builds_step)

theorem Crn_readLengthCodes_builds {c : Crn.Codec} {n : Nat} :
    LeR (@Crn.readLengthCodes Build.debug c n) (@Crn.readLengthCodes Build.release c n) := by
  unfold Crn.readLengthCodes
  repeat' (first | with_reducible apply Crn_Codec_decodeBits_builds | builds_step)

theorem Crn_ceilLog2i_builds {v : Nat} :
    LeO (@Crn.ceilLog2i Build.debug v) (@Crn.ceilLog2i Build.release v) := by
  unfold Crn.ceilLog2i
  repeat' builds_step

theorem Crn_tableBitsFor_builds {totalSyms : Nat} :
    LeO (@Crn.tableBitsFor Build.debug totalSyms) (@Crn.tableBitsFor Build.release totalSyms) := by
  unfold Crn.tableBitsFor
  repeat' (first | with_reducible apply Crn_ceilLog2i_builds | builds_step)

theorem Crn_countCodes_builds {sizes : List Nat} :
    LeR (@Crn.countCodes Build.debug sizes) (@Crn.countCodes Build.release sizes) := by
  unfold Crn.countCodes
  repeat' builds_step

theorem Crn_codeRange_builds {i n : Nat} {r : Crn.Ranges} :
    LeR (@Crn.codeRange Build.debug i n r) (@Crn.codeRange Build.release i n r) := by
  unfold Crn.codeRange
  repeat' builds_step

theorem Crn_rangeStep_builds {numCodes : List Nat} {i : Nat} {r : Crn.Ranges} :
    LeR (@Crn.rangeStep Build.debug numCodes i r) (@Crn.rangeStep Build.release numCodes i r) := by
  unfold Crn.rangeStep
  repeat' (first | with_reducible apply Crn_codeRange_builds | builds_step)

theorem Crn_codeRanges_builds {t : Crn.Tables} {numCodes : List Nat} :
    LeR (@Crn.codeRanges Build.debug t numCodes) (@Crn.codeRanges Build.release t numCodes) := by
  unfold Crn.codeRanges
  repeat' (first | with_reducible apply Crn_rangeStep_builds | builds_step)

theorem Crn_sortSymbols_builds {numCodes sizes : List Nat} {numSyms totalUsed : Nat}
    {positions sorted : List Nat} :
    LeR (@Crn.sortSymbols Build.debug numCodes sizes numSyms totalUsed positions sorted)
      (@Crn.sortSymbols Build.release numCodes sizes numSyms totalUsed positions sorted) := by
  unfold Crn.sortSymbols
  repeat' builds_step

theorem Crn_unshiftedMaxCode_builds {maxCodes : List Nat} {len : Nat} :
    LeR (@Crn.unshiftedMaxCode Build.debug maxCodes len)
      (@Crn.unshiftedMaxCode Build.release maxCodes len) := by
  unfold Crn.unshiftedMaxCode
  repeat' builds_step

theorem Crn_fillCode_builds {tableBits codesize : Nat} {fillsize sym code : Nat} {lookup : List Nat}
    :
    LeR (@Crn.fillCode Build.debug tableBits codesize fillsize sym code lookup)
      (@Crn.fillCode Build.release tableBits codesize fillsize sym code lookup) := by
  unfold Crn.fillCode
  repeat' builds_step

theorem Crn_fillLength_builds {numCodes sizes : List Nat} {minCodes maxCodes : List Nat}
    {valPtrs : List Int} {sorted : List Nat} {tableBits codesize : Nat} {lookup : List Nat} :
    LeR (@Crn.fillLength Build.debug numCodes sizes minCodes maxCodes valPtrs sorted tableBits codesize lookup)
      (@Crn.fillLength Build.release numCodes sizes minCodes maxCodes valPtrs sorted tableBits codesize lookup) := by
  unfold Crn.fillLength
  repeat' (first | with_reducible apply Crn_unshiftedMaxCode_builds
                 | with_reducible apply Crn_fillCode_builds | builds_step)

theorem Crn_fillTable_builds {numCodes sizes : List Nat} {minCodes maxCodes : List Nat}
    {valPtrs : List Int} {sorted : List Nat} {tableBits : Nat} {lookup : List Nat} :
    LeR (@Crn.fillTable Build.debug numCodes sizes minCodes maxCodes valPtrs sorted tableBits lookup)
      (@Crn.fillTable Build.release numCodes sizes minCodes maxCodes valPtrs sorted tableBits lookup) := by
  unfold Crn.fillTable
  repeat' (first | with_reducible apply Crn_fillLength_builds | builds_step)

theorem Crn_shiftValPtrs_builds {minCodes : List Nat} {valPtrs : List Int} :
    LeR (@Crn.shiftValPtrs Build.debug minCodes valPtrs)
      (@Crn.shiftValPtrs Build.release minCodes valPtrs) := by
  unfold Crn.shiftValPtrs
  repeat' builds_step

theorem Crn_Tables_init_builds {t : Crn.Tables} {numSyms : Nat} {sizes : List Nat} {tableBits : Nat}
    :
    LeR (@Crn.Tables.init Build.debug t numSyms sizes tableBits)
      (@Crn.Tables.init Build.release t numSyms sizes tableBits) := by
  unfold Crn.Tables.init
  repeat' (first | with_reducible apply Crn_countCodes_builds
                 | with_reducible apply Crn_codeRanges_builds
                 | with_reducible apply Crn_sortSymbols_builds
                 | with_reducible apply Crn_fillTable_builds
                 | with_reducible apply Crn_shiftValPtrs_builds | builds_step)

theorem Crn_DataModel_prepare_builds {m : Crn.DataModel} :
    LeR (@Crn.DataModel.prepare Build.debug m) (@Crn.DataModel.prepare Build.release m) := by
  unfold Crn.DataModel.prepare
  repeat' (first | with_reducible apply Crn_tableBitsFor_builds
                 | with_reducible apply Crn_Tables_init_builds | builds_step)

theorem Crn_lengthStep_builds {dm : Crn.DataModel} {total : Nat} {s : Nat × List Nat × Crn.Codec} :
    LeR (@Crn.lengthStep Build.debug dm total s) (@Crn.lengthStep Build.release dm total s) := by
  unfold Crn.lengthStep
  repeat' (first | with_reducible apply Crn_Codec_decode_builds
                 | with_reducible apply Crn_Codec_decodeBits_builds | builds_step)

theorem Crn_lengthLoop_builds {dm : Crn.DataModel} {total n : Nat} {s : Nat × List Nat × Crn.Codec}
    :
    LeR (@Crn.lengthLoop Build.debug dm total n s)
      (@Crn.lengthLoop Build.release dm total n s) := by
  induction n generalizing s with
  | zero => exact LeR.same _
  | succ n ih =>
    unfold Crn.lengthLoop
    repeat' (first | with_reducible apply ih | with_reducible apply Crn_lengthStep_builds
                   | builds_step)

theorem Crn_Codec_receiveModel_builds {c : Crn.Codec} :
    LeR (@Crn.Codec.receiveModel Build.debug c) (@Crn.Codec.receiveModel Build.release c) := by
  unfold Crn.Codec.receiveModel
  repeat' (first | with_reducible apply Crn_Codec_decodeBits_builds
                 | with_reducible apply Crn_readLengthCodes_builds
                 | with_reducible apply Crn_DataModel_prepare_builds
                 | with_reducible apply Crn_lengthLoop_builds | builds_step)

theorem Crn_LevelSize_skipBottom_builds {z : Crn.LevelSize} {y : Nat} :
    LeO (@Crn.LevelSize.skipBottom Build.debug z y)
      (@Crn.LevelSize.skipBottom Build.release z y) := by
  unfold Crn.LevelSize.skipBottom
  repeat' builds_step

theorem Crn_LevelSize_skipRight_builds {z : Crn.LevelSize} {x : Nat} :
    LeO (@Crn.LevelSize.skipRight Build.debug z x)
      (@Crn.LevelSize.skipRight Build.release z x) := by
  unfold Crn.LevelSize.skipRight
  repeat' builds_step

theorem Crn_receivePair_builds {c : Crn.Codec} {num : Nat} :
    LeR (@Crn.receivePair Build.debug c num) (@Crn.receivePair Build.release c num) := by
  unfold Crn.receivePair
  repeat' (first | with_reducible apply Crn_Codec_receiveModel_builds | builds_step)

theorem Crn_initTables_builds {data : List UInt8} {h : CrnHeader} :
    LeR (@Crn.initTables Build.debug data h) (@Crn.initTables Build.release data h) := by
  unfold Crn.initTables
  repeat' (first | with_reducible apply Crn_Codec_receiveModel_builds
                 | with_reducible apply Crn_receivePair_builds | builds_step)

theorem Crn_deltaComponent_builds {c : Crn.Codec} {dm : Crn.DataModel} {x mask : Nat} :
    LeR (@Crn.deltaComponent Build.debug c dm x mask)
      (@Crn.deltaComponent Build.release c dm x mask) := by
  unfold Crn.deltaComponent
  repeat' (first | with_reducible apply Crn_Codec_decode_builds | builds_step)

theorem Crn_colorEndpointStep_builds {dm0 dm1 : Crn.DataModel} {s : Crn.Components} {k : Crn.Codec}
    :
    LeR (@Crn.colorEndpointStep Build.debug dm0 dm1 s k)
      (@Crn.colorEndpointStep Build.release dm0 dm1 s k) := by
  unfold Crn.colorEndpointStep
  repeat' (first | with_reducible apply Crn_deltaComponent_builds | builds_step)

theorem Crn_packEndpoints_builds {s : Crn.Components} :
    LeO (@Crn.packEndpoints Build.debug s) (@Crn.packEndpoints Build.release s) := by
  unfold Crn.packEndpoints
  repeat' builds_step

theorem Crn_decodeColorEndpoints_builds {data : List UInt8} {h : CrnHeader} :
    LeR (@Crn.decodeColorEndpoints Build.debug data h)
      (@Crn.decodeColorEndpoints Build.release data h) := by
  unfold Crn.decodeColorEndpoints
  repeat' (first | with_reducible apply Crn_Codec_receiveModel_builds
                 | with_reducible apply Crn_colorEndpointStep_builds
                 | with_reducible apply Crn_packEndpoints_builds | builds_step)

theorem Crn_decodeAlphaEndpoints_builds {data : List UInt8} {h : CrnHeader} :
    LeR (@Crn.decodeAlphaEndpoints Build.debug data h)
      (@Crn.decodeAlphaEndpoints Build.release data h) := by
  unfold Crn.decodeAlphaEndpoints
  repeat' (first | with_reducible apply Crn_Codec_receiveModel_builds
                 | with_reducible apply Crn_Codec_decode_builds | builds_step)

theorem Crn_nextLevelOfs_builds {u : Crn.Unpacker} {level : Nat} :
    LeO (@Crn.nextLevelOfs Build.debug u level) (@Crn.nextLevelOfs Build.release u level) := by
  unfold Crn.nextLevelOfs
  repeat' builds_step

theorem Crn_writeInt_builds {buf : List UInt8} {index val : Nat} :
    LeO (@Crn.writeInt Build.debug buf index val) (@Crn.writeInt Build.release buf index val) := by
  unfold Crn.writeInt
  repeat' builds_step

theorem Crn_updateSelector_builds {delta : List Int} {sym mask i : Nat} {cur : List Nat} :
    LeO (@Crn.updateSelector Build.debug delta sym mask i cur)
      (@Crn.updateSelector Build.release delta sym mask i cur) := by
  unfold Crn.updateSelector
  repeat' builds_step

theorem Crn_selectorStep_builds {dm : Crn.DataModel} {d0 d1 : List Int} {mask : Nat}
    {cur : List Nat} {k : Crn.Codec} :
    LeR (@Crn.selectorStep Build.debug dm d0 d1 mask cur k)
      (@Crn.selectorStep Build.release dm d0 d1 mask cur k) := by
  unfold Crn.selectorStep
  repeat' (first | with_reducible apply Crn_Codec_decode_builds
                 | with_reducible apply Crn_updateSelector_builds | builds_step)

theorem Crn_packColorSelectors_builds {cur : List Nat} :
    LeO (@Crn.packColorSelectors Build.debug cur) (@Crn.packColorSelectors Build.release cur) := by
  unfold Crn.packColorSelectors
  repeat' builds_step

theorem Crn_decodeColorSelectors_builds {data : List UInt8} {h : CrnHeader} :
    LeR (@Crn.decodeColorSelectors Build.debug data h)
      (@Crn.decodeColorSelectors Build.release data h) := by
  unfold Crn.decodeColorSelectors
  repeat' (first | with_reducible apply Crn_Codec_receiveModel_builds
                 | with_reducible apply Crn_selectorStep_builds
                 | with_reducible apply Crn_packColorSelectors_builds | builds_step)

theorem Crn_decodeAlphaSelectors_builds {data : List UInt8} {h : CrnHeader} :
    LeR (@Crn.decodeAlphaSelectors Build.debug data h)
      (@Crn.decodeAlphaSelectors Build.release data h) := by
  unfold Crn.decodeAlphaSelectors
  repeat' (first | with_reducible apply Crn_Codec_receiveModel_builds
                 | with_reducible apply Crn_selectorStep_builds | builds_step)

theorem Crn_Unpacker_init_builds {data : List UInt8} {dataSize : Nat} :
    LeR (@Crn.Unpacker.init Build.debug data dataSize)
      (@Crn.Unpacker.init Build.release data dataSize) := by
  unfold Crn.Unpacker.init
  repeat' (first | with_reducible apply Crn_initTables_builds
                 | with_reducible apply Crn_decodeColorEndpoints_builds
                 | with_reducible apply Crn_decodeColorSelectors_builds
                 | with_reducible apply Crn_decodeAlphaEndpoints_builds
                 | with_reducible apply Crn_decodeAlphaSelectors_builds | builds_step)

theorem Crn_blockLoop_builds {z : Crn.LevelSize} {words cb : Nat} {skipRight skipBottom : Bool}
    {blockDst : Nat} {f g : Nat → Bool → Nat → Crn.LevelState → Res Crn.LevelState}
    {st : Crn.LevelState} (hf : ∀ x y d s, LeR (f x y d s) (g x y d s)) :
    LeR (@Crn.blockLoop Build.debug z words cb skipRight skipBottom blockDst f st)
      (@Crn.blockLoop Build.release z words cb skipRight skipBottom blockDst g st) := by
  unfold Crn.blockLoop
  repeat' (first | with_reducible apply hf | builds_step)

theorem Crn_chunkLoop_builds {faces chunksX chunksY rowPitch cb : Nat}
    {f g : Nat → Nat → Nat → Crn.LevelState → Res Crn.LevelState} {st : Crn.LevelState}
    (hf : ∀ x y d s, LeR (f x y d s) (g x y d s)) :
    LeR (@Crn.chunkLoop Build.debug faces chunksX chunksY rowPitch cb f st)
      (@Crn.chunkLoop Build.release faces chunksX chunksY rowPitch cb g st) := by
  unfold Crn.chunkLoop
  repeat' (first | with_reducible apply hf | builds_step)

theorem Crn_unpackBegin_builds {data : List UInt8} {dataSize : Nat} :
    LeR (@Crn.unpackBegin Build.debug data dataSize)
      (@Crn.unpackBegin Build.release data dataSize) := by
  unfold Crn.unpackBegin
  repeat' (first | with_reducible apply Crn_Unpacker_init_builds | builds_step)

theorem Crn_nextEncoding_builds {msg : String} {dm : Crn.DataModel} {st : Crn.LevelState} :
    LeR (@Crn.nextEncoding Build.debug msg dm st) (@Crn.nextEncoding Build.release msg dm st) := by
  unfold Crn.nextEncoding
  repeat' (first | with_reducible apply Crn_Codec_decode_builds | builds_step)

theorem Crn_limit_builds {x n : Nat} :
    LeO (@Crn.limit Build.debug x n) (@Crn.limit Build.release x n) := by
  unfold Crn.limit
  repeat' builds_step

theorem Crn_nextIndex_builds {msg : String} {dm : Crn.DataModel} {num prev : Nat} {k : Crn.Codec} :
    LeR (@Crn.nextIndex Build.debug msg dm num prev k)
      (@Crn.nextIndex Build.release msg dm num prev k) := by
  unfold Crn.nextIndex
  repeat' (first | with_reducible apply Crn_Codec_decode_builds
                 | with_reducible apply Crn_limit_builds | builds_step)

theorem Crn_tileEndpoints_builds {msg : String} {dm : Crn.DataModel} {pal : List Nat} {n prev : Nat}
    {k : Crn.Codec} :
    LeR (@Crn.tileEndpoints Build.debug msg dm pal n prev k)
      (@Crn.tileEndpoints Build.release msg dm pal n prev k) := by
  unfold Crn.tileEndpoints
  repeat' (first | with_reducible apply Crn_nextIndex_builds | builds_step)

theorem Crn_dxt1Block_builds {u : Crn.Unpacker} {ends tiles : List Nat} {q pd : Nat}
    {st : Crn.LevelState} :
    LeR (@Crn.dxt1Block Build.debug u ends tiles q pd st)
      (@Crn.dxt1Block Build.release u ends tiles q pd st) := by
  unfold Crn.dxt1Block
  repeat' (first | with_reducible apply Crn_writeInt_builds
                 | with_reducible apply Crn_nextIndex_builds | builds_step)

theorem Crn_dxt1Full_builds {u : Crn.Unpacker} {z : Crn.LevelSize} {ends tiles : List Nat}
    {pd : Nat} {st : Crn.LevelState} :
    LeR (@Crn.dxt1Full Build.debug u z ends tiles pd st)
      (@Crn.dxt1Full Build.release u z ends tiles pd st) := by
  unfold Crn.dxt1Full
  repeat' (first | with_reducible apply Crn_dxt1Block_builds | builds_step)

theorem Crn_dxt1Skip_builds {u : Crn.Unpacker} {ends tiles : List Nat} {skipRight skipBottom : Bool}
    {bx b pd : Nat} {st : Crn.LevelState} :
    LeR (@Crn.dxt1Skip Build.debug u ends tiles skipRight skipBottom bx b pd st)
      (@Crn.dxt1Skip Build.release u ends tiles skipRight skipBottom bx b pd st) := by
  unfold Crn.dxt1Skip
  repeat' (first | with_reducible apply Crn_nextIndex_builds
                 | with_reducible apply Crn_writeInt_builds | builds_step)

theorem Crn_dxt1Border_builds {u : Crn.Unpacker} {z : Crn.LevelSize} {ends tiles : List Nat}
    {skipRight skipBottom : Bool} {blockDst : Nat} {st : Crn.LevelState} :
    LeR (@Crn.dxt1Border Build.debug u z ends tiles skipRight skipBottom blockDst st)
      (@Crn.dxt1Border Build.release u z ends tiles skipRight skipBottom blockDst st) := by
  unfold Crn.dxt1Border
  repeat' (first | with_reducible apply Crn_dxt1Skip_builds | builds_step)

theorem Crn_dxt1Chunk_builds {u : Crn.Unpacker} {z : Crn.LevelSize} {x y blockDst : Nat}
    {st : Crn.LevelState} :
    LeR (@Crn.dxt1Chunk Build.debug u z x y blockDst st)
      (@Crn.dxt1Chunk Build.release u z x y blockDst st) := by
  unfold Crn.dxt1Chunk
  repeat' (first | with_reducible apply Crn_LevelSize_skipBottom_builds
                 | with_reducible apply Crn_nextEncoding_builds
                 | with_reducible apply Crn_tileEndpoints_builds
                 | with_reducible apply Crn_LevelSize_skipRight_builds
                 | with_reducible apply Crn_dxt1Full_builds
                 | with_reducible apply Crn_dxt1Border_builds | builds_step)

theorem Crn_writeAlpha_builds {u : Crn.Unpacker} {e p pd : Nat} {dst : List UInt8} :
    LeO (@Crn.writeAlpha Build.debug u e p pd dst)
      (@Crn.writeAlpha Build.release u e p pd dst) := by
  unfold Crn.writeAlpha
  repeat' (first | with_reducible apply Crn_writeInt_builds | builds_step)

theorem Crn_dxt5Block_builds {u : Crn.Unpacker} {alphaEnds colorEnds tiles : List Nat} {q : Nat}
    {visible : Bool} {pd : Nat} {st : Crn.LevelState} :
    LeR (@Crn.dxt5Block Build.debug u alphaEnds colorEnds tiles q visible pd st)
      (@Crn.dxt5Block Build.release u alphaEnds colorEnds tiles q visible pd st) := by
  unfold Crn.dxt5Block
  repeat' (first | with_reducible apply Crn_nextIndex_builds
                 | with_reducible apply Crn_writeAlpha_builds
                 | with_reducible apply Crn_writeInt_builds | builds_step)

theorem Crn_dxt5Chunk_builds {u : Crn.Unpacker} {z : Crn.LevelSize} {x y blockDst : Nat}
    {st : Crn.LevelState} :
    LeR (@Crn.dxt5Chunk Build.debug u z x y blockDst st)
      (@Crn.dxt5Chunk Build.release u z x y blockDst st) := by
  unfold Crn.dxt5Chunk
  repeat' (first | with_reducible apply Crn_LevelSize_skipBottom_builds
                 | with_reducible apply Crn_nextEncoding_builds
                 | with_reducible apply Crn_LevelSize_skipRight_builds
                 | with_reducible apply Crn_tileEndpoints_builds
                 | with_reducible apply Crn_blockLoop_builds
                 | with_reducible apply Crn_dxt5Block_builds | builds_step)

theorem Crn_dxt5aBlock_builds {u : Crn.Unpacker} {ends tiles : List Nat} {q : Nat} {visible : Bool}
    {pd : Nat} {st : Crn.LevelState} :
    LeR (@Crn.dxt5aBlock Build.debug u ends tiles q visible pd st)
      (@Crn.dxt5aBlock Build.release u ends tiles q visible pd st) := by
  unfold Crn.dxt5aBlock
  repeat' (first | with_reducible apply Crn_nextIndex_builds
                 | with_reducible apply Crn_writeAlpha_builds | builds_step)

theorem Crn_dxt5aChunk_builds {u : Crn.Unpacker} {z : Crn.LevelSize} {x y blockDst : Nat}
    {st : Crn.LevelState} :
    LeR (@Crn.dxt5aChunk Build.debug u z x y blockDst st)
      (@Crn.dxt5aChunk Build.release u z x y blockDst st) := by
  unfold Crn.dxt5aChunk
  repeat' (first | with_reducible apply Crn_LevelSize_skipBottom_builds
                 | with_reducible apply Crn_nextEncoding_builds
                 | with_reducible apply Crn_LevelSize_skipRight_builds
                 | with_reducible apply Crn_tileEndpoints_builds
                 | with_reducible apply Crn_blockLoop_builds
                 | with_reducible apply Crn_dxt5aBlock_builds | builds_step)

theorem Crn_dxnBlock_builds {u : Crn.Unpacker} {ends0 ends1 tiles : List Nat} {q : Nat}
    {visible : Bool} {pd : Nat} {st : Crn.LevelState} :
    LeR (@Crn.dxnBlock Build.debug u ends0 ends1 tiles q visible pd st)
      (@Crn.dxnBlock Build.release u ends0 ends1 tiles q visible pd st) := by
  unfold Crn.dxnBlock
  repeat' (first | with_reducible apply Crn_nextIndex_builds
                 | with_reducible apply Crn_writeAlpha_builds | builds_step)

theorem Crn_dxnChunk_builds {u : Crn.Unpacker} {z : Crn.LevelSize} {x y blockDst : Nat}
    {st : Crn.LevelState} :
    LeR (@Crn.dxnChunk Build.debug u z x y blockDst st)
      (@Crn.dxnChunk Build.release u z x y blockDst st) := by
  unfold Crn.dxnChunk
  repeat' (first | with_reducible apply Crn_LevelSize_skipBottom_builds
                 | with_reducible apply Crn_nextEncoding_builds
                 | with_reducible apply Crn_LevelSize_skipRight_builds
                 | with_reducible apply Crn_tileEndpoints_builds
                 | with_reducible apply Crn_blockLoop_builds
                 | with_reducible apply Crn_dxnBlock_builds | builds_step)

theorem Crn_unpackFormat_builds {u : Crn.Unpacker} {z : Crn.LevelSize} {st : Crn.LevelState} :
    LeR (@Crn.unpackFormat Build.debug u z st) (@Crn.unpackFormat Build.release u z st) := by
  unfold Crn.unpackFormat
  repeat' (first | with_reducible apply Crn_chunkLoop_builds
                 | with_reducible apply Crn_dxt1Chunk_builds
                 | with_reducible apply Crn_dxt5Chunk_builds
                 | with_reducible apply Crn_dxt5aChunk_builds
                 | with_reducible apply Crn_dxnChunk_builds | builds_step)

theorem Crn_unpackLevel2_builds {u : Crn.Unpacker} {src : List UInt8} {srcSize dstSize : Nat}
    {rowPitch level : Nat} :
    LeR (@Crn.unpackLevel2 Build.debug u src srcSize dstSize rowPitch level)
      (@Crn.unpackLevel2 Build.release u src srcSize dstSize rowPitch level) := by
  unfold Crn.unpackLevel2
  repeat' (first | with_reducible apply Crn_unpackFormat_builds | builds_step)

theorem Crn_unpackLevel_builds {u : Crn.Unpacker} {dstSize rowPitch level : Nat} :
    LeR (@Crn.unpackLevel Build.debug u dstSize rowPitch level)
      (@Crn.unpackLevel Build.release u dstSize rowPitch level) := by
  unfold Crn.unpackLevel
  repeat' (first | with_reducible apply Crn_nextLevelOfs_builds
                 | with_reducible apply Crn_unpackLevel2_builds | builds_step)

theorem Crn_crunchUnpackLevel_builds {data : List UInt8} {dataSize level : Nat} :
    LeR (@Crn.crunchUnpackLevel Build.debug data dataSize level)
      (@Crn.crunchUnpackLevel Build.release data dataSize level) := by
  unfold Crn.crunchUnpackLevel
  repeat' (first | with_reducible apply Crn_unpackBegin_builds
                 | with_reducible apply Crn_unpackLevel_builds | builds_step)

theorem Crn_decodeCrunch_builds {data : List UInt8} {width height : Nat} {image : List UInt32} :
    LeO (@Crn.decodeCrunch Build.debug data width height image)
      (@Crn.decodeCrunch Build.release data width height image) := by
  unfold Crn.decodeCrunch
  have h := @Crn_crunchUnpackLevel_builds data (asU 32 data.length) 0
  rcases h with h | h
  · rw [h]
    exact Or.inl rfl
  · rw [h]
    cases @Crn.crunchUnpackLevel Build.release data (asU 32 data.length) 0 with
    | panic => exact LeO.same _
    | fail m => exact LeO.same _
    | ok h =>
      dsimp only
      split <;> first | with_reducible exact LeO.same _ | with_reducible exact decodeBc1_builds | with_reducible exact decodeBc3_builds | with_reducible exact decodeBc4_builds | with_reducible exact decodeBc5_builds

end Verif.Proofs.Builds
