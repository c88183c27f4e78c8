import Verif.Proofs.Builds.Blocks
import Verif.Model.Astc

namespace Verif.Proofs.Builds

open Verif Verif.Model

/-! Each function of ASTC in a build with overflow checks panics or has the outcome it has without. -/

theorem astcFloor_builds {x : Fl} :
    LeO (@astcFloor Build.debug x) (@astcFloor Build.release x) := by
  unfold astcFloor
  repeat' builds_step

theorem selectColorHdr_builds {v0 v1 weight : Int} :
    LeO (@selectColorHdr Build.debug v0 v1 weight)
      (@selectColorHdr Build.release v0 v1 weight) := by
  unfold selectColorHdr
  repeat' (first | with_reducible apply fp16ToFp32_builds | with_reducible apply astcFloor_builds
                 | builds_step)

theorem selectColor_builds {v0 v1 weight : Int} :
    LeO (@selectColor Build.debug v0 v1 weight) (@selectColor Build.release v0 v1 weight) := by
  unfold selectColor
  repeat' builds_step

theorem selectFor_builds {hdr : Bool} {v0 v1 weight : Int} :
    LeO (@selectFor Build.debug hdr v0 v1 weight) (@selectFor Build.release hdr v0 v1 weight) := by
  unfold selectFor
  repeat' (first | with_reducible apply selectColorHdr_builds
                 | with_reducible apply selectColor_builds | builds_step)

theorem texelChannel_builds {table : List Bool} {cem : Nat} {e row : List Int} {plane ch : Nat} :
    LeO (@texelChannel Build.debug table cem e row plane ch)
      (@texelChannel Build.release table cem e row plane ch) := by
  unfold texelChannel
  repeat' (first | with_reducible apply selectFor_builds | builds_step)

theorem astcApplicateColor_builds {q : AstcParams} {bw bh : Nat}
    {endpoints weights : List (List Int)} {partition : List Nat} {outbuf : List UInt32} :
    LeO (@astcApplicateColor Build.debug q bw bh endpoints weights partition outbuf)
      (@astcApplicateColor Build.release q bw bh endpoints weights partition outbuf) := by
  unfold astcApplicateColor
  repeat' (first | with_reducible apply texelChannel_builds | builds_step)

theorem astcCemOr_builds {buf : List UInt8} {cem : List Nat} {i pos mask : Nat} :
    LeO (@astcCemOr Build.debug buf cem i pos mask)
      (@astcCemOr Build.release buf cem i pos mask) := by
  unfold astcCemOr
  repeat' (first | with_reducible apply getbits_builds | builds_step)

theorem astcCemMulti_builds {buf : List UInt8} {partNum cemBase weightBits : Nat} :
    LeO (@astcCemMulti Build.debug buf partNum cemBase weightBits)
      (@astcCemMulti Build.release buf partNum cemBase weightBits) := by
  unfold astcCemMulti
  repeat' (first | with_reducible apply astcCemOr_builds | builds_step)

theorem astcCems_builds {buf : List UInt8} {partNum weightBits : Nat} :
    LeO (@astcCems Build.debug buf partNum weightBits)
      (@astcCems Build.release buf partNum weightBits) := by
  unfold astcCems
  repeat' (first | with_reducible apply astcCemMulti_builds | builds_step)

theorem astcF32ToU8_builds {f : Fl} :
    LeO (@astcF32ToU8 Build.debug f) (@astcF32ToU8 Build.release f) := by
  unfold astcF32ToU8
  repeat' (first | with_reducible apply astcFloor_builds | builds_step)

theorem astcWeightBits_builds {weightNum range : Nat} :
    LeO (@astcWeightBits Build.debug weightNum range)
      (@astcWeightBits Build.release weightNum range) := by
  unfold astcWeightBits
  repeat' builds_step

theorem bitReverseU64_builds {d bits : Nat} :
    LeO (@bitReverseU64 Build.debug d bits) (@bitReverseU64 Build.release d bits) := by
  unfold bitReverseU64
  repeat' builds_step

theorem bitReverseU8_builds {c bits : Nat} :
    LeO (@bitReverseU8 Build.debug c bits) (@bitReverseU8 Build.release c bits) := by
  unfold bitReverseU8
  repeat' builds_step

theorem bitTransferSigned_builds {a b : Int} :
    LeO (@bitTransferSigned Build.debug a b) (@bitTransferSigned Build.release a b) := by
  unfold bitTransferSigned
  repeat' builds_step

theorem intseqWord_builds {buf : List UInt8} {p : Int} {nowSize : Nat} {reverse : Bool} :
    LeO (@intseqWord Build.debug buf p nowSize reverse)
      (@intseqWord Build.release buf p nowSize reverse) := by
  unfold intseqWord
  repeat' (first | with_reducible apply getbits64_builds | with_reducible apply bitReverseU64_builds
                 | builds_step)

theorem intseqUnpack_builds {per : Nat} {shifts : List Nat} {table : List (List Nat)} {mask d : Nat}
    {x b : Nat} {count n : Nat} {out : List IntSeqData} :
    LeO (@intseqUnpack Build.debug per shifts table mask d x b count n out)
      (@intseqUnpack Build.release per shifts table mask d x b count n out) := by
  unfold intseqUnpack
  repeat' builds_step

theorem intseqPacked_builds {per extra : Nat} {shifts : List Nat} {table : List (List Nat)}
    {f g : Nat → Nat → Out Nat} {buf : List UInt8} {offset b count : Nat} {reverse : Bool}
    {out : List IntSeqData} (hf : ∀ d b, LeO (f d b) (g d b)) :
    LeO (@intseqPacked Build.debug per extra shifts table f buf offset b count reverse out)
      (@intseqPacked Build.release per extra shifts table g buf offset b count reverse out) := by
  unfold intseqPacked
  repeat' (first | with_reducible apply hf | with_reducible apply intseqWord_builds
                 | with_reducible apply intseqUnpack_builds | builds_step)

theorem tritsIndex_builds {d b : Nat} :
    LeO (@tritsIndex Build.debug d b) (@tritsIndex Build.release d b) := by
  unfold tritsIndex
  repeat' builds_step

theorem quintsIndex_builds {d b : Nat} :
    LeO (@quintsIndex Build.debug d b) (@quintsIndex Build.release d b) := by
  unfold quintsIndex
  repeat' builds_step

theorem intseqPlain_builds {buf : List UInt8} {offset b count : Nat} {reverse : Bool}
    {out : List IntSeqData} :
    LeO (@intseqPlain Build.debug buf offset b count reverse out)
      (@intseqPlain Build.release buf offset b count reverse out) := by
  unfold intseqPlain
  repeat' (first | with_reducible apply getbits_builds | with_reducible apply bitReverseU8_builds
                 | builds_step)

theorem decodeIntseq_builds {buf : List UInt8} {offset a : Nat} {b count : Nat} {reverse : Bool}
    {out : List IntSeqData} :
    LeO (@decodeIntseq Build.debug buf offset a b count reverse out)
      (@decodeIntseq Build.release buf offset a b count reverse out) := by
  unfold decodeIntseq
  repeat' (first | with_reducible apply intseqPacked_builds | with_reducible apply tritsIndex_builds
                 | with_reducible apply quintsIndex_builds | with_reducible apply intseqPlain_builds
                 | builds_step)

theorem unquantTrit_builds {b : Nat} {s : IntSeqData} :
    LeO (@unquantTrit Build.debug b s) (@unquantTrit Build.release b s) := by
  unfold unquantTrit
  repeat' builds_step

theorem unquantQuint_builds {b : Nat} {s : IntSeqData} :
    LeO (@unquantQuint Build.debug b s) (@unquantQuint Build.release b s) := by
  unfold unquantQuint
  repeat' builds_step

theorem unquantBits_builds {b : Nat} {s : IntSeqData} :
    LeO (@unquantBits Build.debug b s) (@unquantBits Build.release b s) := by
  unfold unquantBits
  repeat' builds_step

theorem unquantColour_builds {a b : Nat} {s : IntSeqData} :
    LeO (@unquantColour Build.debug a b s) (@unquantColour Build.release a b s) := by
  unfold unquantColour
  repeat' (first | with_reducible apply unquantTrit_builds
                 | with_reducible apply unquantQuint_builds
                 | with_reducible apply unquantBits_builds | builds_step)

theorem colourValues_builds {buf : List UInt8} {p : AstcParams} :
    LeO (@colourValues Build.debug buf p) (@colourValues Build.release buf p) := by
  unfold colourValues
  repeat' (first | with_reducible apply decodeIntseq_builds
                 | with_reducible apply unquantColour_builds | builds_step)

theorem f16ptrToU8_builds {ptr : List UInt8} :
    LeO (@f16ptrToU8 Build.debug ptr) (@f16ptrToU8 Build.release ptr) := by
  unfold f16ptrToU8
  repeat' (first | with_reducible apply fp16ToFp32_builds | with_reducible apply astcF32ToU8_builds
                 | builds_step)

theorem voidColour_builds {buf : List UInt8} :
    LeO (@voidColour Build.debug buf) (@voidColour Build.release buf) := by
  unfold voidColour
  repeat' (first | with_reducible apply f16ptrToU8_builds | builds_step)

theorem decodeBlockParams_builds {buf : List UInt8} :
    LeO (@decodeBlockParams Build.debug buf) (@decodeBlockParams Build.release buf) := by
  unfold decodeBlockParams
  repeat' (first | with_reducible apply astcWeightBits_builds | with_reducible apply astcCems_builds
                 | with_reducible apply getbits_builds | builds_step)

theorem endpointsLumaDelta_builds {v0 v1 : Int} :
    LeO (@endpointsLumaDelta Build.debug v0 v1) (@endpointsLumaDelta Build.release v0 v1) := by
  unfold endpointsLumaDelta
  repeat' builds_step

theorem endpointsHdrLuma_builds {v0 v1 : Int} :
    LeO (@endpointsHdrLuma Build.debug v0 v1) (@endpointsHdrLuma Build.release v0 v1) := by
  unfold endpointsHdrLuma
  repeat' builds_step

theorem endpointsHdrLumaDelta_builds {v0 v1 : Int} :
    LeO (@endpointsHdrLumaDelta Build.debug v0 v1)
      (@endpointsHdrLumaDelta Build.release v0 v1) := by
  unfold endpointsHdrLumaDelta
  repeat' builds_step

theorem endpointsLumaAlphaDelta_builds {v0 v1 : Int} {v2 v3 : Int} :
    LeO (@endpointsLumaAlphaDelta Build.debug v0 v1 v2 v3)
      (@endpointsLumaAlphaDelta Build.release v0 v1 v2 v3) := by
  unfold endpointsLumaAlphaDelta
  repeat' (first | with_reducible apply bitTransferSigned_builds | builds_step)

theorem endpointsScale_builds {v0 v1 : Int} {v2 v3 : Int} {a1 a2 : Int} :
    LeO (@endpointsScale Build.debug v0 v1 v2 v3 a1 a2)
      (@endpointsScale Build.release v0 v1 v2 v3 a1 a2) := by
  unfold endpointsScale
  repeat' builds_step

theorem decodeEndpointsHdr7_builds {v : List Int} :
    LeO (@decodeEndpointsHdr7 Build.debug v) (@decodeEndpointsHdr7 Build.release v) := by
  unfold decodeEndpointsHdr7
  refine LeO.seq (LeO.same _) fun v0 => LeO.seq (LeO.same _) fun v1 => LeO.seq (LeO.same _) fun v2 =>
    LeO.seq (LeO.same _) fun v3 => ?_
  generalize hdr7Mode v0 v1 v2 = m
  obtain ⟨major, mode⟩ := m
  dsimp only
  generalize hdr7Values mode v0 v1 v2 v3 = c
  obtain ⟨c0, c1, c2, c3⟩ := c
  dsimp only
  repeat' builds_step

theorem setEndpointBlue_builds {r1 g1 : Int} {b1 a1 : Int} {r2 g2 : Int} {b2 a2 : Int} :
    LeO (@setEndpointBlue Build.debug r1 g1 b1 a1 r2 g2 b2 a2)
      (@setEndpointBlue Build.release r1 g1 b1 a1 r2 g2 b2 a2) := by
  unfold setEndpointBlue
  repeat' builds_step

theorem endpointsDirect_builds {v0 v1 : Int} {v2 v3 : Int} {v4 v5 : Int} {a1 a2 : Int} :
    LeO (@endpointsDirect Build.debug v0 v1 v2 v3 v4 v5 a1 a2)
      (@endpointsDirect Build.release v0 v1 v2 v3 v4 v5 a1 a2) := by
  unfold endpointsDirect
  repeat' (first | with_reducible apply setEndpointBlue_builds | builds_step)

theorem endpointsOffset_builds {b0 b1 : Int} {b2 o0 : Int} {o1 o2 : Int} {a1 a2 : Int} :
    LeO (@endpointsOffset Build.debug b0 b1 b2 o0 o1 o2 a1 a2)
      (@endpointsOffset Build.release b0 b1 b2 o0 o1 o2 a1 a2) := by
  unfold endpointsOffset
  repeat' (first | with_reducible apply setEndpointBlue_builds | builds_step)

theorem endpointsRgbDelta_builds {v0 v1 : Int} {v2 v3 : Int} {v4 v5 : Int} :
    LeO (@endpointsRgbDelta Build.debug v0 v1 v2 v3 v4 v5)
      (@endpointsRgbDelta Build.release v0 v1 v2 v3 v4 v5) := by
  unfold endpointsRgbDelta
  repeat' (first | with_reducible apply bitTransferSigned_builds
                 | with_reducible apply endpointsOffset_builds | builds_step)

theorem shlS_builds {a k : Int} : LeO (@shlS Build.debug a k) (@shlS Build.release a k) := by
  unfold shlS
  split
  · exact LeO.same _
  · exact Or.inl rfl

theorem hdr11Combine_builds {major va : Int} {vb0 vb1 : Int} {vc vd0 : Int}
    {vd1 alpha1 alpha2 : Int} :
    LeO (@hdr11Combine Build.debug major va vb0 vb1 vc vd0 vd1 alpha1 alpha2)
      (@hdr11Combine Build.release major va vb0 vb1 vc vd0 vd1 alpha1 alpha2) := by
  unfold hdr11Combine
  repeat' builds_step

theorem hdr11Modes_builds {major mode : Int} {v0 v1 : Int} {v2 v3 : Int} {v4 v5 : Int}
    {alpha1 alpha2 : Int} :
    LeO (@hdr11Modes Build.debug major mode v0 v1 v2 v3 v4 v5 alpha1 alpha2)
      (@hdr11Modes Build.release major mode v0 v1 v2 v3 v4 v5 alpha1 alpha2) := by
  unfold hdr11Modes
  repeat' (first | with_reducible apply shlS_builds | with_reducible apply hdr11Combine_builds
                 | builds_step)

theorem decodeEndpointsHdr11_builds {v : List Int} {alpha1 alpha2 : Int} :
    LeO (@decodeEndpointsHdr11 Build.debug v alpha1 alpha2)
      (@decodeEndpointsHdr11 Build.release v alpha1 alpha2) := by
  unfold decodeEndpointsHdr11
  repeat' (first | with_reducible apply hdr11Modes_builds | builds_step)

theorem endpointsRgbaDelta_builds {v0 v1 : Int} {v2 v3 : Int} {v4 v5 : Int} {v6 v7 : Int} :
    LeO (@endpointsRgbaDelta Build.debug v0 v1 v2 v3 v4 v5 v6 v7)
      (@endpointsRgbaDelta Build.release v0 v1 v2 v3 v4 v5 v6 v7) := by
  unfold endpointsRgbaDelta
  repeat' (first | with_reducible apply bitTransferSigned_builds
                 | with_reducible apply endpointsOffset_builds | builds_step)

theorem shrS_builds {a k : Int} : LeO (@shrS Build.debug a k) (@shrS Build.release a k) := by
  unfold shrS
  split
  · exact LeO.same _
  · exact Or.inl rfl

theorem hdrAlpha_builds {v6 v7 : Int} :
    LeO (@hdrAlpha Build.debug v6 v7) (@hdrAlpha Build.release v6 v7) := by
  unfold hdrAlpha
  repeat' (first | with_reducible apply shlS_builds | with_reducible apply shrS_builds
                 | builds_step)

theorem decodeEndpoint_builds {cem : Nat} {v : List Int} :
    LeO (@decodeEndpoint Build.debug cem v) (@decodeEndpoint Build.release cem v) := by
  unfold decodeEndpoint
  repeat' (first | with_reducible apply endpointsLumaDelta_builds
                 | with_reducible apply endpointsHdrLuma_builds
                 | with_reducible apply endpointsHdrLumaDelta_builds
                 | with_reducible apply endpointsLumaAlphaDelta_builds
                 | with_reducible apply endpointsScale_builds
                 | with_reducible apply decodeEndpointsHdr7_builds
                 | with_reducible apply endpointsDirect_builds
                 | with_reducible apply endpointsRgbDelta_builds
                 | with_reducible apply decodeEndpointsHdr11_builds
                 | with_reducible apply endpointsRgbaDelta_builds
                 | with_reducible apply hdrAlpha_builds | builds_step)

theorem decodeEndpoints_builds {buf : List UInt8} {p : AstcParams} :
    LeO (@decodeEndpoints Build.debug buf p) (@decodeEndpoints Build.release buf p) := by
  unfold decodeEndpoints
  repeat' (first | with_reducible apply colourValues_builds
                 | with_reducible apply decodeEndpoint_builds | builds_step)

theorem weightBump_builds {w : Int} :
    LeO (@weightBump Build.debug w) (@weightBump Build.release w) := by
  unfold weightBump
  repeat' builds_step

theorem weightFinish_builds {w : Int} {s : IntSeqData} :
    LeO (@weightFinish Build.debug w s) (@weightFinish Build.release w s) := by
  unfold weightFinish
  repeat' (first | with_reducible apply weightBump_builds | builds_step)

theorem unquantWeight_builds {a b : Nat} {s : IntSeqData} :
    LeO (@unquantWeight Build.debug a b s) (@unquantWeight Build.release a b s) := by
  unfold unquantWeight
  repeat' (first | with_reducible apply weightBump_builds | with_reducible apply weightFinish_builds
                 | builds_step)

theorem weightValues_builds {buf : List UInt8} {p : AstcParams} :
    LeO (@weightValues Build.debug buf p) (@weightValues Build.release buf p) := by
  unfold weightValues
  repeat' (first | with_reducible apply decodeIntseq_builds
                 | with_reducible apply unquantWeight_builds | builds_step)

theorem infillWeight_builds {wv : List Int} {pn width : Nat} {v p : Nat} {w00 w01 : Int}
    {w10 w11 : Int} :
    LeO (@infillWeight Build.debug wv pn width v p w00 w01 w10 w11)
      (@infillWeight Build.release wv pn width v p w00 w01 w10 w11) := by
  unfold infillWeight
  repeat' builds_step

theorem infillTexel_builds {wv : List Int} {q : AstcParams} {ds dt : Nat} {t s : Nat}
    {st : Nat × List (List Int)} :
    LeO (@infillTexel Build.debug wv q ds dt t s st)
      (@infillTexel Build.release wv q ds dt t s st) := by
  unfold infillTexel
  repeat' (first | with_reducible apply infillWeight_builds | builds_step)

theorem decodeWeights_builds {buf : List UInt8} {bw bh : Nat} {q : AstcParams} :
    LeO (@decodeWeights Build.debug buf bw bh q) (@decodeWeights Build.release buf bw bh q) := by
  unfold decodeWeights
  repeat' (first | with_reducible apply weightValues_builds
                 | with_reducible apply infillTexel_builds | builds_step)

theorem partitionSum_builds {seeds : List Int} {k rnum : Nat} {sh x y : Nat} :
    LeO (@partitionSum Build.debug seeds k rnum sh x y)
      (@partitionSum Build.release seeds k rnum sh x y) := by
  unfold partitionSum
  repeat' builds_step

theorem partitionOf_builds {seeds : List Int} {rnum partNum : Nat} {x y : Nat} :
    LeO (@partitionOf Build.debug seeds rnum partNum x y)
      (@partitionOf Build.release seeds rnum partNum x y) := by
  unfold partitionOf
  repeat' (first | with_reducible apply partitionSum_builds | builds_step)

theorem selectPartition_builds {buf : List UInt8} {bw bh partNum : Nat} :
    LeO (@selectPartition Build.debug buf bw bh partNum)
      (@selectPartition Build.release buf bw bh partNum) := by
  unfold selectPartition
  repeat' (first | with_reducible apply partitionOf_builds | builds_step)

theorem decodeAstcTexels_builds {buf : List UInt8} {bw bh : Nat} {outbuf : List UInt32} :
    LeO (@decodeAstcTexels Build.debug buf bw bh outbuf)
      (@decodeAstcTexels Build.release buf bw bh outbuf) := by
  unfold decodeAstcTexels
  repeat' (first | with_reducible apply decodeBlockParams_builds
                 | with_reducible apply decodeEndpoints_builds
                 | with_reducible apply decodeWeights_builds
                 | with_reducible apply selectPartition_builds
                 | with_reducible apply astcApplicateColor_builds | builds_step)

theorem decodeAstcBlock_builds {buf : List UInt8} {bw bh : Nat} {outbuf : List UInt32} :
    LeO (@decodeAstcBlock Build.debug buf bw bh outbuf)
      (@decodeAstcBlock Build.release buf bw bh outbuf) := by
  unfold decodeAstcBlock
  repeat' (first | with_reducible apply voidColour_builds
                 | with_reducible apply decodeAstcTexels_builds | builds_step)

theorem decodeAstc_builds {data : List UInt8} {width height : Nat} {bw bh : Nat}
    {image : List UInt32} :
    LeO (@decodeAstc Build.debug data width height bw bh image)
      (@decodeAstc Build.release data width height bw bh image) := by
  unfold decodeAstc
  repeat' (first | with_reducible apply decodeAstcBlock_builds
                 | with_reducible apply copyBlockBuffer_builds | builds_step)

theorem decodeAstc10x10_builds {data : List UInt8} {width height : Nat} {image : List UInt32} :
    LeO (@decodeAstc10x10 Build.debug data width height image)
      (@decodeAstc10x10 Build.release data width height image) := by
  unfold decodeAstc10x10
  repeat' (first | with_reducible apply decodeAstc_builds | builds_step)

theorem decodeAstc10x5_builds {data : List UInt8} {width height : Nat} {image : List UInt32} :
    LeO (@decodeAstc10x5 Build.debug data width height image)
      (@decodeAstc10x5 Build.release data width height image) := by
  unfold decodeAstc10x5
  repeat' (first | with_reducible apply decodeAstc_builds | builds_step)

theorem decodeAstc10x6_builds {data : List UInt8} {width height : Nat} {image : List UInt32} :
    LeO (@decodeAstc10x6 Build.debug data width height image)
      (@decodeAstc10x6 Build.release data width height image) := by
  unfold decodeAstc10x6
  repeat' (first | with_reducible apply decodeAstc_builds | builds_step)

theorem decodeAstc10x8_builds {data : List UInt8} {width height : Nat} {image : List UInt32} :
    LeO (@decodeAstc10x8 Build.debug data width height image)
      (@decodeAstc10x8 Build.release data width height image) := by
  unfold decodeAstc10x8
  repeat' (first | with_reducible apply decodeAstc_builds | builds_step)

theorem decodeAstc12x10_builds {data : List UInt8} {width height : Nat} {image : List UInt32} :
    LeO (@decodeAstc12x10 Build.debug data width height image)
      (@decodeAstc12x10 Build.release data width height image) := by
  unfold decodeAstc12x10
  repeat' (first | with_reducible apply decodeAstc_builds | builds_step)

theorem decodeAstc12x12_builds {data : List UInt8} {width height : Nat} {image : List UInt32} :
    LeO (@decodeAstc12x12 Build.debug data width height image)
      (@decodeAstc12x12 Build.release data width height image) := by
  unfold decodeAstc12x12
  repeat' (first | with_reducible apply decodeAstc_builds | builds_step)

theorem decodeAstc4x4_builds {data : List UInt8} {width height : Nat} {image : List UInt32} :
    LeO (@decodeAstc4x4 Build.debug data width height image)
      (@decodeAstc4x4 Build.release data width height image) := by
  unfold decodeAstc4x4
  repeat' (first | with_reducible apply decodeAstc_builds | builds_step)

theorem decodeAstc5x4_builds {data : List UInt8} {width height : Nat} {image : List UInt32} :
    LeO (@decodeAstc5x4 Build.debug data width height image)
      (@decodeAstc5x4 Build.release data width height image) := by
  unfold decodeAstc5x4
  repeat' (first | with_reducible apply decodeAstc_builds | builds_step)

theorem decodeAstc5x5_builds {data : List UInt8} {width height : Nat} {image : List UInt32} :
    LeO (@decodeAstc5x5 Build.debug data width height image)
      (@decodeAstc5x5 Build.release data width height image) := by
  unfold decodeAstc5x5
  repeat' (first | with_reducible apply decodeAstc_builds | builds_step)

theorem decodeAstc6x5_builds {data : List UInt8} {width height : Nat} {image : List UInt32} :
    LeO (@decodeAstc6x5 Build.debug data width height image)
      (@decodeAstc6x5 Build.release data width height image) := by
  unfold decodeAstc6x5
  repeat' (first | with_reducible apply decodeAstc_builds | builds_step)

theorem decodeAstc6x6_builds {data : List UInt8} {width height : Nat} {image : List UInt32} :
    LeO (@decodeAstc6x6 Build.debug data width height image)
      (@decodeAstc6x6 Build.release data width height image) := by
  unfold decodeAstc6x6
  repeat' (first | with_reducible apply decodeAstc_builds | builds_step)

theorem decodeAstc8x5_builds {data : List UInt8} {width height : Nat} {image : List UInt32} :
    LeO (@decodeAstc8x5 Build.debug data width height image)
      (@decodeAstc8x5 Build.release data width height image) := by
  unfold decodeAstc8x5
  repeat' (first | with_reducible apply decodeAstc_builds | builds_step)

theorem decodeAstc8x6_builds {data : List UInt8} {width height : Nat} {image : List UInt32} :
    LeO (@decodeAstc8x6 Build.debug data width height image)
      (@decodeAstc8x6 Build.release data width height image) := by
  unfold decodeAstc8x6
  repeat' (first | with_reducible apply decodeAstc_builds | builds_step)

theorem decodeAstc8x8_builds {data : List UInt8} {width height : Nat} {image : List UInt32} :
    LeO (@decodeAstc8x8 Build.debug data width height image)
      (@decodeAstc8x8 Build.release data width height image) := by
  unfold decodeAstc8x8
  repeat' (first | with_reducible apply decodeAstc_builds | builds_step)

end Verif.Proofs.Builds
