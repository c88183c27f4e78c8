import Verif.Proofs.Builds.Basic
import Verif.Model.Bcn
import Verif.Model.Etc
import Verif.Model.Atc
import Verif.Model.Bc6
import Verif.Model.Bc7

namespace Verif.Proofs.Builds

open Verif Verif.Model

/-! Each function of the block formats in a build with overflow checks panics or has the outcome it has without. -/

theorem copyBlockBuffer_builds {bx by' : Nat} {w h : Nat} {bw bh : Nat} {buffer image : List UInt32}
    :
    LeO (@copyBlockBuffer Build.debug bx by' w h bw bh buffer image)
      (@copyBlockBuffer Build.release bx by' w h bw bh buffer image) := by
  unfold copyBlockBuffer
  repeat' builds_step

theorem blockDecoder_builds {bw bh raw : Nat} {f g : BlockFn} {data : List UInt8}
    {width height : Nat}
    {image : List UInt32} (hf : ∀ d b, LeO (f d b) (g d b)) :
    LeO (@blockDecoder Build.debug bw bh raw f data width height image)
      (@blockDecoder Build.release bw bh raw g data width height image) := by
  unfold blockDecoder
  repeat' (first | with_reducible apply copyBlockBuffer_builds | with_reducible apply hf
                 | builds_step)

theorem mix16_builds {m n : Nat} {d a b : Nat} :
    LeO (@mix16 Build.debug m n d a b) (@mix16 Build.release m n d a b) := by
  unfold mix16
  repeat' builds_step

theorem decodeBc1Core_builds {useAlpha : Bool} {x2 : List UInt8} {x3 : List UInt32} :
    LeO (@decodeBc1Core Build.debug useAlpha x2 x3)
      (@decodeBc1Core Build.release useAlpha x2 x3) := by
  unfold decodeBc1Core
  repeat' (first | with_reducible apply mix16_builds | builds_step)

theorem decodeBc1Block_builds {x1 : List UInt8} {x2 : List UInt32} :
    LeO (@decodeBc1Block Build.debug x1 x2) (@decodeBc1Block Build.release x1 x2) := by
  unfold decodeBc1Block
  repeat' (first | with_reducible apply decodeBc1Core_builds | builds_step)

theorem decodeBc1_builds {data : List UInt8} {width height : Nat} {image : List UInt32} :
    LeO (@decodeBc1 Build.debug data width height image)
      (@decodeBc1 Build.release data width height image) := by
  unfold decodeBc1
  repeat' (first | with_reducible apply blockDecoder_builds
                 | with_reducible apply decodeBc1Block_builds | builds_step)

theorem applicateColor_builds {c : Rgb} {m : Int} :
    LeO (@applicateColor Build.debug c m) (@applicateColor Build.release c m) := by
  unfold applicateColor
  repeat' builds_step

theorem etc1Paint_builds {d3 : Nat} {c : Rgb × Rgb} {j k : Nat} {outbuf : List UInt32} :
    LeO (@etc1Paint Build.debug d3 c j k outbuf) (@etc1Paint Build.release d3 c j k outbuf) := by
  unfold etc1Paint
  repeat' (first | with_reducible apply applicateColor_builds | builds_step)

theorem decodeEtc1Block_builds {x1 : List UInt8} {x2 : List UInt32} :
    LeO (@decodeEtc1Block Build.debug x1 x2) (@decodeEtc1Block Build.release x1 x2) := by
  unfold decodeEtc1Block
  repeat' (first | with_reducible apply etc1Paint_builds | builds_step)

theorem decodeEtc1_builds {data : List UInt8} {width height : Nat} {image : List UInt32} :
    LeO (@decodeEtc1 Build.debug data width height image)
      (@decodeEtc1 Build.release data width height image) := by
  unfold decodeEtc1
  repeat' (first | with_reducible apply blockDecoder_builds
                 | with_reducible apply decodeEtc1Block_builds | builds_step)

theorem mixA_builds {m n : Nat} {d a b : Nat} :
    LeO (@mixA Build.debug m n d a b) (@mixA Build.release m n d a b) := by
  unfold mixA
  repeat' builds_step

theorem bc3Table_builds {a0 a1 : Nat} :
    LeO (@bc3Table Build.debug a0 a1) (@bc3Table Build.release a0 a1) := by
  unfold bc3Table
  repeat' (first | with_reducible apply mixA_builds | builds_step)

theorem decodeBc3Alpha_builds {channel : Nat} {x2 : List UInt8} {x3 : List UInt32} :
    LeO (@decodeBc3Alpha Build.debug channel x2 x3)
      (@decodeBc3Alpha Build.release channel x2 x3) := by
  unfold decodeBc3Alpha
  repeat' (first | with_reducible apply bc3Table_builds | builds_step)

theorem decodeBc3Block_builds {x1 : List UInt8} {x2 : List UInt32} :
    LeO (@decodeBc3Block Build.debug x1 x2) (@decodeBc3Block Build.release x1 x2) := by
  unfold decodeBc3Block
  repeat' (first | with_reducible apply decodeBc1Block_builds
                 | with_reducible apply decodeBc3Alpha_builds | builds_step)

theorem decodeBc3_builds {data : List UInt8} {width height : Nat} {image : List UInt32} :
    LeO (@decodeBc3 Build.debug data width height image)
      (@decodeBc3 Build.release data width height image) := by
  unfold decodeBc3
  repeat' (first | with_reducible apply blockDecoder_builds
                 | with_reducible apply decodeBc3Block_builds | builds_step)

theorem decodeBc4Block_builds {x1 : List UInt8} {x2 : List UInt32} :
    LeO (@decodeBc4Block Build.debug x1 x2) (@decodeBc4Block Build.release x1 x2) := by
  unfold decodeBc4Block
  repeat' (first | with_reducible apply decodeBc3Alpha_builds | builds_step)

theorem decodeBc4_builds {data : List UInt8} {width height : Nat} {image : List UInt32} :
    LeO (@decodeBc4 Build.debug data width height image)
      (@decodeBc4 Build.release data width height image) := by
  unfold decodeBc4
  repeat' (first | with_reducible apply blockDecoder_builds
                 | with_reducible apply decodeBc4Block_builds | builds_step)

theorem decodeBc5Block_builds {x1 : List UInt8} {x2 : List UInt32} :
    LeO (@decodeBc5Block Build.debug x1 x2) (@decodeBc5Block Build.release x1 x2) := by
  unfold decodeBc5Block
  repeat' (first | with_reducible apply decodeBc3Alpha_builds | builds_step)

theorem decodeBc5_builds {data : List UInt8} {width height : Nat} {image : List UInt32} :
    LeO (@decodeBc5 Build.debug data width height image)
      (@decodeBc5 Build.release data width height image) := by
  unfold decodeBc5
  repeat' (first | with_reducible apply blockDecoder_builds
                 | with_reducible apply decodeBc5Block_builds | builds_step)

theorem etc2Delta_builds {d : Nat} :
    LeO (@etc2Delta Build.debug d) (@etc2Delta Build.release d) := by
  unfold etc2Delta
  repeat' builds_step

theorem etc2Sum_builds {d : Nat} :
    LeO (@etc2Sum Build.debug d) (@etc2Sum Build.release d) := by
  unfold etc2Sum
  repeat' (first | with_reducible apply etc2Delta_builds | builds_step)

theorem etc2TSet_builds {d3 : Nat} {c : Rgb × Rgb} :
    LeO (@etc2TSet Build.debug d3 c) (@etc2TSet Build.release d3 c) := by
  unfold etc2TSet
  repeat' (first | with_reducible apply applicateColor_builds | builds_step)

theorem etc2HSet_builds {d3 : Nat} {c : Rgb × Rgb} :
    LeO (@etc2HSet Build.debug d3 c) (@etc2HSet Build.release d3 c) := by
  unfold etc2HSet
  repeat' (first | with_reducible apply applicateColor_builds | builds_step)

theorem planarChannel_builds {x y : Nat} {co ch cv : Nat} :
    LeO (@planarChannel Build.debug x y co ch cv) (@planarChannel Build.release x y co ch cv) := by
  unfold planarChannel
  repeat' builds_step

theorem etc2PlanarPaint_builds {c : Rgb × Rgb × Rgb} {outbuf : List UInt32} :
    LeO (@etc2PlanarPaint Build.debug c outbuf) (@etc2PlanarPaint Build.release c outbuf) := by
  unfold etc2PlanarPaint
  repeat' (first | with_reducible apply planarChannel_builds | builds_step)

theorem decodeEtc2RgbBlock_builds {x1 : List UInt8} {x2 : List UInt32} :
    LeO (@decodeEtc2RgbBlock Build.debug x1 x2) (@decodeEtc2RgbBlock Build.release x1 x2) := by
  unfold decodeEtc2RgbBlock
  repeat' (first | with_reducible apply etc2Sum_builds | with_reducible apply etc2TSet_builds
                 | with_reducible apply etc2HSet_builds
                 | with_reducible apply etc2PlanarPaint_builds
                 | with_reducible apply etc1Paint_builds | builds_step)

theorem decodeEtc2Rgb_builds {data : List UInt8} {width height : Nat} {image : List UInt32} :
    LeO (@decodeEtc2Rgb Build.debug data width height image)
      (@decodeEtc2Rgb Build.release data width height image) := by
  unfold decodeEtc2Rgb
  repeat' (first | with_reducible apply blockDecoder_builds
                 | with_reducible apply decodeEtc2RgbBlock_builds | builds_step)

theorem decodeEtc2A8Block_builds {x1 : List UInt8} {x2 : List UInt32} :
    LeO (@decodeEtc2A8Block Build.debug x1 x2) (@decodeEtc2A8Block Build.release x1 x2) := by
  unfold decodeEtc2A8Block
  repeat' builds_step

theorem decodeEtc2Rgba8Block_builds {x1 : List UInt8} {x2 : List UInt32} :
    LeO (@decodeEtc2Rgba8Block Build.debug x1 x2) (@decodeEtc2Rgba8Block Build.release x1 x2) := by
  unfold decodeEtc2Rgba8Block
  repeat' (first | with_reducible apply decodeEtc2RgbBlock_builds
                 | with_reducible apply decodeEtc2A8Block_builds | builds_step)

theorem decodeEtc2Rgba8_builds {data : List UInt8} {width height : Nat} {image : List UInt32} :
    LeO (@decodeEtc2Rgba8 Build.debug data width height image)
      (@decodeEtc2Rgba8 Build.release data width height image) := by
  unfold decodeEtc2Rgba8
  repeat' (first | with_reducible apply blockDecoder_builds
                 | with_reducible apply decodeEtc2Rgba8Block_builds | builds_step)

theorem applicateColorAlpha_builds {c : Rgb} {m : Int} {transparent : Bool} :
    LeO (@applicateColorAlpha Build.debug c m transparent)
      (@applicateColorAlpha Build.release c m transparent) := by
  unfold applicateColorAlpha
  repeat' builds_step

theorem fp16ToFp32_builds {h : Nat} :
    LeO (@fp16ToFp32 Build.debug h) (@fp16ToFp32 Build.release h) := by
  unfold fp16ToFp32
  repeat' builds_step

theorem getbitsRaw_builds {buf : List UInt8} {bitOffset numBits : Nat} {dst : List UInt8} :
    LeO (@getbitsRaw Build.debug buf bitOffset numBits dst)
      (@getbitsRaw Build.release buf bitOffset numBits dst) := by
  unfold getbitsRaw
  repeat' builds_step

theorem getbits_builds {buf : List UInt8} {bitOffset numBits : Nat} :
    LeO (@getbits Build.debug buf bitOffset numBits)
      (@getbits Build.release buf bitOffset numBits) := by
  unfold getbits
  repeat' (first | with_reducible apply getbitsRaw_builds | builds_step)

theorem atcExpand_builds {v bits : Nat} :
    LeO (@atcExpand Build.debug v bits) (@atcExpand Build.release v bits) := by
  unfold atcExpand
  repeat' builds_step

theorem atcFirst_builds {c0 : Nat} :
    LeO (@atcFirst Build.debug c0) (@atcFirst Build.release c0) := by
  unfold atcFirst
  repeat' (first | with_reducible apply atcExpand_builds | builds_step)

theorem atcSecond_builds {c1 : Nat} :
    LeO (@atcSecond Build.debug c1) (@atcSecond Build.release c1) := by
  unfold atcSecond
  repeat' (first | with_reducible apply atcExpand_builds | builds_step)

theorem interopColors_builds {c0 c1 : Nat} :
    LeO (@interopColors Build.debug c0 c1) (@interopColors Build.release c0 c1) := by
  unfold interopColors
  repeat' builds_step

theorem atcColors_builds {c0 c1 : Nat} :
    LeO (@atcColors Build.debug c0 c1) (@atcColors Build.release c0 c1) := by
  unfold atcColors
  repeat' (first | with_reducible apply atcFirst_builds | with_reducible apply atcSecond_builds
                 | with_reducible apply interopColors_builds | builds_step)

theorem peek_builds {data : List UInt8} {bitPos offset numBits : Nat} :
    LeO (@peek Build.debug data bitPos offset numBits)
      (@peek Build.release data bitPos offset numBits) := by
  unfold peek
  repeat' (first | with_reducible apply getbitsRaw_builds | builds_step)

theorem readBits_builds {data : List UInt8} {bitPos numBits : Nat} :
    LeO (@readBits Build.debug data bitPos numBits)
      (@readBits Build.release data bitPos numBits) := by
  unfold readBits
  repeat' (first | with_reducible apply peek_builds | builds_step)

theorem modIdx_builds {ep : List Nat} {j : Nat} {f g : Nat → Out Nat} (hf : ∀ x, LeO (f x) (g x)) :
    LeO (modIdx ep j f) (modIdx ep j g) := by
  unfold modIdx
  repeat' (first | with_reducible apply hf | builds_step)

theorem bc6Read_builds {data : List UInt8} {l : List Bc6Stmt} {pos : Nat} {ep : List Nat} :
    LeO (@bc6Read Build.debug data l pos ep) (@bc6Read Build.release data l pos ep) := by
  induction l generalizing pos ep with
  | nil => exact LeO.same _
  | cons st rest ih =>
    unfold bc6Read
    repeat' (first | with_reducible apply ih | with_reducible apply readBits_builds | builds_step)

theorem signExtend_builds {value numBits : Nat} :
    LeO (@signExtend Build.debug value numBits) (@signExtend Build.release value numBits) := by
  unfold signExtend
  repeat' builds_step

theorem bc6Delta_builds {mi : Bc6ModeInfo} {signed : Bool} {ii : Nat} {ep : List Nat} :
    LeO (@bc6Delta Build.debug mi signed ii ep) (@bc6Delta Build.release mi signed ii ep) := by
  unfold bc6Delta
  repeat' (first | with_reducible apply modIdx_builds | with_reducible apply signExtend_builds
                 | builds_step)

theorem unquantize_builds {value : Nat} {signed : Bool} {endpointBits : Nat} :
    LeO (@unquantize Build.debug value signed endpointBits)
      (@unquantize Build.release value signed endpointBits) := by
  unfold unquantize
  repeat' builds_step

theorem bc6Endpoints_builds {mi : Bc6ModeInfo} {signed : Bool} {ep : List Nat} :
    LeO (@bc6Endpoints Build.debug mi signed ep) (@bc6Endpoints Build.release mi signed ep) := by
  unfold bc6Endpoints
  repeat' (first | with_reducible apply modIdx_builds | with_reducible apply signExtend_builds
                 | with_reducible apply bc6Delta_builds | with_reducible apply unquantize_builds
                 | builds_step)

theorem bc6Subset_builds {mi : Bc6ModeInfo} {partitionSetIdx i : Nat} :
    LeO (@bc6Subset Build.debug mi partitionSetIdx i)
      (@bc6Subset Build.release mi partitionSetIdx i) := by
  unfold bc6Subset
  repeat' builds_step

theorem finishUnquantize_builds {value : Nat} {signed : Bool} :
    LeO (@finishUnquantize Build.debug value signed)
      (@finishUnquantize Build.release value signed) := by
  unfold finishUnquantize
  repeat' builds_step

theorem bc6Channel_builds {ep : List Nat} {c s : Nat} {fca fcb : Nat} {signed : Bool} :
    LeO (@bc6Channel Build.debug ep c s fca fcb signed)
      (@bc6Channel Build.release ep c s fca fcb signed) := by
  unfold bc6Channel
  repeat' (first | with_reducible apply finishUnquantize_builds | builds_step)

theorem f16ToU8_builds {h : Nat} :
    LeO (@f16ToU8 Build.debug h) (@f16ToU8 Build.release h) := by
  unfold f16ToU8
  repeat' (first | with_reducible apply fp16ToFp32_builds | builds_step)

theorem bc6Texel_builds {data : List UInt8} {mi : Bc6ModeInfo} {signed : Bool}
    {partitionSetIdx indexBits : Nat} {factors ep : List Nat} {i : Nat} {st : Nat × List UInt32} :
    LeO (@bc6Texel Build.debug data mi signed partitionSetIdx indexBits factors ep i st)
      (@bc6Texel Build.release data mi signed partitionSetIdx indexBits factors ep i st) := by
  unfold bc6Texel
  repeat' (first | with_reducible apply bc6Subset_builds | with_reducible apply readBits_builds
                 | with_reducible apply bc6Channel_builds | with_reducible apply f16ToU8_builds
                 | builds_step)

theorem bc6Body_builds {data : List UInt8} {outbuf : List UInt32} {signed : Bool} {mode pos : Nat} :
    LeO (@bc6Body Build.debug data outbuf signed mode pos)
      (@bc6Body Build.release data outbuf signed mode pos) := by
  unfold bc6Body
  repeat' (first | with_reducible apply bc6Read_builds | with_reducible apply bc6Endpoints_builds
                 | with_reducible apply readBits_builds | with_reducible apply bc6Texel_builds
                 | builds_step)

theorem expandQuantized_builds {v bits : Nat} :
    LeO (@expandQuantized Build.debug v bits) (@expandQuantized Build.release v bits) := by
  unfold expandQuantized
  repeat' builds_step

theorem expandIdx_builds {ep : List Nat} {j bits : Nat} :
    LeO (@expandIdx Build.debug ep j bits) (@expandIdx Build.release ep j bits) := by
  unfold expandIdx
  repeat' (first | with_reducible apply expandQuantized_builds | builds_step)

theorem bc7ExpandAlpha_builds {numSubsets bits : Nat} {a : List Nat} :
    LeO (@bc7ExpandAlpha Build.debug numSubsets bits a)
      (@bc7ExpandAlpha Build.release numSubsets bits a) := by
  unfold bc7ExpandAlpha
  repeat' (first | with_reducible apply expandIdx_builds | builds_step)

theorem bc7ExpandColor_builds {numSubsets bits : Nat} {ep : Endpoints} :
    LeO (@bc7ExpandColor Build.debug numSubsets bits ep)
      (@bc7ExpandColor Build.release numSubsets bits ep) := by
  unfold bc7ExpandColor
  repeat' (first | with_reducible apply expandIdx_builds | builds_step)

theorem bc7Lerp_builds {ep : List Nat} {s wa wb : Nat} :
    LeO (@bc7Lerp Build.debug ep s wa wb) (@bc7Lerp Build.release ep s wa wb) := by
  unfold bc7Lerp
  repeat' builds_step

theorem bc7Mode_builds {data : List UInt8} {fuel mode pos : Nat} :
    LeO (@bc7Mode Build.debug data fuel mode pos) (@bc7Mode Build.release data fuel mode pos) := by
  induction fuel generalizing mode pos with
  | zero => exact LeO.same _
  | succ fuel ih =>
    unfold bc7Mode
    repeat' (first | with_reducible apply ih | with_reducible apply readBits_builds | builds_step)

theorem bc7PBits_builds {data : List UInt8} {mi : Bc7ModeInfo} {modePbits pos : Nat}
    {ep : Endpoints} :
    LeO (@bc7PBits Build.debug data mi modePbits pos ep)
      (@bc7PBits Build.release data mi modePbits pos ep) := by
  unfold bc7PBits
  repeat' (first | with_reducible apply readBits_builds | builds_step)

theorem bc7ReadEndpoints_builds {data : List UInt8} {numSubsets bits : Nat} {pbits pos : Nat}
    {ep : List Nat} :
    LeO (@bc7ReadEndpoints Build.debug data numSubsets bits pbits pos ep)
      (@bc7ReadEndpoints Build.release data numSubsets bits pbits pos ep) := by
  unfold bc7ReadEndpoints
  repeat' (first | with_reducible apply readBits_builds | builds_step)

theorem bc7Subset_builds {numSubsets partitionSetIdx i : Nat} :
    LeO (@bc7Subset Build.debug numSubsets partitionSetIdx i)
      (@bc7Subset Build.release numSubsets partitionSetIdx i) := by
  unfold bc7Subset
  repeat' builds_step

theorem bc7Texel_builds {data : List UInt8} {pos : Nat} {mi : Bc7ModeInfo}
    {partitionSetIdx rotationMode indexSelectionMode : Nat} {factors : List (List Nat)}
    {ep : Endpoints} {i : Nat} {s : (Nat × Nat) × List UInt32} :
    LeO (@bc7Texel Build.debug data pos mi partitionSetIdx rotationMode indexSelectionMode factors ep i s)
      (@bc7Texel Build.release data pos mi partitionSetIdx rotationMode indexSelectionMode factors ep i s) := by
  unfold bc7Texel
  repeat' (first | with_reducible apply bc7Subset_builds | with_reducible apply peek_builds
                 | with_reducible apply bc7Lerp_builds | builds_step)

theorem getbits64_builds {buf : List UInt8} {bit : Int} {len : Nat} :
    LeO (@getbits64 Build.debug buf bit len) (@getbits64 Build.release buf bit len) := by
  unfold getbits64
  repeat' builds_step

theorem decodeAtcRgb4Block_builds {x1 : List UInt8} {x2 : List UInt32} :
    LeO (@decodeAtcRgb4Block Build.debug x1 x2) (@decodeAtcRgb4Block Build.release x1 x2) := by
  unfold decodeAtcRgb4Block
  repeat' (first | with_reducible apply atcColors_builds | builds_step)

theorem decodeAtcRgb4_builds {data : List UInt8} {width height : Nat} {image : List UInt32} :
    LeO (@decodeAtcRgb4 Build.debug data width height image)
      (@decodeAtcRgb4 Build.release data width height image) := by
  unfold decodeAtcRgb4
  repeat' (first | with_reducible apply blockDecoder_builds
                 | with_reducible apply decodeAtcRgb4Block_builds | builds_step)

theorem decodeAtcRgba8Block_builds {x1 : List UInt8} {x2 : List UInt32} :
    LeO (@decodeAtcRgba8Block Build.debug x1 x2) (@decodeAtcRgba8Block Build.release x1 x2) := by
  unfold decodeAtcRgba8Block
  repeat' (first | with_reducible apply decodeAtcRgb4Block_builds
                 | with_reducible apply decodeBc3Alpha_builds | builds_step)

theorem decodeAtcRgba8_builds {data : List UInt8} {width height : Nat} {image : List UInt32} :
    LeO (@decodeAtcRgba8 Build.debug data width height image)
      (@decodeAtcRgba8 Build.release data width height image) := by
  unfold decodeAtcRgba8
  repeat' (first | with_reducible apply blockDecoder_builds
                 | with_reducible apply decodeAtcRgba8Block_builds | builds_step)

theorem decodeBc1aBlock_builds {x1 : List UInt8} {x2 : List UInt32} :
    LeO (@decodeBc1aBlock Build.debug x1 x2) (@decodeBc1aBlock Build.release x1 x2) := by
  unfold decodeBc1aBlock
  repeat' (first | with_reducible apply decodeBc1Core_builds | builds_step)

theorem decodeBc1a_builds {data : List UInt8} {width height : Nat} {image : List UInt32} :
    LeO (@decodeBc1a Build.debug data width height image)
      (@decodeBc1a Build.release data width height image) := by
  unfold decodeBc1a
  repeat' (first | with_reducible apply blockDecoder_builds
                 | with_reducible apply decodeBc1aBlock_builds | builds_step)

theorem decodeBc2Alpha_builds {channel : Nat} {x2 : List UInt8} {x3 : List UInt32} :
    LeO (@decodeBc2Alpha Build.debug channel x2 x3)
      (@decodeBc2Alpha Build.release channel x2 x3) := by
  unfold decodeBc2Alpha
  repeat' builds_step

theorem decodeBc2Block_builds {x1 : List UInt8} {x2 : List UInt32} :
    LeO (@decodeBc2Block Build.debug x1 x2) (@decodeBc2Block Build.release x1 x2) := by
  unfold decodeBc2Block
  repeat' (first | with_reducible apply decodeBc1Block_builds
                 | with_reducible apply decodeBc2Alpha_builds | builds_step)

theorem decodeBc2_builds {data : List UInt8} {width height : Nat} {image : List UInt32} :
    LeO (@decodeBc2 Build.debug data width height image)
      (@decodeBc2 Build.release data width height image) := by
  unfold decodeBc2
  repeat' (first | with_reducible apply blockDecoder_builds
                 | with_reducible apply decodeBc2Block_builds | builds_step)

theorem decodeBc6Block_builds {signed : Bool} {x2 : List UInt8} {x3 : List UInt32} :
    LeO (@decodeBc6Block Build.debug signed x2 x3)
      (@decodeBc6Block Build.release signed x2 x3) := by
  unfold decodeBc6Block
  repeat' (first | with_reducible apply readBits_builds | with_reducible apply bc6Body_builds
                 | builds_step)

theorem decodeBc6BlockSigned_builds {x1 : List UInt8} {x2 : List UInt32} :
    LeO (@decodeBc6BlockSigned Build.debug x1 x2) (@decodeBc6BlockSigned Build.release x1 x2) := by
  unfold decodeBc6BlockSigned
  repeat' (first | with_reducible apply decodeBc6Block_builds | builds_step)

theorem decodeBc6Signed_builds {data : List UInt8} {width height : Nat} {image : List UInt32} :
    LeO (@decodeBc6Signed Build.debug data width height image)
      (@decodeBc6Signed Build.release data width height image) := by
  unfold decodeBc6Signed
  repeat' (first | with_reducible apply blockDecoder_builds
                 | with_reducible apply decodeBc6BlockSigned_builds | builds_step)

theorem decodeBc6BlockUnsigned_builds {x1 : List UInt8} {x2 : List UInt32} :
    LeO (@decodeBc6BlockUnsigned Build.debug x1 x2)
      (@decodeBc6BlockUnsigned Build.release x1 x2) := by
  unfold decodeBc6BlockUnsigned
  repeat' (first | with_reducible apply decodeBc6Block_builds | builds_step)

theorem decodeBc6Unsigned_builds {data : List UInt8} {width height : Nat} {image : List UInt32} :
    LeO (@decodeBc6Unsigned Build.debug data width height image)
      (@decodeBc6Unsigned Build.release data width height image) := by
  unfold decodeBc6Unsigned
  repeat' (first | with_reducible apply blockDecoder_builds
                 | with_reducible apply decodeBc6BlockUnsigned_builds | builds_step)

theorem decodeBc6_builds {data : List UInt8} {w h : Nat} {image : List UInt32} {signed : Bool} :
    LeO (@decodeBc6 Build.debug data w h image signed)
      (@decodeBc6 Build.release data w h image signed) := by
  unfold decodeBc6
  repeat' (first | with_reducible apply decodeBc6Signed_builds
                 | with_reducible apply decodeBc6Unsigned_builds | builds_step)

theorem decodeBc7Block_builds {x1 : List UInt8} {x2 : List UInt32} :
    LeO (@decodeBc7Block Build.debug x1 x2) (@decodeBc7Block Build.release x1 x2) := by
  unfold decodeBc7Block
  repeat' (first | with_reducible apply bc7Mode_builds | with_reducible apply readBits_builds
                 | with_reducible apply bc7ReadEndpoints_builds
                 | with_reducible apply bc7PBits_builds | with_reducible apply bc7ExpandColor_builds
                 | with_reducible apply bc7ExpandAlpha_builds | with_reducible apply bc7Texel_builds
                 | builds_step)

theorem decodeBc7_builds {data : List UInt8} {width height : Nat} {image : List UInt32} :
    LeO (@decodeBc7 Build.debug data width height image)
      (@decodeBc7 Build.release data width height image) := by
  unfold decodeBc7
  repeat' (first | with_reducible apply blockDecoder_builds
                 | with_reducible apply decodeBc7Block_builds | builds_step)

theorem eacCore_builds {base bias : Int} {data : List UInt8} {channel : Nat} {outbuf : List UInt32}
    :
    LeO (@eacCore Build.debug base bias data channel outbuf)
      (@eacCore Build.release base bias data channel outbuf) := by
  unfold eacCore
  repeat' builds_step

theorem decodeEacBlock_builds {data : List UInt8} {channel : Nat} {outbuf : List UInt32} :
    LeO (@decodeEacBlock Build.debug data channel outbuf)
      (@decodeEacBlock Build.release data channel outbuf) := by
  unfold decodeEacBlock
  repeat' (first | with_reducible apply eacCore_builds | builds_step)

theorem decodeEacSignedBlock_builds {data : List UInt8} {channel : Nat} {outbuf : List UInt32} :
    LeO (@decodeEacSignedBlock Build.debug data channel outbuf)
      (@decodeEacSignedBlock Build.release data channel outbuf) := by
  unfold decodeEacSignedBlock
  repeat' (first | with_reducible apply eacCore_builds | builds_step)

theorem decodeEacrBlock_builds {x1 : List UInt8} {x2 : List UInt32} :
    LeO (@decodeEacrBlock Build.debug x1 x2) (@decodeEacrBlock Build.release x1 x2) := by
  unfold decodeEacrBlock
  repeat' (first | with_reducible apply decodeEacBlock_builds | builds_step)

theorem decodeEacr_builds {data : List UInt8} {width height : Nat} {image : List UInt32} :
    LeO (@decodeEacr Build.debug data width height image)
      (@decodeEacr Build.release data width height image) := by
  unfold decodeEacr
  repeat' (first | with_reducible apply blockDecoder_builds
                 | with_reducible apply decodeEacrBlock_builds | builds_step)

theorem decodeEacrSignedBlock_builds {x1 : List UInt8} {x2 : List UInt32} :
    LeO (@decodeEacrSignedBlock Build.debug x1 x2)
      (@decodeEacrSignedBlock Build.release x1 x2) := by
  unfold decodeEacrSignedBlock
  repeat' (first | with_reducible apply decodeEacSignedBlock_builds | builds_step)

theorem decodeEacrSigned_builds {data : List UInt8} {width height : Nat} {image : List UInt32} :
    LeO (@decodeEacrSigned Build.debug data width height image)
      (@decodeEacrSigned Build.release data width height image) := by
  unfold decodeEacrSigned
  repeat' (first | with_reducible apply blockDecoder_builds
                 | with_reducible apply decodeEacrSignedBlock_builds | builds_step)

theorem decodeEacrgBlock_builds {x1 : List UInt8} {x2 : List UInt32} :
    LeO (@decodeEacrgBlock Build.debug x1 x2) (@decodeEacrgBlock Build.release x1 x2) := by
  unfold decodeEacrgBlock
  repeat' (first | with_reducible apply decodeEacBlock_builds | builds_step)

theorem decodeEacrg_builds {data : List UInt8} {width height : Nat} {image : List UInt32} :
    LeO (@decodeEacrg Build.debug data width height image)
      (@decodeEacrg Build.release data width height image) := by
  unfold decodeEacrg
  repeat' (first | with_reducible apply blockDecoder_builds
                 | with_reducible apply decodeEacrgBlock_builds | builds_step)

theorem decodeEacrgSignedBlock_builds {x1 : List UInt8} {x2 : List UInt32} :
    LeO (@decodeEacrgSignedBlock Build.debug x1 x2)
      (@decodeEacrgSignedBlock Build.release x1 x2) := by
  unfold decodeEacrgSignedBlock
  repeat' (first | with_reducible apply decodeEacSignedBlock_builds | builds_step)

theorem decodeEacrgSigned_builds {data : List UInt8} {width height : Nat} {image : List UInt32} :
    LeO (@decodeEacrgSigned Build.debug data width height image)
      (@decodeEacrgSigned Build.release data width height image) := by
  unfold decodeEacrgSigned
  repeat' (first | with_reducible apply blockDecoder_builds
                 | with_reducible apply decodeEacrgSignedBlock_builds | builds_step)

theorem etc2aPaint_builds {obaq : Bool} {d3 : Nat} {c : Rgb × Rgb} {j k : Nat}
    {outbuf : List UInt32} :
    LeO (@etc2aPaint Build.debug obaq d3 c j k outbuf)
      (@etc2aPaint Build.release obaq d3 c j k outbuf) := by
  unfold etc2aPaint
  repeat' (first | with_reducible apply applicateColorAlpha_builds | builds_step)

theorem decodeEtc2Rgba1Block_builds {x1 : List UInt8} {x2 : List UInt32} :
    LeO (@decodeEtc2Rgba1Block Build.debug x1 x2) (@decodeEtc2Rgba1Block Build.release x1 x2) := by
  unfold decodeEtc2Rgba1Block
  repeat' (first | with_reducible apply etc2Sum_builds | with_reducible apply etc2TSet_builds
                 | with_reducible apply etc2HSet_builds
                 | with_reducible apply etc2PlanarPaint_builds
                 | with_reducible apply etc2aPaint_builds | builds_step)

theorem decodeEtc2Rgba1_builds {data : List UInt8} {width height : Nat} {image : List UInt32} :
    LeO (@decodeEtc2Rgba1 Build.debug data width height image)
      (@decodeEtc2Rgba1 Build.release data width height image) := by
  unfold decodeEtc2Rgba1
  repeat' (first | with_reducible apply blockDecoder_builds
                 | with_reducible apply decodeEtc2Rgba1Block_builds | builds_step)

end Verif.Proofs.Builds
