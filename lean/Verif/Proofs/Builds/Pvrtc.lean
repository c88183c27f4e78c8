import Verif.Proofs.Builds.Blocks
import Verif.Model.Pvrtc

namespace Verif.Proofs.Builds

open Verif Verif.Model

/-! Each function of PVRTC in a build with overflow checks panics or has the outcome it has without. -/

theorem pvAccumulate_builds {acc : PvColorInt} {c : PvColor} {w : Int} :
    LeO (@pvAccumulate Build.debug acc c w) (@pvAccumulate Build.release acc c w) := by
  unfold pvAccumulate
  repeat' builds_step

theorem pvNeighbours_builds {info : List PvInfo} {wx wy : List Int} :
    LeO (@pvNeighbours Build.debug info wx wy) (@pvNeighbours Build.release info wx wy) := by
  unfold pvNeighbours
  repeat' (first | with_reducible apply pvAccumulate_builds | builds_step)

theorem pvScale_builds {s t : Nat} {v : Int} :
    LeO (@pvScale Build.debug s t v) (@pvScale Build.release s t v) := by
  unfold pvScale
  repeat' builds_step

theorem pvScaleColor_builds {is2 : Bool} {c : PvColorInt} :
    LeO (@pvScaleColor Build.debug is2 c) (@pvScaleColor Build.release is2 c) := by
  unfold pvScaleColor
  repeat' (first | with_reducible apply pvScale_builds | builds_step)

theorem pvColors_builds {is2 : Bool} {info : List PvInfo} :
    LeO (@pvColors Build.debug is2 info) (@pvColors Build.release is2 info) := by
  unfold pvColors
  repeat' (first | with_reducible apply pvNeighbours_builds
                 | with_reducible apply pvScaleColor_builds | builds_step)

theorem pvNeighbourWeight_builds {info : List PvInfo} {pos : List (Int × Int)} {k i : Nat} :
    LeO (@pvNeighbourWeight Build.debug info pos k i)
      (@pvNeighbourWeight Build.release info pos k i) := by
  unfold pvNeighbourWeight
  repeat' builds_step

theorem pvResolve_builds {info : List PvInfo} {x y i : Nat} {w : Int} :
    LeO (@pvResolve Build.debug info x y i w) (@pvResolve Build.release info x y i w) := by
  unfold pvResolve
  repeat' (first | with_reducible apply pvNeighbourWeight_builds | builds_step)

theorem interpolateColor_builds {c1 c2 w : Int} :
    LeO (@interpolateColor Build.debug c1 c2 w) (@interpolateColor Build.release c1 c2 w) := by
  unfold interpolateColor
  repeat' builds_step

theorem pvPixel_builds {ca cb : List PvColorInt} {flag i : Nat} {w : Int} :
    LeO (@pvPixel Build.debug ca cb flag i w) (@pvPixel Build.release ca cb flag i w) := by
  unfold pvPixel
  repeat' (first | with_reducible apply interpolateColor_builds | builds_step)

theorem applicateColor2_builds {info : List PvInfo} {buf : List UInt32} :
    LeO (@applicateColor2 Build.debug info buf) (@applicateColor2 Build.release info buf) := by
  unfold applicateColor2
  repeat' (first | with_reducible apply pvColors_builds | with_reducible apply pvResolve_builds
                 | with_reducible apply pvPixel_builds | builds_step)

theorem applicateColor4_builds {info : List PvInfo} {buf : List UInt32} :
    LeO (@applicateColor4 Build.debug info buf) (@applicateColor4 Build.release info buf) := by
  unfold applicateColor4
  repeat' (first | with_reducible apply pvColors_builds | with_reducible apply pvPixel_builds
                 | builds_step)

theorem pvNotPow2_builds {n : Nat} :
    LeO (@pvNotPow2 Build.debug n) (@pvNotPow2 Build.release n) := by
  unfold pvNotPow2
  repeat' builds_step

theorem pvFill_builds {flag : Int} {weight : List Int} :
    LeO (@pvFill Build.debug flag weight) (@pvFill Build.release flag weight) := by
  unfold pvFill
  repeat' builds_step

theorem pvStore_builds {modBits : Nat} {weight : List Int} :
    LeO (@pvStore Build.debug modBits weight) (@pvStore Build.release modBits weight) := by
  unfold pvStore
  repeat' builds_step

theorem pvRound_builds {k : Nat} {weight : List Int} :
    LeO (@pvRound Build.debug k weight) (@pvRound Build.release k weight) := by
  unfold pvRound
  repeat' builds_step

theorem getTexelWeights2_builds {data : List UInt8} {info : PvInfo} :
    LeO (@getTexelWeights2 Build.debug data info) (@getTexelWeights2 Build.release data info) := by
  unfold getTexelWeights2
  repeat' (first | with_reducible apply pvFill_builds | with_reducible apply pvStore_builds
                 | with_reducible apply pvRound_builds | builds_step)

theorem getTexelWeights4_builds {data : List UInt8} {info : PvInfo} :
    LeO (@getTexelWeights4 Build.debug data info) (@getTexelWeights4 Build.release data info) := by
  unfold getTexelWeights4
  repeat' builds_step

theorem pvInfos_builds {is2 : Bool} {data : List UInt8} {n : Nat} :
    LeO (@pvInfos Build.debug is2 data n) (@pvInfos Build.release is2 data n) := by
  unfold pvInfos
  repeat' (first | with_reducible apply getTexelWeights2_builds
                 | with_reducible apply getTexelWeights4_builds | builds_step)

theorem pvPos_builds {b n : Nat} :
    LeO (@pvPos Build.debug b n) (@pvPos Build.release b n) := by
  unfold pvPos
  repeat' builds_step

theorem mortonLoop_builds {x y minDim fuel : Nat} {s : Nat × Nat × Nat} :
    LeO (@mortonLoop Build.debug x y minDim fuel s)
      (@mortonLoop Build.release x y minDim fuel s) := by
  induction fuel generalizing s with
  | zero => exact LeO.same _
  | succ fuel ih =>
    obtain ⟨offset, shift, mask⟩ := s
    unfold mortonLoop
    repeat' (first | with_reducible apply ih | builds_step)

theorem mortonIndex_builds {x y minDim : Nat} :
    LeO (@mortonIndex Build.debug x y minDim) (@mortonIndex Build.release x y minDim) := by
  unfold mortonIndex
  repeat' (first | with_reducible apply mortonLoop_builds | builds_step)

theorem pvLocal_builds {infos : List PvInfo} {posX posY : List Nat} {minDim : Nat}
    {loc : List PvInfo} :
    LeO (@pvLocal Build.debug infos posX posY minDim loc)
      (@pvLocal Build.release infos posX posY minDim loc) := by
  unfold pvLocal
  repeat' (first | with_reducible apply mortonIndex_builds | builds_step)

theorem decodePvrtc_builds {data : List UInt8} {width height : Nat} {image : List UInt32}
    {is2 : Bool} :
    LeO (@decodePvrtc Build.debug data width height image is2)
      (@decodePvrtc Build.release data width height image is2) := by
  unfold decodePvrtc
  repeat' (first | with_reducible apply pvNotPow2_builds | with_reducible apply pvInfos_builds
                 | with_reducible apply pvPos_builds | with_reducible apply pvLocal_builds
                 | with_reducible apply mortonIndex_builds
                 | with_reducible apply applicateColor2_builds
                 | with_reducible apply applicateColor4_builds
                 | with_reducible apply copyBlockBuffer_builds | builds_step)

theorem decodePvrtc2bpp_builds {data : List UInt8} {width height : Nat} {image : List UInt32} :
    LeO (@decodePvrtc2bpp Build.debug data width height image)
      (@decodePvrtc2bpp Build.release data width height image) := by
  unfold decodePvrtc2bpp
  repeat' (first | with_reducible apply decodePvrtc_builds | builds_step)

theorem decodePvrtc4bpp_builds {data : List UInt8} {width height : Nat} {image : List UInt32} :
    LeO (@decodePvrtc4bpp Build.debug data width height image)
      (@decodePvrtc4bpp Build.release data width height image) := by
  unfold decodePvrtc4bpp
  repeat' (first | with_reducible apply decodePvrtc_builds | builds_step)

end Verif.Proofs.Builds
