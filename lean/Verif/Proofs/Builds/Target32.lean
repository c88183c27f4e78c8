import Verif.Proofs.Builds.Pvrtc
import Verif.Proofs.Builds.Astc
import Verif.Proofs.Builds.UnityCrunch
import Verif.Model.Target32
import Verif.Model.Target32More

namespace Verif.Proofs.Builds

open Verif Verif.Model

/-! Each function of the functions of the 32-bit model in a build with overflow checks panics or has the outcome it has without. -/

theorem copyBlockBuffer32_builds {bx by' : Nat} {w h : Nat} {bw bh : Nat}
    {buffer image : List UInt32} :
    LeO (@copyBlockBuffer32 Build.debug bx by' w h bw bh buffer image)
      (@copyBlockBuffer32 Build.release bx by' w h bw bh buffer image) := by
  unfold copyBlockBuffer32
  repeat' builds_step

theorem blockDecoder32_builds {bw bh raw : Nat} {f g : BlockFn} {data : List UInt8}
    {width height : Nat}
    {image : List UInt32} (hf : ∀ d b, LeO (f d b) (g d b)) :
    LeO (@blockDecoder32 Build.debug bw bh raw f data width height image)
      (@blockDecoder32 Build.release bw bh raw g data width height image) := by
  unfold blockDecoder32
  repeat' (first | with_reducible apply copyBlockBuffer32_builds | with_reducible apply hf
                 | builds_step)

theorem decodeAstc32_builds {data : List UInt8} {width height : Nat} {bw bh : Nat}
    {image : List UInt32} :
    LeO (@decodeAstc32 Build.debug data width height bw bh image)
      (@decodeAstc32 Build.release data width height bw bh image) := by
  unfold decodeAstc32
  repeat' (first | with_reducible apply decodeAstcBlock_builds
                 | with_reducible apply copyBlockBuffer32_builds | builds_step)

theorem decodeBc3Alpha32_builds {channel : Nat} {x2 : List UInt8} {x3 : List UInt32} :
    LeO (@decodeBc3Alpha32 Build.debug channel x2 x3)
      (@decodeBc3Alpha32 Build.release channel x2 x3) := by
  unfold decodeBc3Alpha32
  repeat' (first | with_reducible apply bc3Table_builds | builds_step)

theorem decodeAtcRgba8Block32_builds {x1 : List UInt8} {x2 : List UInt32} :
    LeO (@decodeAtcRgba8Block32 Build.debug x1 x2)
      (@decodeAtcRgba8Block32 Build.release x1 x2) := by
  unfold decodeAtcRgba8Block32
  repeat' (first | with_reducible apply decodeAtcRgb4Block_builds
                 | with_reducible apply decodeBc3Alpha32_builds | builds_step)

theorem decodeBc3Block32_builds {x1 : List UInt8} {x2 : List UInt32} :
    LeO (@decodeBc3Block32 Build.debug x1 x2) (@decodeBc3Block32 Build.release x1 x2) := by
  unfold decodeBc3Block32
  repeat' (first | with_reducible apply decodeBc1Block_builds
                 | with_reducible apply decodeBc3Alpha32_builds | builds_step)

theorem decodeBc4Block32_builds {x1 : List UInt8} {x2 : List UInt32} :
    LeO (@decodeBc4Block32 Build.debug x1 x2) (@decodeBc4Block32 Build.release x1 x2) := by
  unfold decodeBc4Block32
  repeat' (first | with_reducible apply decodeBc3Alpha32_builds | builds_step)

theorem decodeBc5Block32_builds {x1 : List UInt8} {x2 : List UInt32} :
    LeO (@decodeBc5Block32 Build.debug x1 x2) (@decodeBc5Block32 Build.release x1 x2) := by
  unfold decodeBc5Block32
  repeat' (first | with_reducible apply decodeBc3Alpha32_builds | builds_step)

theorem decodeCrunch32_builds {data : List UInt8} {width height : Nat} {image : List UInt32} :
    LeO (@decodeCrunch32 Build.debug data width height image)
      (@decodeCrunch32 Build.release data width height image) := by
  unfold decodeCrunch32
  have h := @Crn_crunchUnpackLevel_builds data (asU 32 data.length) 0
  rcases h with h | h
  · rw [h]
    exact Or.inl rfl
  · rw [h]
    cases @Crn.crunchUnpackLevel Build.release data (asU 32 data.length) 0 with
    | panic => exact LeO.same _
    | fail m => exact LeO.same _
    | ok h =>
      dsimp only
      split <;> first
        | with_reducible exact LeO.same _ | with_reducible exact blockDecoder32_builds fun _ _ => decodeBc1Block_builds | with_reducible exact blockDecoder32_builds fun _ _ => decodeBc3Block32_builds | with_reducible exact blockDecoder32_builds fun _ _ => decodeBc4Block32_builds | with_reducible exact blockDecoder32_builds fun _ _ => decodeBc5Block32_builds

theorem eacCore32_builds {base bias : Int} {data : List UInt8} {channel : Nat}
    {outbuf : List UInt32} :
    LeO (@eacCore32 Build.debug base bias data channel outbuf)
      (@eacCore32 Build.release base bias data channel outbuf) := by
  unfold eacCore32
  repeat' builds_step

theorem decodeEacBlock32_builds {data : List UInt8} {channel : Nat} {outbuf : List UInt32} :
    LeO (@decodeEacBlock32 Build.debug data channel outbuf)
      (@decodeEacBlock32 Build.release data channel outbuf) := by
  unfold decodeEacBlock32
  repeat' (first | with_reducible apply eacCore32_builds | builds_step)

theorem decodeEacSignedBlock32_builds {data : List UInt8} {channel : Nat} {outbuf : List UInt32} :
    LeO (@decodeEacSignedBlock32 Build.debug data channel outbuf)
      (@decodeEacSignedBlock32 Build.release data channel outbuf) := by
  unfold decodeEacSignedBlock32
  repeat' (first | with_reducible apply eacCore32_builds | builds_step)

theorem decodeEacrBlock32_builds {x1 : List UInt8} {x2 : List UInt32} :
    LeO (@decodeEacrBlock32 Build.debug x1 x2) (@decodeEacrBlock32 Build.release x1 x2) := by
  unfold decodeEacrBlock32
  repeat' (first | with_reducible apply decodeEacBlock32_builds | builds_step)

theorem decodeEacrSignedBlock32_builds {x1 : List UInt8} {x2 : List UInt32} :
    LeO (@decodeEacrSignedBlock32 Build.debug x1 x2)
      (@decodeEacrSignedBlock32 Build.release x1 x2) := by
  unfold decodeEacrSignedBlock32
  repeat' (first | with_reducible apply decodeEacSignedBlock32_builds | builds_step)

theorem decodeEacrgBlock32_builds {x1 : List UInt8} {x2 : List UInt32} :
    LeO (@decodeEacrgBlock32 Build.debug x1 x2) (@decodeEacrgBlock32 Build.release x1 x2) := by
  unfold decodeEacrgBlock32
  repeat' (first | with_reducible apply decodeEacBlock32_builds | builds_step)

theorem decodeEacrgSignedBlock32_builds {x1 : List UInt8} {x2 : List UInt32} :
    LeO (@decodeEacrgSignedBlock32 Build.debug x1 x2)
      (@decodeEacrgSignedBlock32 Build.release x1 x2) := by
  unfold decodeEacrgSignedBlock32
  repeat' (first | with_reducible apply decodeEacSignedBlock32_builds | builds_step)

theorem decodeEtc2A8Block32_builds {x1 : List UInt8} {x2 : List UInt32} :
    LeO (@decodeEtc2A8Block32 Build.debug x1 x2) (@decodeEtc2A8Block32 Build.release x1 x2) := by
  unfold decodeEtc2A8Block32
  repeat' builds_step

theorem decodeEtc2Rgba8Block32_builds {x1 : List UInt8} {x2 : List UInt32} :
    LeO (@decodeEtc2Rgba8Block32 Build.debug x1 x2)
      (@decodeEtc2Rgba8Block32 Build.release x1 x2) := by
  unfold decodeEtc2Rgba8Block32
  repeat' (first | with_reducible apply decodeEtc2RgbBlock_builds
                 | with_reducible apply decodeEtc2A8Block32_builds | builds_step)

theorem pvNotPow2_32_builds {n : Nat} :
    LeO (@pvNotPow2_32 Build.debug n) (@pvNotPow2_32 Build.release n) := by
  unfold pvNotPow2_32
  repeat' builds_step

theorem pvInfos32_builds {is2 : Bool} {data : List UInt8} {n : Nat} :
    LeO (@pvInfos32 Build.debug is2 data n) (@pvInfos32 Build.release is2 data n) := by
  unfold pvInfos32
  repeat' (first | with_reducible apply getTexelWeights2_builds
                 | with_reducible apply getTexelWeights4_builds | builds_step)

theorem pvPos32_builds {b n : Nat} :
    LeO (@pvPos32 Build.debug b n) (@pvPos32 Build.release b n) := by
  unfold pvPos32
  repeat' builds_step

theorem mortonLoop32_builds {x y minDim fuel : Nat} {s : Nat × Nat × Nat} :
    LeO (@mortonLoop32 Build.debug x y minDim fuel s)
      (@mortonLoop32 Build.release x y minDim fuel s) := by
  induction fuel generalizing s with
  | zero => exact LeO.same _
  | succ fuel ih =>
    obtain ⟨offset, shift, mask⟩ := s
    unfold mortonLoop32
    repeat' (first | with_reducible apply ih | builds_step)

theorem mortonIndex32_builds {x y minDim : Nat} :
    LeO (@mortonIndex32 Build.debug x y minDim) (@mortonIndex32 Build.release x y minDim) := by
  unfold mortonIndex32
  repeat' (first | with_reducible apply mortonLoop32_builds | builds_step)

theorem pvLocal32_builds {infos : List PvInfo} {posX posY : List Nat} {minDim : Nat}
    {loc : List PvInfo} :
    LeO (@pvLocal32 Build.debug infos posX posY minDim loc)
      (@pvLocal32 Build.release infos posX posY minDim loc) := by
  unfold pvLocal32
  repeat' (first | with_reducible apply mortonIndex32_builds | builds_step)

theorem decodePvrtc32_builds {data : List UInt8} {width height : Nat} {image : List UInt32}
    {is2 : Bool} :
    LeO (@decodePvrtc32 Build.debug data width height image is2)
      (@decodePvrtc32 Build.release data width height image is2) := by
  unfold decodePvrtc32
  repeat' (first | with_reducible apply pvNotPow2_32_builds | with_reducible apply pvInfos32_builds
                 | with_reducible apply pvPos32_builds | with_reducible apply pvLocal32_builds
                 | with_reducible apply mortonIndex32_builds
                 | with_reducible apply applicateColor2_builds
                 | with_reducible apply applicateColor4_builds
                 | with_reducible apply copyBlockBuffer32_builds | builds_step)

theorem decodeUnityCrunch32_builds {data : List UInt8} {width height : Nat} {image : List UInt32} :
    LeO (@decodeUnityCrunch32 Build.debug data width height image)
      (@decodeUnityCrunch32 Build.release data width height image) := by
  unfold decodeUnityCrunch32
  have h := @Crn_Unity_unityCrunchUnpackLevel_builds data (asU 32 data.length) 0
  rcases h with h | h
  · rw [h]
    exact Or.inl rfl
  · rw [h]
    cases @Crn.Unity.unityCrunchUnpackLevel Build.release data (asU 32 data.length) 0 with
    | panic => exact LeO.same _
    | fail m => exact LeO.same _
    | ok h =>
      dsimp only
      split <;> first | with_reducible exact LeO.same _ | with_reducible exact blockDecoder32_builds fun _ _ => decodeBc1Block_builds | with_reducible exact blockDecoder32_builds fun _ _ => decodeBc3Block32_builds | with_reducible exact blockDecoder32_builds fun _ _ => decodeBc4Block32_builds | with_reducible exact blockDecoder32_builds fun _ _ => decodeBc5Block32_builds | with_reducible exact blockDecoder32_builds fun _ _ => decodeEtc1Block_builds | with_reducible exact blockDecoder32_builds fun _ _ => decodeEtc2RgbBlock_builds | with_reducible exact blockDecoder32_builds fun _ _ => decodeEtc2Rgba8Block32_builds

end Verif.Proofs.Builds
