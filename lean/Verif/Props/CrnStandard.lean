import Verif.Props.BcnStandard
import Verif.Props.Crunch
import Verif.Props.UnityCrunch

/-!
# Property C67 for the DXT5 textures of Crunch files
-/

namespace Verif.Props

open Verif Verif.Spec Verif.Spec.Crn Verif.Proofs

/-- The nine blocks of `crnDxt5`. -/
def crnDxt5Blocks : List UInt8 := [
  0, 255, 208, 88, 63, 208, 88, 63, 67, 8, 157, 247, 120, 120, 120, 120,
  0, 255, 65, 16, 4, 65, 16, 4, 67, 8, 157, 247, 5, 5, 5, 5,
  200, 100, 65, 16, 4, 65, 16, 4, 199, 40, 199, 40, 120, 120, 120, 120,
  0, 255, 208, 88, 63, 208, 88, 63, 67, 8, 157, 247, 5, 5, 5, 5,
  0, 255, 208, 88, 63, 208, 88, 63, 67, 8, 157, 247, 120, 120, 120, 120,
  0, 255, 65, 16, 4, 65, 16, 4, 199, 40, 199, 40, 5, 5, 5, 5,
  0, 255, 65, 16, 4, 65, 16, 4, 199, 40, 199, 40, 120, 120, 120, 120,
  200, 100, 208, 88, 63, 208, 88, 63, 199, 40, 199, 40, 120, 120, 120, 120,
  0, 255, 65, 16, 4, 65, 16, 4, 67, 8, 157, 247, 120, 120, 120, 120]

/-- The twelve blocks of `uDxt5`. -/
def uDxt5Blocks : List UInt8 := [
  0, 255, 208, 88, 63, 208, 88, 63, 0, 248, 224, 7, 120, 120, 120, 120,
  0, 255, 129, 173, 143, 129, 173, 143, 0, 248, 224, 7, 120, 120, 120, 120,
  0, 255, 208, 88, 63, 208, 88, 63, 0, 248, 224, 7, 120, 120, 120, 120,
  0, 255, 208, 88, 63, 208, 88, 63, 0, 248, 224, 7, 5, 78, 128, 159,
  0, 255, 208, 88, 63, 208, 88, 63, 0, 248, 224, 7, 120, 120, 120, 120,
  0, 255, 208, 88, 63, 208, 88, 63, 67, 8, 157, 247, 120, 120, 120, 120,
  0, 255, 129, 173, 143, 129, 173, 143, 67, 8, 157, 247, 120, 120, 120, 120,
  0, 255, 129, 173, 143, 129, 173, 143, 0, 248, 224, 7, 5, 78, 128, 159,
  0, 255, 129, 173, 143, 129, 173, 143, 0, 248, 224, 7, 5, 78, 128, 159,
  0, 255, 208, 88, 63, 208, 88, 63, 67, 8, 157, 247, 5, 78, 128, 159,
  0, 255, 129, 173, 143, 129, 173, 143, 199, 40, 199, 40, 120, 120, 120, 120,
  0, 255, 129, 173, 143, 129, 173, 143, 199, 40, 199, 40, 5, 78, 128, 159]

/-- **C67** (violated) A Crunch file with a DXT5 texture of 12 × 9 texels: pixel (1, 0) does not have the
colour that the S3TC specification gives it, whatever the build and the image buffer. -/
theorem C67_crunch_violated : ∃ file dxt, unpack file = some dxt ∧ Limits file ∧ format file = 2 ∧
    width file = 12 ∧ height file = 9 ∧ ∀ (b : Build) (image : List UInt32), image.length < 2 ^ 61 →
      108 ≤ image.length → ∃ out, @Model.Crn.decodeCrunch b file 12 9 image = .ok (.ok (), out) ∧
        out[1]? ≠ some (pixelAt 4 4 16 bc3TexelS3tc dxt 12 1 0) := by
  have hU : unpack CrnDemo.crnDxt5 = some crnDxt5Blocks := by decide +kernel
  have hL : Limits CrnDemo.crnDxt5 :=
    ⟨by decide +kernel, ⟨by decide +kernel, by decide +kernel, by decide +kernel⟩, by decide +kernel,
      by decide +kernel, by decide +kernel⟩
  have hf : format CrnDemo.crnDxt5 = 2 := by decide +kernel
  refine ⟨CrnDemo.crnDxt5, _, hU, hL, hf, by decide +kernel, by decide +kernel,
    fun b image hi hi' => ?_⟩
  obtain ⟨out, e, d⟩ := (@decoder_spec b .bc3).success crnDxt5Blocks 12 9 image
    ⟨hi, by decide, by decide⟩ (by decide +kernel) hi' (fun _ _ => trivial)
  refine ⟨out, ?_, fun h => ?_⟩
  · rw [@C51_blocks b _ _ hU hL, hf]
    exact e
  · have a := (d.pixel 1 0 (by decide) (by decide)).symm.trans h
    exact absurd a (by decide +kernel)

/-- **C67** (violated) The same for a file of Unity's variant with a texture of 13 × 9 texels and pixel
(5, 4). -/
theorem C67_unity_crunch_violated : ∃ file dxt, Unity.unpack file = some dxt ∧ Limits file ∧
    format file = 2 ∧ width file = 13 ∧ height file = 9 ∧ ∀ (b : Build) (image : List UInt32),
      image.length < 2 ^ 61 → 117 ≤ image.length →
      ∃ out, @Model.Crn.Unity.decodeUnityCrunch b file 13 9 image = .ok (.ok (), out) ∧
        out[4 * 13 + 5]? ≠ some (pixelAt 4 4 16 bc3TexelS3tc dxt 13 5 4) := by
  have hU : Unity.unpack UnityDemo.uDxt5 = some uDxt5Blocks := by
    decide +kernel
  have hL : Limits UnityDemo.uDxt5 :=
    ⟨by decide +kernel, ⟨by decide +kernel, by decide +kernel, by decide +kernel⟩, by decide +kernel,
      by decide +kernel, by decide +kernel⟩
  have hf : format UnityDemo.uDxt5 = 2 := by decide +kernel
  refine ⟨UnityDemo.uDxt5, _, hU, hL, hf, by decide +kernel, by decide +kernel,
    fun b image hi hi' => ?_⟩
  obtain ⟨out, e, d⟩ := (@decoder_spec b .bc3).success uDxt5Blocks 13 9
    image ⟨hi, by decide, by decide⟩ (by decide +kernel) hi' (fun _ _ => trivial)
  refine ⟨out, ?_, fun h => ?_⟩
  · rw [@C55_blocks b _ _ hU hL (.inr (by decide +kernel)), hf]
    exact e
  · have a := (d.pixel 5 4 (by decide) (by decide)).symm.trans h
    exact absurd a (by decide +kernel)

/-- **C67** (what holds) If the first colour of every block of a DXT5 file is larger than the second,
`decode_crunch` gives the S3TC colours. -/
theorem C67_crunch_partial [Build] (file dxt : List UInt8) (hu : unpack file = some dxt)
    (hl : Limits file) (hf : format file = 2) (w h : Nat) (image : List UInt32)
    (hs : SizesOk 4 4 16 w h image) (hd : bytesNeeded 4 4 16 w h ≤ dxt.length)
    (hi : w * h ≤ image.length)
    (hc : ∀ k, k < numBlocks 4 4 w h → FirstColourLarger (blockBytes 16 dxt k)) :
    ∃ out, Model.Crn.decodeCrunch file w h image = .ok (.ok (), out) ∧
      IsDecoded 4 4 16 bc3TexelS3tc dxt w h image out := by
  rw [C51_blocks file dxt hu hl, hf]
  exact C67_bc3_partial.success dxt w h image hs hd hi hc

/-- **C67** (what holds) The same for Unity's variant. -/
theorem C67_unity_crunch_partial [Build] (file dxt : List UInt8) (hu : Unity.unpack file = some dxt)
    (hl : Limits file) (hodd : Build.overflowChecks = false ∨ blocksX file % 2 = 0)
    (hf : format file = 2) (w h : Nat) (image : List UInt32)
    (hs : SizesOk 4 4 16 w h image) (hd : bytesNeeded 4 4 16 w h ≤ dxt.length)
    (hi : w * h ≤ image.length)
    (hc : ∀ k, k < numBlocks 4 4 w h → FirstColourLarger (blockBytes 16 dxt k)) :
    ∃ out, Model.Crn.Unity.decodeUnityCrunch file w h image = .ok (.ok (), out) ∧
      IsDecoded 4 4 16 bc3TexelS3tc dxt w h image out := by
  rw [C55_blocks file dxt hu hl hodd, hf]
  exact C67_bc3_partial.success dxt w h image hs hd hi hc

/- The first row of blocks of the file of Unity's variant: 13 × 4 texels. -/
example : (∀ k, k < numBlocks 4 4 13 4 → FirstColourLarger (blockBytes 16 uDxt5Blocks k)) ∧
    bytesNeeded 4 4 16 13 4 ≤ uDxt5Blocks.length ∧ blocksX UnityDemo.uDxt5 % 2 = 0 ∧
    SizesOk 4 4 16 13 4 (List.replicate 52 0) :=
  ⟨by unfold FirstColourLarger; decide +kernel, by decide +kernel, by decide +kernel,
    by decide +kernel, by decide, by decide⟩

end Verif.Props
