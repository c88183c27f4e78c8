import Verif.Proofs.Target32More
import Verif.Props.Target32
import Verif.Props.CrnSizes
import Verif.Spec.Astc

/-!
# Property C64, continued: PVRTC, ASTC and Crunch on targets with a 32-bit `usize`
-/

namespace Verif.Props

open Verif.Proofs Verif.Spec.Crn Verif.Proofs.Crn

/-- **C64** (what holds) PVRTC images decode as on 64-bit targets, including errors and panics, for all
sizes that fit in a 32-bit `usize` and whose table of blocks, 44 bytes for each, can be allocated. -/
theorem C64_pvrtc_same_partial [Build] (is2 : Bool) (data : List UInt8) (w h : Nat)
    (image : List UInt32) (hw : w < 2 ^ 32) (hh : h < 2 ^ 32) (hwh : w * h < 2 ^ 32)
    (hn : Spec.numBlocks (if is2 then 8 else 4) 4 w h * 44 < 2 ^ 31) :
    Model.decodePvrtc32 data w h image is2 = Model.decodePvrtc data w h image is2 :=
  decodePvrtc32_eq hn hwh hw hh

example : (4096 < 2 ^ 32) ∧ 4096 * 4096 < 2 ^ 32 ∧ Spec.numBlocks 4 4 4096 4096 * 44 < 2 ^ 31 := by
  decide

/-- **C64** (what holds) ASTC images decode as on 64-bit targets, including errors, for all sizes that
fit in a 32-bit `usize`. The 32-bit model stands for the code on blocks that do not overflow, which are
those outside `Panics`; the other blocks are excluded here. -/
theorem C64_astc_same_partial [Build] (data : List UInt8) (w h bw bh : Nat) (image : List UInt32)
    (hs : Spec.SizesOk32 bw bh 16 w h image) (hb : bw * bh < 2 ^ 32)
    (_hl : ∀ k, k < Spec.numBlocks bw bh w h →
      ¬ Spec.Astc.Panics (Spec.blockBytes 16 data k) (data.length - 16 * k)) :
    Model.decodeAstc32 data w h bw bh image = Model.decodeAstc data w h bw bh image :=
  decodeAstc32_eq hs hb

/-- A void-extent block meets the conditions. -/
example : Spec.SizesOk32 6 5 16 5 3 (List.replicate 15 0) ∧
    ∀ k, k < Spec.numBlocks 6 5 5 3 → ¬ Spec.Astc.Panics
      (Spec.blockBytes 16 [0xfc, 0xfd, 255, 255, 255, 255, 255, 255, 1, 2, 3, 4, 5, 6, 7, 8] k)
      (16 - 16 * k) := by
  refine ⟨⟨by decide, by decide, by decide⟩, fun k hk => ?_⟩
  have : Spec.numBlocks 6 5 5 3 = 1 := by decide
  obtain rfl : k = 0 := by omega
  decide +kernel

/-- **C64** (exact) On a 32-bit target a Crunch file is decoded by the 32-bit decoder of its block
format. -/
theorem C64_crunch_as_is [Build] (file dxt : List UInt8) (h : unpack file = some dxt)
    (hl : Limits file) (w ht : Nat) (image : List UInt32) :
    Model.decodeCrunch32 file w ht image =
      decoder32 (crunchFormat (format file)) dxt w ht image := by
  obtain ⟨e, hf, _⟩ := crunchUnpackLevel_ok h hl
  unfold Model.decodeCrunch32
  rw [e]
  generalize format file = n at hf
  have hn : n < 10 := by omega
  match n, hn with
  | 0, _ | 2, _ | 3, _ | 4, _ | 5, _ | 6, _ | 7, _ | 8, _ | 9, _ => rfl
  | 1, _ => omega

/-- **C64** (exact) The same for Unity Crunch files. -/
theorem C64_unity_crunch_as_is [Build] (file dxt : List UInt8) (h : Unity.unpack file = some dxt)
    (hl : Limits file) (hodd : Build.overflowChecks = false ∨ blocksX file % 2 = 0)
    (w ht : Nat) (image : List UInt32) :
    Model.decodeUnityCrunch32 file w ht image =
      decoder32 (unityFormat (format file)) dxt w ht image := by
  obtain ⟨e, hf, _⟩ := Proofs.Crn.Unity.unityCrunchUnpackLevel_ok h hl hodd
  unfold Model.decodeUnityCrunch32
  rw [e]
  unfold Proofs.Crn.Unity.Known at hf
  generalize format file = n at hf
  have hn : n < 15 := by omega
  match n, hn with
  | 0, _ | 2, _ | 3, _ | 4, _ | 5, _ | 6, _ | 7, _ | 8, _ | 9, _ | 10, _ | 11, _ | 12, _ | 13, _
  | 14, _ => rfl
  | 1, _ => omega

/-- **C64** (what holds) DXT1 files decode as on 64-bit targets. -/
theorem C64_crunch_same_partial [Build] (file dxt : List UInt8) (h : unpack file = some dxt)
    (hl : Limits file) (hf : format file = 0) (w ht : Nat) (image : List UInt32)
    (hs : Spec.SizesOk32 4 4 8 w ht image) :
    Model.decodeCrunch32 file w ht image = Model.Crn.decodeCrunch file w ht image := by
  rw [C64_crunch_as_is file dxt h hl, C51_blocks file dxt h hl, crnBlockDecoder_decoder, hf]
  exact C64_same_partial .bc1 (by decide) dxt w ht image hs (fun _ _ => trivial)

/-- **C64** (what holds) DXT1, ETC1 and ETC2 files without alpha decode as on 64-bit targets. -/
theorem C64_unity_crunch_same_partial [Build] (file dxt : List UInt8)
    (h : Unity.unpack file = some dxt) (hl : Limits file)
    (hodd : Build.overflowChecks = false ∨ blocksX file % 2 = 0)
    (hf : format file = 0 ∨ format file = 10 ∨ format file = 11 ∨ format file = 13) (w ht : Nat)
    (image : List UInt32) (hs : Spec.SizesOk32 4 4 8 w ht image) :
    Model.decodeUnityCrunch32 file w ht image =
      Model.Crn.Unity.decodeUnityCrunch file w ht image := by
  rw [C64_unity_crunch_as_is file dxt h hl hodd, C55_blocks file dxt h hl hodd,
    unityBlockDecoder_decoder]
  rcases hf with e | e | e | e <;> rw [e]
  · exact C64_same_partial .bc1 (by decide) dxt w ht image hs (fun _ _ => trivial)
  · exact C64_same_partial .etc1 (by decide) dxt w ht image hs (fun _ _ => trivial)
  · exact C64_same_partial .etc2rgb (by decide) dxt w ht image hs (fun _ _ => trivial)
  · exact C64_same_partial .etc1 (by decide) dxt w ht image hs (fun _ _ => trivial)

example : (unpack CrnDemo.crnFaces).isSome = true ∧ format CrnDemo.crnFaces = 0 ∧
    Spec.SizesOk32 4 4 8 4 8 (List.replicate 32 0) :=
  ⟨by decide +kernel, by decide +kernel, by decide, by decide, by decide⟩

/-- The blocks of the demo file in format DXT5A. -/
def dxt5aBlocks : List UInt8 :=
  [0, 255, 208, 88, 63, 208, 88, 63, 200, 100, 65, 16, 4, 65, 16, 4, 200, 100, 208, 88, 63, 208, 88,
   63, 0, 255, 65, 16, 4, 65, 16, 4, 200, 100, 208, 88, 63, 208, 88, 63, 200, 100, 65, 16, 4, 65, 16,
   4, 0, 255, 208, 88, 63, 208, 88, 63, 0, 255, 65, 16, 4, 65, 16, 4, 200, 100, 208, 88, 63, 208, 88,
   63]

/-- **C64** (violated) A Crunch file in format DXT5A decodes to different images on 32-bit and 64-bit
targets. -/
theorem C64_crunch_differs [Build] : ∃ file dxt image image64 image32,
    unpack file = some dxt ∧ Limits file ∧
    Model.Crn.decodeCrunch file (width file) (height file) image = .ok (.ok (), image64) ∧
    Model.decodeCrunch32 file (width file) (height file) image = .ok (.ok (), image32) ∧
    image64 ≠ image32 := by
  have hu : unpack CrnDemo.crnDxt5a = some dxt5aBlocks := by decide +kernel
  have hl : Limits CrnDemo.crnDxt5a := ⟨by decide +kernel,
    ⟨by decide +kernel, by decide +kernel, by decide +kernel⟩, by decide +kernel, by decide +kernel,
    by decide +kernel⟩
  have hw : width CrnDemo.crnDxt5a = 12 := by decide +kernel
  have hh : height CrnDemo.crnDxt5a = 9 := by decide +kernel
  have hf : format CrnDemo.crnDxt5a = 9 := by decide +kernel
  have e64 := C51_blocks _ _ hu hl 12 9 (List.replicate 108 0)
  have e32 := C64_crunch_as_is _ _ hu hl 12 9 (List.replicate 108 0)
  rw [crnBlockDecoder_decoder, hf] at e64
  rw [hf] at e32
  obtain ⟨o, e, hd⟩ := (decoder_spec .bc4).success dxt5aBlocks 12 9 (List.replicate 108 0)
    ⟨by decide, by decide, by decide⟩ (by decide) (by decide) (fun k _ => trivial)
  obtain ⟨o2, e2, hd2⟩ := (decoder32_spec .bc4).success dxt5aBlocks 12 9 (List.replicate 108 0)
    ⟨by decide, by decide, by decide⟩ (by decide) (by decide) (fun k _ => trivial)
  refine ⟨_, _, List.replicate 108 0, o, o2, hu, hl, ?_, ?_, ?_⟩
  · rw [hw, hh]; exact e64.trans e
  · rw [hw, hh]; exact e32.trans e2
  intro h
  have h1 := hd.pixel 3 3 (by decide) (by decide)
  have h2 := hd2.pixel 3 3 (by decide) (by decide)
  rw [← h, h1] at h2
  exact absurd (Option.some.inj h2) (by decide +kernel)

end Verif.Props
