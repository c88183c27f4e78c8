import Verif.Props.Crunch
import Verif.Props.UnityCrunch

/-!
# Property C89: files of the two variants of Crunch

Nothing in a file says which variant of Crunch it was made for. `Verif.Spec.Crn.unpack` and
`Verif.Spec.Crn.Unity.unpack` are the two specifications of what a file holds.
-/

namespace Verif.Props

open Verif Verif.Spec Verif.Spec.Crn Verif.Proofs.Crn

/-- **C89, violated.** There is a file that is well-formed in both variants and that the two functions
decode, in every build and for every image buffer that is large enough, to two different pictures. -/
theorem C89_violated : ∃ file blocks blocks' : List UInt8, Limits file ∧
    Crn.unpack file = some blocks ∧ Unity.unpack file = some blocks' ∧
    ∀ (b : Build) (image : List UInt32), image.length < 2 ^ 61 → width file * height file ≤ image.length →
      ∃ image1 image2 : List UInt32,
        @Model.Crn.decodeCrunch b file (width file) (height file) image = .ok (.ok (), image1) ∧
        @Model.Crn.Unity.decodeUnityCrunch b file (width file) (height file) image = .ok (.ok (), image2) ∧
        ∃ x y, x < width file ∧ y < height file ∧
          image1[y * width file + x]? ≠ image2[y * width file + x]? := by
  have hl : Limits UnityDemo.uDxt1 := ⟨by decide +kernel, ⟨by decide +kernel, by decide +kernel, by decide +kernel⟩,
    by decide +kernel, by decide +kernel, by decide +kernel⟩
  obtain ⟨d1, h1⟩ := Option.isSome_iff_exists.mp (show (Crn.unpack UnityDemo.uDxt1).isSome by decide +kernel)
  obtain ⟨d2, h2⟩ := Option.isSome_iff_exists.mp (show (Unity.unpack UnityDemo.uDxt1).isSome by decide +kernel)
  refine ⟨UnityDemo.uDxt1, d1, d2, hl, h1, h2, fun b image hi hr => ?_⟩
  obtain ⟨i1, e1, p1⟩ := @C51_pixels b _ d1 h1 hl image hi hr
  obtain ⟨i2, e2, p2⟩ := @C55_pixels b _ d2 h2 hl (.inr (by decide +kernel)) image hi hr
  refine ⟨i1, i2, e1, e2, 0, 0, by decide +kernel, by decide +kernel, ?_⟩
  rw [p1.pixel 0 0 (by decide +kernel) (by decide +kernel), p2.pixel 0 0 (by decide +kernel) (by decide +kernel)]
  have k1 : (Crn.unpack UnityDemo.uDxt1).map (fun d => pixelAt 4 4 8 (crnTexel 0) d 13 0 0) = some 0xffaa5500 := by
    decide +kernel
  have k2 : (Unity.unpack UnityDemo.uDxt1).map (fun d => pixelAt 4 4 8 (unityTexel 0) d 13 0 0) = some 0xffff0000 := by
    decide +kernel
  rw [h1] at k1
  rw [h2] at k2
  have f : format UnityDemo.uDxt1 = 0 := by decide +kernel
  have fw : width UnityDemo.uDxt1 = 13 := by decide +kernel
  rw [f, fw]
  intro e
  have e := Option.some.inj e
  rw [Option.map_some] at k1 k2
  have k1 := Option.some.inj k1
  have k2 := Option.some.inj k2
  exact absurd (k1.symm.trans (e.trans k2)) (by decide)

/-- A file that is well-formed in both variants holds the same number of bytes of the same format. -/
theorem both_variants {file blocks blocks' : List UInt8} (hl : Limits file) (h1 : Crn.unpack file = some blocks)
    (h2 : Unity.unpack file = some blocks') :
    (format file = 0 ∨ 2 ≤ format file ∧ format file ≤ 9) ∧ blocks.length = blocks'.length := by
  obtain ⟨_, hf, l1⟩ := @crunchUnpackLevel_ok Build.release _ _ h1 hl
  obtain ⟨_, _, l2⟩ := @Proofs.Crn.Unity.unityCrunchUnpackLevel_ok Build.release _ _ h2 hl (.inl rfl)
  refine ⟨hf, ?_⟩
  rw [l1, l2]
  unfold Proofs.Crn.Unity.wordsOf
  by_cases h : format file = 0 ∨ format file = 9
  · rw [if_pos h, if_pos (by omega)]
  · rw [if_neg h, if_neg (by omega)]

/-- **C89, partial.** The functions agree on everything but the colours: on a file that is well-formed in
both variants they succeed for the same sizes and otherwise report the same errors. -/
theorem C89_same_outcome_partial [Build] (file blocks blocks' : List UInt8) (hl : Limits file)
    (h1 : Crn.unpack file = some blocks) (h2 : Unity.unpack file = some blocks')
    (hodd : Build.overflowChecks = false ∨ blocksX file % 2 = 0)
    (w h : Nat) (image : List UInt32) (hi : image.length < 2 ^ 61) (hb : bytesNeeded 4 4 16 w h < 2 ^ 64)
    (hp : w * h < 2 ^ 64) (r : Except String Unit) :
    (∃ i, Model.Crn.decodeCrunch file w h image = .ok (r, i)) ↔
      ∃ i, Model.Crn.Unity.decodeUnityCrunch file w h image = .ok (r, i) := by
  obtain ⟨hf, hlen⟩ := both_variants hl h1 h2
  have e : unityBlockDecoder (format file) = crnBlockDecoder (format file) := by
    unfold unityBlockDecoder crnBlockDecoder
    rw [if_neg (show ¬ (format file = 10 ∨ format file = 13) by omega),
      if_neg (show ¬ format file = 11 by omega), if_neg (show ¬ (format file = 12 ∨ format file = 14) by omega)]
  rw [C51_blocks file blocks h1 hl, C55_blocks file blocks' h2 hl hodd, e]
  have D := crnBlockDecoder_decodes (format file)
  generalize hraw : (if format file = 0 ∨ format file = 9 then 8 else 16) = raw at D
  have hs : SizesOk 4 4 raw w h image := ⟨hi, by
    refine Nat.lt_of_le_of_lt (Nat.mul_le_mul_left _ ?_) hb
    rw [← hraw]; split <;> decide, hp⟩
  by_cases hd : blocks.length < bytesNeeded 4 4 raw w h
  · rw [D.not_enough_data _ _ _ _ hs hd, D.not_enough_data _ _ _ _ hs (hlen ▸ hd)]
  · have hd := Nat.le_of_not_lt hd
    by_cases hr : image.length < w * h
    · rw [D.image_too_small _ _ _ _ hs hd hr, D.image_too_small _ _ _ _ hs (hlen ▸ hd) hr]
    · have hr := Nat.le_of_not_lt hr
      obtain ⟨i1, e1, _⟩ := D.success _ w h image hs hd hr (fun _ _ => trivial)
      obtain ⟨i2, e2, _⟩ := D.success _ w h image hs (hlen ▸ hd) hr (fun _ _ => trivial)
      rw [e1, e2]
      constructor
      · rintro ⟨i, hi⟩; cases hi; exact ⟨i2, rfl⟩
      · rintro ⟨i, hi⟩; cases hi; exact ⟨i1, rfl⟩

/- The file of `C89_violated` meets the hypotheses, in all builds. -/
example : Limits UnityDemo.uDxt1 ∧ (Crn.unpack UnityDemo.uDxt1).isSome ∧ (Unity.unpack UnityDemo.uDxt1).isSome ∧
    blocksX UnityDemo.uDxt1 % 2 = 0 :=
  ⟨⟨by decide +kernel, ⟨by decide +kernel, by decide +kernel, by decide +kernel⟩, by decide +kernel,
    by decide +kernel, by decide +kernel⟩, by decide +kernel, by decide +kernel, by decide +kernel⟩

/-- **C89, partial.** Files with the format codes of ETC are no files of the older variant: `decode_crunch`
decodes none of them. -/
theorem C89_etc_partial [Build] (file : List UInt8) (hs : file.length < 2 ^ 32) (hf : 10 ≤ format file)
    (w h : Nat) (image image' : List UInt32) :
    Model.Crn.decodeCrunch file w h image ≠ .ok (.ok (), image') := by
  intro e
  have := (C54_accepted file hs w h image image' e).2.2.2
  omega

/- A file with a format code of ETC that Unity's variant accepts. -/
example : UnityDemo.uEtc1.length < 2 ^ 32 ∧ 10 ≤ format UnityDemo.uEtc1 ∧ (Unity.unpack UnityDemo.uEtc1).isSome :=
  ⟨by decide +kernel, by decide +kernel, by decide +kernel⟩

end Verif.Props
