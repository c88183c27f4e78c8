import Verif.Props.CrnTruncated
import Verif.Props.CrnDimensions
import Verif.Proofs.Crn.Damage
import Verif.Proofs.Crn.SameTables

/-!
# Property C80: a damaged Crunch file makes no decoder panic (violated)
-/

namespace Verif.Props

open Verif Verif.Spec.Crn Verif.Proofs Verif.Proofs.Crn

/-- The block decoder of a file and its results. -/
theorem decoder_no_panic [Build] (fmt : Spec.Format) (hlegal : ∀ data w h, fmt.AllLegal data w h)
    (data : List UInt8) (w h : Nat) (image : List UInt32) (hs : fmt.SizesOk w h image) :
    ∃ r image', decoder fmt data w h image = .ok (r, image') ∧ image'.length = image.length := by
  by_cases h1 : data.length < Spec.bytesNeeded 4 4 fmt.blockSize w h
  · exact ⟨_, _, (decoder_spec fmt).not_enough_data _ _ _ _ hs h1, rfl⟩
  · by_cases h2 : image.length < w * h
    · exact ⟨_, _, (decoder_spec fmt).image_too_small _ _ _ _ hs (by omega) h2, rfl⟩
    · obtain ⟨i, e, d⟩ := (decoder_spec fmt).success data w h image hs (by omega) (by omega)
        (hlegal _ _ _)
      exact ⟨_, _, e, d.length_eq⟩

/-- **C80** (what holds) If the header, the codes and the palettes are good and no code has a symbol
outside its palette, then whatever the level data are, `decode_crunch` returns: it decodes something
or it reports an error. -/
theorem C80_crunch_level_partial [Build] (file : List UInt8) (hg : GoodTables file)
    (w h : Nat) (image : List UInt32) (hs : (crunchFormat (format file)).SizesOk w h image) :
    ∃ r image', Model.Crn.decodeCrunch file w h image = .ok (r, image') ∧
      image'.length = image.length := by
  obtain ⟨hsafe, hf⟩ := crunchUnpackLevel_safe hg
  have hd := fun d => decoder_no_panic _ (crunchFormat_legal (format file)) d w h image hs
  simp only [← crnBlockDecoder_decoder] at hd
  unfold Model.Crn.decodeCrunch
  rcases hsafe.cases with ⟨m, e⟩ | ⟨⟨fmt, dxt, n⟩, e, he, _⟩
  · rw [e]
    exact ⟨_, _, rfl, rfl⟩
  · rw [e]
    simp only at he
    subst he
    specialize hd dxt
    generalize format file = n at hf hd ⊢
    have hn : n < 10 := by omega
    match n, hn with
    | 0, _ | 2, _ | 3, _ | 4, _ | 5, _ | 6, _ | 7, _ | 8, _ | 9, _ => exact hd
    | 1, _ => omega

/-- **C80** (what holds) Any damage to the level data of such a file (and to the bytes that do not
matter at all). -/
theorem C80_crunch_damage_partial [Build] (file damaged : List UInt8) (hg : GoodTables file)
    (hlen : file.length = damaged.length) (hsame : ∀ i, UsedByTables file i → file[i]? = damaged[i]?)
    (w h : Nat) (image : List UInt32) (hs : (crunchFormat (format damaged)).SizesOk w h image) :
    ∃ r image', Model.Crn.decodeCrunch damaged w h image = .ok (r, image') ∧
      image'.length = image.length :=
  C80_crunch_level_partial damaged (SameTables.good ⟨hlen, hsame⟩ hg) w h image hs

/-! ### The violations -/

/-- A DXT1 texture of 4×4 texels with three colour endpoints, of which it uses the last. -/
def CrnDemo.crnThree : List UInt8 := [
  72, 120, 0, 74, 0, 0, 0, 0, 0, 148, 0, 0, 0, 4, 0, 4, 1, 1, 0, 0, 0, 0, 0, 0, 0, 0, 0, 0, 0,
  0, 0, 0, 0, 0, 0, 74, 0, 0, 26, 0, 3, 0, 0, 100, 0, 0, 17, 0, 2, 0, 0, 117, 0, 0, 0, 0, 0, 0,
  0, 117, 0, 0, 0, 0, 0, 0, 30, 0, 0, 117, 0, 0, 0, 147, 0, 129, 224, 128, 0, 0, 0, 1, 8, 224,
  2, 4, 65, 0, 0, 0, 0, 0, 9, 100, 96, 8, 163, 18, 204, 38, 0, 194, 41, 0, 128, 0, 0, 0, 8, 114,
  77, 153, 46, 238, 241, 17, 0, 0, 6, 96, 0, 0, 0, 0, 0, 0, 16, 0, 115, 0, 2, 0, 0, 0, 0, 0,
  144, 0, 166, 0, 0, 0, 0, 0, 0, 1, 0, 8]

/-- **C80, violated.** One wrong byte in a valid file, the number of its colour endpoints, and
`decode_crunch` panics, in both builds. -/
theorem C80_crunch_violated : ∃ file, (unpack file).isSome ∧ Limits file ∧
    width file = 4 ∧ height file = 4 ∧
    ∀ b : Build, @Model.Crn.decodeCrunch b (file.set 40 1) 4 4 (List.replicate 16 0) = .panic := by
  refine ⟨CrnDemo.crnThree, by decide +kernel,
    ⟨by decide +kernel, ⟨by decide +kernel, by decide +kernel, by decide +kernel⟩,
      by decide +kernel, by decide +kernel, by decide +kernel⟩, by decide +kernel, by decide +kernel,
    fun ⟨ck⟩ => ?_⟩
  apply of_crnPanics
  revert ck
  decide +kernel

/-- **C80, violated.** The same if the wrong byte is the format. -/
theorem C80_crunch_format_violated : ∃ file, (unpack file).isSome ∧ Limits file ∧
    width file = 4 ∧ height file = 8 ∧
    ∀ b : Build, @Model.Crn.decodeCrunch b (file.set 18 2) 4 8 (List.replicate 32 0) = .panic := by
  refine ⟨CrnDemo.crnFaces, by decide +kernel,
    ⟨by decide +kernel, ⟨by decide +kernel, by decide +kernel, by decide +kernel⟩,
      by decide +kernel, by decide +kernel, by decide +kernel⟩, by decide +kernel, by decide +kernel,
    fun ⟨ck⟩ => ?_⟩
  apply of_crnPanics
  revert ck
  decide +kernel

/-! ### Cases that meet the hypotheses -/

/-- A test for `Plane.Closed`. -/
def closedCode (num : Nat) (code : List Nat) : Bool :=
  code.any (0 < ·) && (List.range code.length).all (fun s => code.getD s 0 = 0 || s < num)

theorem of_closedCode {num : Nat} {code : List Nat} (h : closedCode num code = true) :
    UsedCode code ∧ SymbolsBelow num code := by
  simp only [closedCode, Bool.and_eq_true, List.any_eq_true, List.all_eq_true, List.mem_range,
    Bool.or_eq_true, decide_eq_true_eq] at h
  refine ⟨h.1, fun s hs => ?_⟩
  by_cases hl : s < code.length
  · rcases h.2 s hl with e | e
    · omega
    · exact e
  · rw [List.getD_eq_getElem?_getD, List.getElem?_eq_none (by omega)] at hs
    exact absurd hs (by decide)

/-- A test for the last part of `GoodTables`. -/
def closedTables (file : List UInt8) : Bool :=
  match fileCodes file with
  | none => false
  | some cs =>
    match colourPlane file cs, alphaPlane file cs with
    | some colour, some alpha =>
      match planesOf (format file) colour alpha with
      | some planes => cs.encoding.any (0 < ·) && planes.all (fun p =>
          closedCode p.endpoints.length p.endpointCode && closedCode p.selectors.length p.selectorCode)
      | none => false
    | _, _ => false

theorem of_closedTables {file : List UInt8} (h : closedTables file = true) :
    ∃ cs colour alpha planes, fileCodes file = some cs ∧ colourPlane file cs = some colour ∧
      alphaPlane file cs = some alpha ∧ planesOf (format file) colour alpha = some planes ∧
      UsedCode cs.encoding ∧ ∀ p ∈ planes, p.Closed := by
  unfold closedTables at h
  split at h
  · exact absurd h (by decide)
  · next cs e1 =>
    split at h
    · next colour alpha e2 e3 =>
      split at h
      · next planes e4 =>
        simp only [Bool.and_eq_true, List.all_eq_true, List.any_eq_true, decide_eq_true_eq] at h
        exact ⟨cs, colour, alpha, planes, e1, e2, e3, e4, h.1, fun p hp =>
          ⟨(of_closedCode (h.2 p hp).1).1, (of_closedCode (h.2 p hp).1).2,
            (of_closedCode (h.2 p hp).2).1, (of_closedCode (h.2 p hp).2).2⟩⟩
      · exact absurd h (by decide)
    · exact absurd h (by decide)

/-- A demo file with good tables. -/
theorem good_crnDxt1 : GoodTables CrnDemo.crnDxt1 :=
  ⟨by decide +kernel, by decide +kernel, by decide +kernel, by decide +kernel,
    ⟨by decide +kernel, ⟨by decide +kernel, by decide +kernel, by decide +kernel⟩,
      by decide +kernel, by decide +kernel, by decide +kernel⟩, of_closedTables (by decide +kernel)⟩

/- The first byte of its level can be overwritten with anything. -/
example (junk : UInt8) : ∃ r image', @Model.Crn.decodeCrunch Build.debug
    (CrnDemo.crnDxt1.set (levelOfs CrnDemo.crnDxt1 0) junk) 12 9 (List.replicate 108 0) = .ok (r, image') ∧
      image'.length = 108 := by
  have hn : ∀ i, UsedByTables CrnDemo.crnDxt1 i → i ≠ levelOfs CrnDemo.crnDxt1 0 := by
    intro i hi e
    subst e
    exact absurd hi (by decide +kernel)
  letI := Build.debug
  have hs : ∀ i, UsedByTables CrnDemo.crnDxt1 i →
      CrnDemo.crnDxt1[i]? = (CrnDemo.crnDxt1.set (levelOfs CrnDemo.crnDxt1 0) junk)[i]? :=
    fun i hi => by rw [List.getElem?_set_ne (Ne.symm (hn i hi))]
  have hl : CrnDemo.crnDxt1.length = (CrnDemo.crnDxt1.set (levelOfs CrnDemo.crnDxt1 0) junk).length := by
    rw [List.length_set]
  have hf := (SameTables.header ⟨hl, hs⟩).format
  obtain ⟨r, i, e, e'⟩ := C80_crunch_damage_partial _ _ good_crnDxt1 hl hs 12 9 (List.replicate 108 0)
    (by
      rw [← hf, show format CrnDemo.crnDxt1 = 0 by decide +kernel]
      exact ⟨by decide, by decide, by decide⟩)
  exact ⟨r, i, e, e'.trans (by decide)⟩

end Verif.Props
