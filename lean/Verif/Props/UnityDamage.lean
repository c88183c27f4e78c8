import Verif.Props.CrnDamage
import Verif.Proofs.Crn.UnityDamage
import Verif.Proofs.Crn.UnitySameTables

/-!
# Property C80 for Unity's variant: a damaged file makes no decoder panic (violated)
-/

namespace Verif.Props

open Verif Verif.Spec.Crn Verif.Proofs Verif.Proofs.Crn

/-- **C80** (what holds) If the header, the codes and the palettes are good and no code has a symbol
outside its palette, then whatever the level data are, `decode_unity_crunch` returns: it decodes
something or it reports an error. An odd number of block columns is excluded in a build with overflow
checks (see C44). -/
theorem C80_unity_level_partial [Build] (file : List UInt8) (hg : Unity.GoodTables file)
    (hodd : Build.overflowChecks = false ∨ blocksX file % 2 = 0)
    (w h : Nat) (image : List UInt32) (hs : (unityFormat (format file)).SizesOk w h image) :
    ∃ r image', Model.Crn.Unity.decodeUnityCrunch file w h image = .ok (r, image') ∧
      image'.length = image.length := by
  obtain ⟨hsafe, hf⟩ := Unity.unityUnpackLevel_safe hg hodd
  have hd := fun d => decoder_no_panic _ (unityFormat_legal (format file)) d w h image hs
  simp only [← unityBlockDecoder_decoder] at hd
  unfold Model.Crn.Unity.decodeUnityCrunch
  rcases hsafe.cases with ⟨m, e⟩ | ⟨⟨fmt, dxt, n⟩, e, he, _⟩
  · rw [e]
    exact ⟨_, _, rfl, rfl⟩
  · rw [e]
    simp only at he
    subst he
    specialize hd dxt
    unfold Unity.Known at hf
    generalize format file = n at hf hd ⊢
    have hn : n < 15 := by omega
    match n, hn with
    | 0, _ | 2, _ | 3, _ | 4, _ | 5, _ | 6, _ | 7, _ | 8, _ | 9, _ | 10, _ | 11, _ | 12, _ | 13, _
    | 14, _ => exact hd
    | 1, _ => omega

/-- **C80** (what holds) Any damage to the level data of such a file (and to the bytes that do not
matter at all). -/
theorem C80_unity_damage_partial [Build] (file damaged : List UInt8) (hg : Unity.GoodTables file)
    (hlen : file.length = damaged.length) (hsame : ∀ i, UsedByTables file i → file[i]? = damaged[i]?)
    (hodd : Build.overflowChecks = false ∨ blocksX damaged % 2 = 0)
    (w h : Nat) (image : List UInt32) (hs : (unityFormat (format damaged)).SizesOk w h image) :
    ∃ r image', Model.Crn.Unity.decodeUnityCrunch damaged w h image = .ok (r, image') ∧
      image'.length = image.length :=
  C80_unity_level_partial damaged (SameTables.unityGood ⟨hlen, hsame⟩ hg) hodd w h image hs

/-! ### The violations -/

/-- A DXT1 texture of 8×4 texels with three colour endpoints. -/
def UnityDemo.uThree : List UInt8 := [
  72, 120, 0, 74, 0, 0, 0, 0, 0, 147, 0, 0, 0, 8, 0, 4, 1, 1, 0, 0, 0, 0, 0, 0, 0, 0, 0, 0, 0,
  0, 0, 0, 0, 0, 0, 74, 0, 0, 26, 0, 3, 0, 0, 100, 0, 0, 16, 0, 2, 0, 0, 116, 0, 0, 0, 0, 0, 0,
  0, 116, 0, 0, 0, 0, 0, 0, 30, 0, 0, 116, 0, 0, 0, 146, 0, 129, 224, 128, 0, 0, 0, 1, 8, 224,
  2, 4, 65, 0, 0, 0, 0, 0, 9, 100, 96, 8, 163, 18, 204, 38, 0, 62, 40, 0, 128, 0, 0, 0, 10, 44,
  208, 72, 136, 153, 153, 128, 0, 26, 100, 0, 0, 0, 0, 0, 0, 26, 0, 7, 48, 0, 32, 0, 0, 0, 0,
  13, 0, 10, 96, 0, 0, 0, 0, 0, 0, 16, 120]

/-- **C80, violated.** One wrong byte in a valid file, the number of its colour endpoints or its
format, and `decode_unity_crunch` panics, in both builds. -/
theorem C80_unity_violated : ∃ file, (Unity.unpack file).isSome ∧ Limits file ∧
    width file = 8 ∧ height file = 4 ∧
    (∀ b : Build, @Model.Crn.Unity.decodeUnityCrunch b (file.set 40 1) 8 4 (List.replicate 32 0) = .panic) ∧
    (∀ b : Build, @Model.Crn.Unity.decodeUnityCrunch b (file.set 18 2) 8 4 (List.replicate 32 0) = .panic) := by
  refine ⟨UnityDemo.uThree, by decide +kernel,
    ⟨by decide +kernel, ⟨by decide +kernel, by decide +kernel, by decide +kernel⟩,
      by decide +kernel, by decide +kernel, by decide +kernel⟩, by decide +kernel, by decide +kernel,
    fun ⟨ck⟩ => ?_, fun ⟨ck⟩ => ?_⟩
  · apply of_crnPanics
    revert ck
    decide +kernel
  · apply of_crnPanics
    revert ck
    decide +kernel

/-! ### Cases that meet the hypotheses -/

/-- A test for the last part of `Unity.GoodTables`. -/
def unityClosedTables (file : List UInt8) : Bool :=
  match fileCodes file with
  | none => false
  | some cs =>
    match Unity.fileIndices file cs with
    | some planes => cs.encoding.any (0 < ·) && planes.all (fun p =>
        closedCode p.endpoints p.endpointCode && closedCode p.selectors p.selectorCode)
    | none => false

theorem of_unityClosedTables {file : List UInt8} (h : unityClosedTables file = true) :
    ∃ cs planes, fileCodes file = some cs ∧ Unity.fileIndices file cs = some planes ∧
      UsedCode cs.encoding ∧ ∀ p ∈ planes, p.Closed := by
  unfold unityClosedTables at h
  split at h
  · exact absurd h (by decide)
  · next cs e1 =>
    split at h
    · next planes e2 =>
      simp only [Bool.and_eq_true, List.all_eq_true, List.any_eq_true, decide_eq_true_eq] at h
      exact ⟨cs, planes, e1, e2, h.1, fun p hp =>
        ⟨(of_closedCode (h.2 p hp).1).1, (of_closedCode (h.2 p hp).1).2,
          (of_closedCode (h.2 p hp).2).1, (of_closedCode (h.2 p hp).2).2⟩⟩
    · exact absurd h (by decide)

/-- A demo file with good tables. -/
theorem good_uEtc2a : Unity.GoodTables UnityDemo.uEtc2a :=
  ⟨by decide +kernel, by decide +kernel, by decide +kernel, by decide +kernel,
    ⟨by decide +kernel, ⟨by decide +kernel, by decide +kernel, by decide +kernel⟩,
      by decide +kernel, by decide +kernel, by decide +kernel⟩, of_unityClosedTables (by decide +kernel)⟩

/-- Another one. -/
theorem good_uDxt5 : Unity.GoodTables UnityDemo.uDxt5 :=
  ⟨by decide +kernel, by decide +kernel, by decide +kernel, by decide +kernel,
    ⟨by decide +kernel, ⟨by decide +kernel, by decide +kernel, by decide +kernel⟩,
      by decide +kernel, by decide +kernel, by decide +kernel⟩, of_unityClosedTables (by decide +kernel)⟩

/- The first byte of its level can be overwritten with anything. -/
example (junk : UInt8) : ∃ r image', @Model.Crn.Unity.decodeUnityCrunch Build.debug
    (UnityDemo.uEtc2a.set (levelOfs UnityDemo.uEtc2a 0) junk) 13 9 (List.replicate 117 0) = .ok (r, image') ∧
      image'.length = 117 := by
  have hn : ∀ i, UsedByTables UnityDemo.uEtc2a i → i ≠ levelOfs UnityDemo.uEtc2a 0 := by
    intro i hi e
    subst e
    exact absurd hi (by decide +kernel)
  letI := Build.debug
  have hs : ∀ i, UsedByTables UnityDemo.uEtc2a i →
      UnityDemo.uEtc2a[i]? = (UnityDemo.uEtc2a.set (levelOfs UnityDemo.uEtc2a 0) junk)[i]? :=
    fun i hi => by rw [List.getElem?_set_ne (Ne.symm (hn i hi))]
  have hl : UnityDemo.uEtc2a.length
      = (UnityDemo.uEtc2a.set (levelOfs UnityDemo.uEtc2a 0) junk).length := by
    rw [List.length_set]
  have H := SameTables.header ⟨hl, hs⟩
  obtain ⟨r, i, e, e'⟩ := C80_unity_damage_partial _ _ good_uEtc2a hl hs
    (Or.inr (by unfold blocksX; rw [← H.width]; decide +kernel)) 13 9 (List.replicate 117 0)
    (by
      rw [← H.format, show format UnityDemo.uEtc2a = 12 by decide +kernel]
      exact ⟨by decide, by decide, by decide⟩)
  exact ⟨r, i, e, e'.trans (by decide)⟩

end Verif.Props
