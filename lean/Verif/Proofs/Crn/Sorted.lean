import Verif.Proofs.Crn.Ranges

/-!
# The order of the symbols computed by `DecoderTables::init`
-/

namespace Verif.Proofs.Crn

open Verif Verif.Model.Crn Verif.Spec.Crn

variable [Build]

omit [Build] in
theorem lenOf_mem {lens : List Nat} {s : Nat} (h : s < lens.length) : lenOf lens s ∈ lens := by
  unfold lenOf
  rw [List.getD_eq_getElem?_getD, List.getElem?_eq_getElem h]
  exact List.getElem_mem h

omit [Build] in
theorem lens_get {lens : List Nat} {s : Nat} (h : s < lens.length) :
    lens[s]? = some (lenOf lens s) := by
  unfold lenOf
  rw [List.getD_eq_getElem?_getD, List.getElem?_eq_getElem h]
  rfl

omit [Build] in
theorem lenOf_le {lens : List Nat} (h : LensOk lens) (s : Nat) : lenOf lens s ≤ 16 := by
  by_cases hs : s < lens.length
  · exact h.le16 _ (lenOf_mem hs)
  · unfold lenOf
    rw [List.getD_eq_getElem?_getD, List.getElem?_eq_none (by omega)]
    simp

/-- `sorted_positions` when the first `i` symbols are placed. -/
def positionsFor (lens : List Nat) (i : Nat) : List Nat :=
  (List.range 17).map fun j =>
    if 0 < j ∧ lens.count j ≠ 0 then off lens j + (lens.take i).count j else 0

omit [Build] in
theorem positionsFor_zero (lens : List Nat) : positionsAt lens 16 = positionsFor lens 0 := by
  apply map_range_ext
  intro j hj
  by_cases h : 0 < j ∧ lens.count j ≠ 0
  · rw [if_pos h, if_pos ⟨h.1, by omega, h.2⟩]
    simp
  · rw [if_neg h, if_neg (by omega)]

/-- The symbols below `i` are placed. -/
def SortedFor (lens : List Nat) (i : Nat) (sorted : List Nat) : Prop :=
  ∀ s, s < i → 0 < lenOf lens s → sorted[rank lens s]? = some s

omit [Build] in
theorem rank_lt {lens : List Nat} (h : LensOk lens) {s : Nat} (hs : 0 < lenOf lens s) :
    rank lens s < off lens 17 := by
  have h1 := rank_lt_next lens hs
  have h2 := off_mono lens (show lenOf lens s + 1 ≤ 17 by have := lenOf_le h s; omega)
  omega

theorem sortSymbols_ok {lens : List Nat} (h : LensOk lens) {sorted : List Nat}
    (hs : off lens 17 ≤ sorted.length) :
    ∃ p sorted', sortSymbols (NC lens) lens lens.length (off lens 17) (positionsAt lens 16) sorted
        = .ok (p, sorted') ∧ SortedFor lens lens.length sorted' ∧
      sorted'.length = sorted.length := by
  have hlen := h.len
  have hoff := off_le lens 17
  obtain ⟨⟨p, s'⟩, e, h1, h2, h3⟩ := Res.forRange_inv (n := min lens.length lens.length)
    (f := fun i (s : List Nat × List Nat) => (do
      let (positions, sorted) := s
      let c ← idx lens i
      if c ≠ 0 then do
        let n ← idx (NC lens) c
        if n = 0 then Res.fail ""
        else do
          let pos ← idx positions c
          let pos1 ← addU 32 pos 1
          let positions ← setIdx positions c pos1
          if pos ≥ off lens 17 then Res.fail ""
          else do
            let sorted ← setIdx sorted pos (asU 16 i)
            pure (positions, sorted)
      else pure (positions, sorted) : Res (List Nat × List Nat)))
    (s := (positionsAt lens 16, sorted))
    (fun i s => s.1 = positionsFor lens i ∧ SortedFor lens i s.2 ∧ s.2.length = sorted.length)
    ⟨positionsFor_zero lens, fun s hs => by omega, rfl⟩
    (by
      rintro i hi ⟨positions, sorted1⟩ ⟨hp, hso, hsl⟩
      have hi : i < lens.length := by omega
      simp only at hp hso hsl ⊢
      subst hp
      rw [idx_of_some (lens_get hi), Res.lift_ok, Res.ok_bind]
      by_cases h0 : lenOf lens i = 0
      · rw [if_neg (by omega)]
        refine ⟨_, rfl, ?_, ?_, hsl⟩
        · apply map_range_ext
          intro j _
          by_cases hj : 0 < j ∧ lens.count j ≠ 0
          · rw [if_pos hj, if_pos hj, take_succ_count lens hi, if_neg (by omega)]
            rfl
          · rw [if_neg hj, if_neg hj]
        · intro s hs hl
          exact hso s (by rcases (show s = i ∨ s < i by omega) with rfl | h' <;> omega) hl
      · have hpos : 0 < lenOf lens i := by omega
        have h16 := lenOf_le h i
        have hcnt := take_count_lt lens hpos
        have hr := rank_lt h hpos
        have hlp : (positionsFor lens i).length = 17 := by simp [positionsFor]
        have hg : (positionsFor lens i)[lenOf lens i]? = some (rank lens i) := by
          unfold positionsFor
          rw [map_range_get _ (by omega), if_pos ⟨hpos, by omega⟩]
          rfl
        rw [if_pos h0, idx_of_some (NC_get lens (by omega) hpos), Res.lift_ok, Res.ok_bind,
          if_neg (by omega), idx_of_some hg, Res.lift_ok, Res.ok_bind, addU_ok (by omega),
          Res.lift_ok, Res.ok_bind, setIdx_ok (by omega), Res.lift_ok, Res.ok_bind,
          if_neg (by omega), setIdx_ok (by omega), Res.lift_ok, Res.ok_bind]
        refine ⟨_, rfl, ?_, ?_, by simp [hsl]⟩
        · apply map_range_set
          · rw [if_pos ⟨hpos, by omega⟩, take_succ_count lens hi, if_pos rfl]
            unfold rank
            omega
          · intro j _ hj
            by_cases hj2 : 0 < j ∧ lens.count j ≠ 0
            · rw [if_pos hj2, if_pos hj2, take_succ_count lens hi, if_neg (by omega)]
              rfl
            · rw [if_neg hj2, if_neg hj2]
        · intro s hs hl
          show (sorted1.set (rank lens i) (asU 16 i))[rank lens s]? = some s
          rw [List.getElem?_set]
          by_cases hsi : s = i
          · subst hsi
            rw [if_pos rfl, if_pos (by omega)]
            unfold asU
            rw [Nat.mod_eq_of_lt (by omega)]
          · rw [if_neg (fun he => hsi (rank_inj hl hpos he.symm))]
            exact hso s (by omega) hl)
  refine ⟨p, s', e, ?_, h3⟩
  rw [Nat.min_self] at h2
  exact h2

/-! ## The size of the order -/

omit [Build] in
theorem sortedSize_ge {numSyms totalUsed : Nat} (h : totalUsed ≤ numSyms) :
    totalUsed ≤ sortedSize numSyms totalUsed := by
  unfold sortedSize
  split
  · omega
  · have : totalUsed ≤ nextPow2 totalUsed := by
      unfold nextPow2
      split
      · assumption
      · have := Nat.lt_log2_self (n := totalUsed - 1)
        omega
    omega

end Verif.Proofs.Crn
