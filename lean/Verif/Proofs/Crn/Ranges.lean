import Verif.Model.Huffman
import Verif.Proofs.Crn.Arith

/-!
# The code ranges computed by `DecoderTables::init`
-/

namespace Verif.Proofs.Crn

open Verif Verif.Model.Crn Verif.Spec.Crn

variable [Build]

omit [Build] in
theorem map_range_get {β : Type} (f : Nat → β) {n i : Nat} (h : i < n) :
    ((List.range n).map f)[i]? = some (f i) := by
  simp [h]

omit [Build] in
theorem map_range_set {β : Type} {f g : Nat → β} {n i : Nat} {v : β} (hv : g i = v)
    (hg : ∀ j, j < n → j ≠ i → g j = f j) : ((List.range n).map f).set i v = (List.range n).map g := by
  apply List.ext_getElem
  · simp
  · intro j h1 h2
    have hj : j < n := by simpa using h2
    simp only [List.getElem_set, List.getElem_map, List.getElem_range]
    by_cases h : i = j
    · rw [if_pos h, ← h, hv]
    · rw [if_neg h, hg j hj (by omega)]

omit [Build] in
theorem map_range_ext {β : Type} {f g : Nat → β} {n : Nat} (h : ∀ j, j < n → f j = g j) :
    (List.range n).map f = (List.range n).map g :=
  List.map_congr_left (fun j hj => h j (by simpa using hj))

/-- The tables of code lengths this proof is about: what the stream format can describe. -/
structure LensOk (lens : List Nat) : Prop where
  pos : 0 < lens.length
  len : lens.length ≤ 8192
  le16 : ∀ l ∈ lens, l ≤ 16

/-- Numbers of codes. -/
def NC (lens : List Nat) : List Nat :=
  (List.range 17).map fun c => if c = 0 then 0 else lens.count c

omit [Build] in
theorem NC_get (lens : List Nat) {c : Nat} (h : c < 17) (h0 : 0 < c) :
    (NC lens)[c]? = some (lens.count c) := by
  unfold NC
  rw [map_range_get _ h, if_neg (by omega)]

theorem countCodes_aux (pre lens : List Nat) (hlen : pre.length + lens.length ≤ 8192)
    (h16 : ∀ l ∈ lens, l ≤ 16) :
    Res.forList lens (fun c (nc : List Nat) =>
      (if c ≠ 0 then do
        let n ← idx nc c
        let n ← addU 32 n 1
        setIdx nc c n
      else pure nc : Res (List Nat))) (NC pre) = .ok (NC (pre ++ lens)) := by
  induction lens generalizing pre with
  | nil => simp [Res.forList]
  | cons a lens ih =>
    have ha := h16 a (by simp)
    simp only [List.length_cons] at hlen
    unfold Res.forList
    have e : pre ++ a :: lens = (pre ++ [a]) ++ lens := by simp
    rw [e, ← ih (pre ++ [a]) (by simp; omega) (fun l hl => h16 l (by simp [hl]))]
    by_cases h0 : a = 0
    · rw [if_neg (by omega)]
      have : NC pre = NC (pre ++ [a]) := by
        unfold NC
        apply map_range_ext
        intro j _
        split
        · rfl
        · simp [List.count_append, List.count_cons]
          omega
      rw [this]
      rfl
    · have hc : pre.count a ≤ pre.length := List.count_le_length
      have hNC : (NC pre).length = 17 := by simp [NC]
      rw [if_pos h0, idx_of_some (NC_get pre (by omega) (by omega)), Res.lift_ok, Res.ok_bind,
        addU_ok (by omega), Res.lift_ok, Res.ok_bind, setIdx_ok (by omega), Res.lift_ok, Res.ok_bind]
      have : (NC pre).set a (pre.count a + 1) = NC (pre ++ [a]) := by
        unfold NC
        apply map_range_set
        · rw [if_neg h0]; simp [List.count_append]
        · intro j _ hj
          split
          · rfl
          · simp [List.count_append, List.count_cons]
            omega
      rw [this]

theorem countCodes_ok {lens : List Nat} (h : LensOk lens) : countCodes lens = .ok (NC lens) := by
  have e := countCodes_aux [] lens (by have := h.len; simp; omega) h.le16
  exact e

/-! ## Ranges -/

/-- The end of the codes of at most `k` bits, as 16-bit codes. -/
def M (lens : List Nat) (k : Nat) : Nat := usedSpace lens k * 2 ^ (16 - k)

omit [Build] in
theorem M_zero (lens : List Nat) : M lens 0 = 0 := by simp [M, usedSpace_zero]

omit [Build] in
theorem M_succ (lens : List Nat) {k : Nat} (h : k < 16) :
    M lens (k + 1) = M lens k + lens.count (k + 1) * 2 ^ (15 - k) := by
  unfold M
  rw [usedSpace_succ, show 16 - k = (15 - k) + 1 by omega, show 16 - (k + 1) = 15 - k by omega,
    Nat.pow_succ, Nat.add_mul]
  congr 1
  rw [Nat.mul_comm 2, Nat.mul_assoc, Nat.mul_comm 2]

omit [Build] in
theorem M_mono (lens : List Nat) {i j : Nat} (h : i ≤ j) (hj : j ≤ 16) : M lens i ≤ M lens j := by
  induction j with
  | zero => rw [show i = 0 by omega]; omega
  | succ j ih =>
    rcases (show i = j + 1 ∨ i ≤ j by omega) with rfl | h
    · omega
    · have := ih h (by omega)
      rw [M_succ lens (by omega)]
      omega

omit [Build] in
theorem usedSpace_bound {lens : List Nat} (h : LensOk lens) {k : Nat} (hk : k ≤ 16) :
    usedSpace lens k ≤ 8192 * 2 ^ 15 := by
  refine Nat.le_trans (usedSpace_le lens k) (Nat.mul_le_mul h.len ?_)
  exact Nat.pow_le_pow_right (by omega) (by omega)

omit [Build] in
theorem M_bound {lens : List Nat} (h : LensOk lens) {k : Nat} (hk : k ≤ 16) :
    M lens k ≤ 8192 * 2 ^ 15 := by
  have h1 := M_mono lens hk (Nat.le_refl 16)
  have h2 := usedSpace_bound h (Nat.le_refl 16)
  have h3 : M lens 16 = usedSpace lens 16 := by simp [M]
  omega

/-- `minCodes` after `k` lengths. -/
def minCodesAt (lens : List Nat) (k : Nat) : List Nat :=
  (List.range 16).map fun j => if j < k ∧ lens.count (j + 1) ≠ 0 then 2 * usedSpace lens j else 0
/-- `max_codes` after `k` lengths. -/
def maxCodesAt (lens : List Nat) (k : Nat) : List Nat :=
  (List.range 17).map fun j => if j < k ∧ lens.count (j + 1) ≠ 0 then M lens (j + 1) else 0
/-- `val_ptrs` after `k` lengths. -/
def valPtrsAt (lens : List Nat) (k : Nat) : List Int :=
  (List.range 17).map fun j => if j < k ∧ lens.count (j + 1) ≠ 0 then (off lens (j + 1) : Int) else 0
/-- `sorted_positions` after `k` lengths. -/
def positionsAt (lens : List Nat) (k : Nat) : List Nat :=
  (List.range 17).map fun j => if 0 < j ∧ j ≤ k ∧ lens.count j ≠ 0 then off lens j else 0

/-- The state after `k` code lengths. -/
structure RangesAt (lens : List Nat) (k : Nat) (r : Ranges) : Prop where
  minCodes : r.minCodes = minCodesAt lens k
  maxCodes : r.maxCodes = maxCodesAt lens k
  valPtrs : r.valPtrs = valPtrsAt lens k
  positions : r.sortedPositions = positionsAt lens k
  curCode : r.curCode = 2 * usedSpace lens k
  totalUsed : r.totalUsed = off lens (k + 1)
  minLe : ∀ j, 1 ≤ j → j ≤ k → lens.count j ≠ 0 → r.minSize ≤ j
  minUsed : r.minSize = 4294967295 ∨
    (1 ≤ r.minSize ∧ r.minSize ≤ k ∧ lens.count r.minSize ≠ 0)
  leMax : ∀ j, 1 ≤ j → j ≤ k → lens.count j ≠ 0 → j ≤ r.maxSize
  maxLe : r.maxSize ≤ k

omit [Build] in
theorem rangesAt_zero (lens : List Nat) : RangesAt lens 0
    { minCodes := List.replicate 16 0, maxCodes := ({} : Tables).maxCodes,
      valPtrs := ({} : Tables).valPtrs,
      sortedPositions := List.replicate 17 0, curCode := 0, totalUsed := 0,
      minSize := 4294967295, maxSize := 0 } := by
  constructor
  · simp [minCodesAt, List.range_succ, List.replicate]
  · simp [maxCodesAt, List.range_succ, List.replicate]
  · simp [valPtrsAt, List.range_succ, List.replicate]
  · show List.replicate 17 0 = _
    unfold positionsAt
    rw [map_range_ext (g := fun _ => 0) (fun j _ => if_neg (by omega))]
    rfl
  · simp [usedSpace_zero]
  · simp [off_one]
  · intro j h1 h2; omega
  · exact Or.inl rfl
  · intro j h1 h2; omega
  · exact Nat.le_refl _

omit [Build] in
theorem rangesAt_unused {lens : List Nat} {k : Nat} (hk : k < 16) {r : Ranges}
    (hr : RangesAt lens k r) (hn : lens.count (k + 1) = 0) :
    RangesAt lens (k + 1)
      { r with maxCodes := r.maxCodes.set k 0, curCode := 2 * r.curCode } := by
  constructor
  · show r.minCodes = _
    rw [hr.minCodes]
    apply map_range_ext
    intro j _
    by_cases h : j = k
    · subst h; rw [if_neg (by omega), if_neg (by omega)]
    · by_cases h2 : j < k ∧ lens.count (j + 1) ≠ 0
      · rw [if_pos h2, if_pos ⟨by omega, h2.2⟩]
      · rw [if_neg h2, if_neg (by omega)]
  · show r.maxCodes.set k 0 = _
    rw [hr.maxCodes]
    apply map_range_set
    · rw [if_neg (by omega)]
    · intro j _ h
      by_cases h2 : j < k ∧ lens.count (j + 1) ≠ 0
      · rw [if_pos h2, if_pos ⟨by omega, h2.2⟩]
      · rw [if_neg h2, if_neg (by omega)]
  · show r.valPtrs = _
    rw [hr.valPtrs]
    apply map_range_ext
    intro j _
    by_cases h : j = k
    · subst h; rw [if_neg (by omega), if_neg (by omega)]
    · by_cases h2 : j < k ∧ lens.count (j + 1) ≠ 0
      · rw [if_pos h2, if_pos ⟨by omega, h2.2⟩]
      · rw [if_neg h2, if_neg (by omega)]
  · show r.sortedPositions = _
    rw [hr.positions]
    apply map_range_ext
    intro j _
    by_cases h : j = k + 1
    · subst h; rw [if_neg (by omega), if_neg (by omega)]
    · by_cases h2 : 0 < j ∧ j ≤ k ∧ lens.count j ≠ 0
      · rw [if_pos h2, if_pos ⟨by omega, by omega, h2.2.2⟩]
      · rw [if_neg h2, if_neg (by omega)]
  · show 2 * r.curCode = _
    rw [hr.curCode, usedSpace_succ, hn]
    omega
  · show r.totalUsed = _
    rw [hr.totalUsed, off_succ lens (show 0 < k + 1 by omega), hn]
    omega
  · intro j h1 h2 h3
    by_cases h : j = k + 1
    · subst h; omega
    · exact hr.minLe j h1 (by omega) h3
  · rcases hr.minUsed with h | ⟨h1, h2, h3⟩
    · exact Or.inl h
    · exact Or.inr ⟨h1, by show r.minSize ≤ k + 1; omega, h3⟩
  · intro j h1 h2 h3
    by_cases h : j = k + 1
    · subst h; omega
    · exact hr.leMax j h1 (by omega) h3
  · have := hr.maxLe
    show r.maxSize ≤ k + 1
    omega

omit [Build] in
theorem rangesAt_used {lens : List Nat} {k : Nat} (hk : k < 16) {r : Ranges}
    (hr : RangesAt lens k r) (hn : lens.count (k + 1) ≠ 0) :
    RangesAt lens (k + 1)
      { minCodes := r.minCodes.set k r.curCode, maxCodes := r.maxCodes.set k (M lens (k + 1)),
        valPtrs := r.valPtrs.set k (off lens (k + 1)),
        sortedPositions := r.sortedPositions.set (k + 1) (off lens (k + 1)),
        curCode := 2 * usedSpace lens (k + 1), totalUsed := off lens (k + 2),
        minSize := min r.minSize (k + 1), maxSize := max r.maxSize (k + 1) } := by
  constructor
  · show r.minCodes.set k r.curCode = _
    rw [hr.minCodes]
    apply map_range_set
    · rw [if_pos ⟨by omega, hn⟩, hr.curCode]
    · intro j _ h
      by_cases h2 : j < k ∧ lens.count (j + 1) ≠ 0
      · rw [if_pos h2, if_pos ⟨by omega, h2.2⟩]
      · rw [if_neg h2, if_neg (by omega)]
  · show r.maxCodes.set k _ = _
    rw [hr.maxCodes]
    apply map_range_set
    · rw [if_pos ⟨by omega, hn⟩]
    · intro j _ h
      by_cases h2 : j < k ∧ lens.count (j + 1) ≠ 0
      · rw [if_pos h2, if_pos ⟨by omega, h2.2⟩]
      · rw [if_neg h2, if_neg (by omega)]
  · show r.valPtrs.set k _ = _
    rw [hr.valPtrs]
    apply map_range_set
    · rw [if_pos ⟨by omega, hn⟩]
    · intro j _ h
      by_cases h2 : j < k ∧ lens.count (j + 1) ≠ 0
      · rw [if_pos h2, if_pos ⟨by omega, h2.2⟩]
      · rw [if_neg h2, if_neg (by omega)]
  · show r.sortedPositions.set (k + 1) _ = _
    rw [hr.positions]
    apply map_range_set
    · rw [if_pos ⟨by omega, by omega, hn⟩]
    · intro j _ h
      by_cases h2 : 0 < j ∧ j ≤ k ∧ lens.count j ≠ 0
      · rw [if_pos h2, if_pos ⟨by omega, by omega, h2.2.2⟩]
      · rw [if_neg h2, if_neg (by omega)]
  · rfl
  · rfl
  · intro j h1 h2 h3
    show min r.minSize (k + 1) ≤ j
    by_cases h : j = k + 1
    · subst h; omega
    · have := hr.minLe j h1 (by omega) h3
      omega
  · right
    show 1 ≤ min r.minSize (k + 1) ∧ min r.minSize (k + 1) ≤ k + 1 ∧
      lens.count (min r.minSize (k + 1)) ≠ 0
    rcases hr.minUsed with h | ⟨h1, h2, h3⟩
    · rw [show min r.minSize (k + 1) = k + 1 by omega]
      exact ⟨by omega, by omega, hn⟩
    · rw [show min r.minSize (k + 1) = r.minSize by omega]
      exact ⟨h1, by omega, h3⟩
  · intro j h1 h2 h3
    show j ≤ max r.maxSize (k + 1)
    omega
  · have := hr.maxLe
    show max r.maxSize (k + 1) ≤ k + 1
    omega

omit [Build] in
/-- The end of a range: `1 + ((m << s) | ((1 << s) - 1))`. -/
theorem range_end (m s : Nat) : 1 + ((m <<< s) ||| (2 ^ s - 1)) = (m + 1) * 2 ^ s := by
  have hp := Nat.two_pow_pos s
  rw [← Nat.shiftLeft_add_eq_or_of_lt (by omega), Nat.shiftLeft_eq, Nat.add_mul]
  omega

omit [Build] in
theorem asI_small {x : Nat} (h : x < 2 ^ 31) : asI 32 x = x := by
  unfold asI
  rw [Int.bmod_eq_of_le (by omega) (by omega)]

theorem rangeStep_ok {lens : List Nat} (hl : LensOk lens) {k : Nat} (hk : k < 16) {r : Ranges}
    (hr : RangesAt lens k r) :
    ∃ r', rangeStep (NC lens) (k + 1) r = .ok r' ∧ RangesAt lens (k + 1) r' := by
  have hU := usedSpace_bound hl (show k ≤ 16 by omega)
  have hU1 := usedSpace_bound hl (show k + 1 ≤ 16 by omega)
  have hM := M_bound hl (show k + 1 ≤ 16 by omega)
  have hs := usedSpace_succ lens k
  have hoff := off_le lens (k + 1)
  have hoff2 := off_le lens (k + 2)
  have hlen := hl.len
  have l1 : r.minCodes.length = 16 := by rw [hr.minCodes]; simp [minCodesAt]
  have l2 : r.maxCodes.length = 17 := by rw [hr.maxCodes]; simp [maxCodesAt]
  have l3 : r.valPtrs.length = 17 := by rw [hr.valPtrs]; simp [valPtrsAt]
  have l4 : r.sortedPositions.length = 17 := by rw [hr.positions]; simp [positionsAt]
  have hcur := hr.curCode
  unfold rangeStep
  rw [idx_of_some (NC_get lens (show k + 1 < 17 by omega) (by omega)), Res.lift_ok, Res.ok_bind]
  by_cases hn : lens.count (k + 1) = 0
  · refine ⟨_, ?_, rangesAt_unused hk hr hn⟩
    rw [if_pos hn, show k + 1 - 1 = k by omega, setIdx_ok (by omega), Res.lift_ok, Res.ok_bind,
      Res.pure_eq, Res.ok_bind]
    simp only
    rw [shlU_ok (by omega), Res.lift_ok, Res.ok_bind, Nat.shiftLeft_eq, Nat.mod_eq_of_lt (by omega),
      Res.pure_eq, Nat.pow_one, Nat.mul_comm]
  · refine ⟨_, ?_, rangesAt_used hk hr hn⟩
    rw [if_neg hn]
    have hend : (r.curCode + lens.count (k + 1) - 1 + 1) * 2 ^ (16 - (k + 1)) = M lens (k + 1) := by
      unfold M
      rw [show r.curCode + lens.count (k + 1) - 1 + 1 = usedSpace lens (k + 1) by omega]
    have hlt : (r.curCode + lens.count (k + 1) - 1) <<< (16 - (k + 1)) < 2 ^ 32 := by
      rw [Nat.add_mul] at hend
      rw [Nat.shiftLeft_eq]
      omega
    have hone : 1 <<< (16 - (k + 1)) % 2 ^ 32 = 2 ^ (16 - (k + 1)) := by
      rw [Nat.shiftLeft_eq, Nat.one_mul, Nat.mod_eq_of_lt]
      exact Nat.pow_lt_pow_right (by omega) (by omega)
    have hp := Nat.two_pow_pos (16 - (k + 1))
    have he := range_end (r.curCode + lens.count (k + 1) - 1) (16 - (k + 1))
    have hc : codeRange (k + 1) (lens.count (k + 1)) r = .ok
        { minCodes := r.minCodes.set k r.curCode, maxCodes := r.maxCodes.set k (M lens (k + 1)),
          valPtrs := r.valPtrs.set k (off lens (k + 1)),
          sortedPositions := r.sortedPositions.set (k + 1) (off lens (k + 1)),
          curCode := usedSpace lens (k + 1), totalUsed := off lens (k + 2),
          minSize := min r.minSize (k + 1), maxSize := max r.maxSize (k + 1) } := by
      unfold codeRange
      rw [show k + 1 - 1 = k by omega, setIdx_ok (by omega), Res.lift_ok, Res.ok_bind,
        addU_ok (by omega), Res.lift_ok, Res.ok_bind, subU_ok (by omega), Res.lift_ok, Res.ok_bind,
        shlU_ok (by omega), Res.lift_ok, Res.ok_bind, Nat.mod_eq_of_lt hlt,
        shlU_ok (by omega), Res.lift_ok, Res.ok_bind, hone, subU_ok (by omega), Res.lift_ok,
        Res.ok_bind, addU_ok (by omega), Res.lift_ok, Res.ok_bind, setIdx_ok (by omega),
        Res.lift_ok, Res.ok_bind, setIdx_ok (by omega), Res.lift_ok, Res.ok_bind,
        setIdx_ok (by omega), Res.lift_ok, Res.ok_bind,
        addU_ok (by rw [hr.totalUsed]; have := off_succ lens (show 0 < k + 1 by omega); omega),
        Res.lift_ok, Res.ok_bind, Res.pure_eq, he, hend, hr.totalUsed,
        asI_small (by omega), ← off_succ lens (by omega),
        show r.curCode + lens.count (k + 1) = usedSpace lens (k + 1) by omega]
    rw [hc, Res.ok_bind]
    simp only
    rw [shlU_ok (by omega), Res.lift_ok, Res.ok_bind, Nat.shiftLeft_eq, Nat.mod_eq_of_lt (by omega),
      Res.pure_eq, Nat.pow_one, Nat.mul_comm]

theorem codeRanges_ok {lens : List Nat} (hl : LensOk lens) :
    ∃ r, codeRanges {} (NC lens) = .ok r ∧ RangesAt lens 16 r :=
  Res.forRange_inv (RangesAt lens) (rangesAt_zero lens)
    (fun _ hk _ hr => rangeStep_ok hl hk hr)

end Verif.Proofs.Crn
