import Verif.Spec.PrefixCode

/-!
# Arithmetic of canonical prefix codes

Facts about the specification of `Verif.Spec.PrefixCode` alone.
-/

namespace Verif.Proofs.Crn

open Verif.Spec.Crn

theorem map_range_getD {β : Type} (f : Nat → β) (l : List Nat) :
    (List.range l.length).map (fun t => f (l.getD t 0)) = l.map f := by
  apply List.ext_getElem
  · simp
  · intro i h1 h2
    simp at h1
    simp [List.getD_eq_getElem?_getD, List.getElem?_eq_getElem h1]

theorem sum_map_add {α : Type} (f g : α → Nat) (l : List α) :
    (l.map fun x => f x + g x).sum = (l.map f).sum + (l.map g).sum := by
  induction l with
  | nil => rfl
  | cons a l ih => simp only [List.map_cons, List.sum_cons, ih]; omega

theorem sum_map_congr {α : Type} {f g : α → Nat} {l : List α} (h : ∀ x ∈ l, f x = g x) :
    (l.map f).sum = (l.map g).sum := by
  rw [List.map_congr_left h]

theorem sum_map_mul {α : Type} (k : Nat) (f : α → Nat) (l : List α) :
    (l.map fun x => k * f x).sum = k * (l.map f).sum := by
  induction l with
  | nil => rfl
  | cons a l ih => simp only [List.map_cons, List.sum_cons, ih, Nat.mul_add]

theorem sum_map_le {α : Type} {f : α → Nat} {l : List α} {k : Nat} (h : ∀ x ∈ l, f x ≤ k) :
    (l.map f).sum ≤ l.length * k := by
  induction l with
  | nil => simp
  | cons a l ih =>
    have h1 := h a (by simp)
    have h2 := ih (fun x hx => h x (by simp [hx]))
    simp only [List.map_cons, List.sum_cons, List.length_cons, Nat.succ_mul]
    omega

theorem count_eq_sum (l : List Nat) (c : Nat) :
    l.count c = (l.map fun x => if x = c then 1 else 0).sum := by
  induction l with
  | nil => rfl
  | cons a l ih =>
    simp only [List.map_cons, List.sum_cons, List.count_cons, ih, beq_iff_eq]
    omega

/-- Number of used symbols with a code shorter than `i`. -/
def off (lens : List Nat) (i : Nat) : Nat :=
  (lens.map fun l => if 0 < l ∧ l < i then 1 else 0).sum

theorem usedSpace_zero (lens : List Nat) : usedSpace lens 0 = 0 := by
  unfold usedSpace
  rw [sum_map_congr (g := fun _ => 0 * 0) (fun x _ => if_neg (by omega)), sum_map_mul, Nat.zero_mul]

theorem usedSpace_succ (lens : List Nat) (k : Nat) :
    usedSpace lens (k + 1) = 2 * usedSpace lens k + lens.count (k + 1) := by
  unfold usedSpace
  rw [count_eq_sum, ← sum_map_mul, ← sum_map_add]
  apply sum_map_congr
  intro l _
  by_cases h1 : 0 < l ∧ l ≤ k
  · rw [if_pos ⟨h1.1, by omega⟩, if_pos h1, if_neg (by omega),
      show k + 1 - l = (k - l) + 1 by omega, Nat.pow_succ]
    omega
  · rw [if_neg h1]
    by_cases h2 : l = k + 1
    · rw [if_pos ⟨by omega, by omega⟩, if_pos h2, h2, Nat.sub_self]
    · rw [if_neg (by omega), if_neg h2]

theorem usedSpace_le (lens : List Nat) (k : Nat) :
    usedSpace lens k ≤ lens.length * 2 ^ (k - 1) := by
  unfold usedSpace
  apply sum_map_le
  intro l _
  split
  · exact Nat.pow_le_pow_right (by omega) (by omega)
  · exact Nat.zero_le _

theorem off_zero (lens : List Nat) : off lens 0 = 0 := by
  unfold off
  rw [sum_map_congr (g := fun _ => 0 * 0) (fun x _ => if_neg (by omega)), sum_map_mul, Nat.zero_mul]

theorem off_one (lens : List Nat) : off lens 1 = 0 := by
  unfold off
  rw [sum_map_congr (g := fun _ => 0 * 0) (fun x _ => if_neg (by omega)), sum_map_mul, Nat.zero_mul]

theorem off_succ (lens : List Nat) {i : Nat} (hi : 0 < i) :
    off lens (i + 1) = off lens i + lens.count i := by
  unfold off
  rw [count_eq_sum, ← sum_map_add]
  apply sum_map_congr
  intro l _
  by_cases h1 : 0 < l ∧ l < i
  · rw [if_pos ⟨h1.1, by omega⟩, if_pos h1, if_neg (by omega)]
  · rw [if_neg h1]
    by_cases h2 : l = i
    · rw [if_pos ⟨by omega, by omega⟩, if_pos h2]
    · rw [if_neg (by omega), if_neg h2]

theorem off_mono (lens : List Nat) {i j : Nat} (h : i ≤ j) : off lens i ≤ off lens j := by
  induction j with
  | zero => rw [show i = 0 by omega]; omega
  | succ j ih =>
    rcases (show i = j + 1 ∨ i ≤ j by omega) with rfl | h
    · omega
    · have := ih h
      rcases Nat.eq_zero_or_pos j with rfl | hj
      · rw [off_zero] at this
        omega
      · rw [off_succ lens hj]; omega

theorem off_le (lens : List Nat) (i : Nat) : off lens i ≤ lens.length := by
  have := sum_map_le (l := lens) (f := fun l => if 0 < l ∧ l < i then 1 else 0) (k := 1)
    (fun l _ => by split <;> omega)
  unfold off
  omega

/-- The canonical code: codes of the shorter lengths, then those of the same length. -/
theorem codeValue_eq (lens : List Nat) {s : Nat} (hs : 0 < lenOf lens s) :
    codeValue lens s = 2 * usedSpace lens (lenOf lens s - 1)
      + (lens.take s).count (lenOf lens s) := by
  have hlt : s < lens.length := by
    apply Nat.lt_of_not_le
    intro h
    unfold lenOf at hs
    rw [List.getD_eq_getElem?_getD, List.getElem?_eq_none h] at hs
    exact absurd hs (by simp)
  generalize hL : lenOf lens s = L at *
  have e1 : codeValue lens s = ((List.range lens.length).map fun t =>
      (2 * if 0 < lens.getD t 0 ∧ lens.getD t 0 ≤ L - 1 then 2 ^ (L - 1 - lens.getD t 0) else 0)
        + (if t < s ∧ lens.getD t 0 = L then 1 else 0)).sum := by
    unfold codeValue
    apply sum_map_congr
    intro t _
    unfold codedBefore
    rw [hL]
    unfold lenOf
    generalize lens.getD t 0 = l
    by_cases h0 : 0 < l ∧ l ≤ L - 1
    · rw [if_pos h0, if_neg (show ¬ (t < s ∧ l = L) by omega), if_pos (by simp; omega),
        show L - l = (L - 1 - l) + 1 by omega, Nat.pow_succ]
      omega
    · rw [if_neg h0]
      by_cases h1 : t < s ∧ l = L
      · rw [if_pos h1, if_pos (by simp; omega), h1.2, Nat.sub_self]
      · rw [if_neg h1, if_neg (by simp; omega)]
  rw [e1, sum_map_add, sum_map_mul]
  congr 1
  · unfold usedSpace
    exact congrArg (fun l => 2 * List.sum l)
      (map_range_getD (fun l => if 0 < l ∧ l ≤ L - 1 then 2 ^ (L - 1 - l) else 0) lens)
  · have e2 : (List.range lens.length) = List.range s ++ (List.range (lens.length - s)).map (s + ·) := by
      conv => lhs; rw [show lens.length = s + (lens.length - s) by omega]
      rw [List.range_add]
    rw [e2, List.map_append, List.sum_append,
      sum_map_congr (l := (List.range (lens.length - s)).map (s + ·)) (g := fun _ => 0 * 0)
        (fun x hx => by
          simp only [List.mem_map] at hx
          obtain ⟨y, _, rfl⟩ := hx
          rw [if_neg (by omega)]), sum_map_mul, Nat.zero_mul, Nat.add_zero, count_eq_sum,
      ← map_range_getD (fun l => if l = L then 1 else 0) (lens.take s)]
    rw [show (lens.take s).length = s by simp; omega]
    apply sum_map_congr
    intro t ht
    have ht : t < s := by simpa using ht
    rw [show (lens.take s).getD t 0 = lens.getD t 0 by
      simp [List.getD_eq_getElem?_getD, List.getElem?_take, ht]]
    by_cases h : lens.getD t 0 = L
    · rw [if_pos ⟨ht, h⟩, if_pos h]
    · rw [if_neg (by omega), if_neg h]

/-! ## Occurrences -/

theorem lenOf_lt {lens : List Nat} {s : Nat} (h : 0 < lenOf lens s) : s < lens.length := by
  apply Nat.lt_of_not_le
  intro hl
  unfold lenOf at h
  rw [List.getD_eq_getElem?_getD, List.getElem?_eq_none hl] at h
  exact absurd h (by simp)

theorem take_succ_count (lens : List Nat) {s : Nat} (hs : s < lens.length) (c : Nat) :
    (lens.take (s + 1)).count c = (lens.take s).count c + if lenOf lens s = c then 1 else 0 := by
  rw [List.take_add_one, List.getElem?_eq_getElem hs, List.count_append]
  simp [lenOf, List.getD_eq_getElem?_getD, List.getElem?_eq_getElem hs, List.count_cons]

theorem take_count_le (lens : List Nat) (s c : Nat) : (lens.take s).count c ≤ lens.count c :=
  (List.take_sublist s lens).count_le c

theorem take_count_mono (lens : List Nat) {s t : Nat} (h : s ≤ t) (c : Nat) :
    (lens.take s).count c ≤ (lens.take t).count c :=
  (List.take_sublist_take_left h).count_le c

theorem take_count_lt (lens : List Nat) {s : Nat} (hs : 0 < lenOf lens s) :
    (lens.take s).count (lenOf lens s) < lens.count (lenOf lens s) := by
  have h1 := take_succ_count lens (lenOf_lt hs) (lenOf lens s)
  have h2 := take_count_le lens (s + 1) (lenOf lens s)
  rw [if_pos rfl] at h1
  omega

theorem take_count_lt_of_lt (lens : List Nat) {s t : Nat} (hs : 0 < lenOf lens s) (h : s < t) :
    (lens.take s).count (lenOf lens s) < (lens.take t).count (lenOf lens s) := by
  have h1 := take_succ_count lens (lenOf_lt hs) (lenOf lens s)
  have h2 := take_count_mono lens (show s + 1 ≤ t by omega) (lenOf lens s)
  rw [if_pos rfl] at h1
  omega

/-- The `q`-th symbol of a code length. -/
theorem exists_occurrence (lens : List Nat) {c q : Nat} (hq : q < lens.count c) :
    ∃ s, s < lens.length ∧ lenOf lens s = c ∧ (lens.take s).count c = q := by
  have key : ∀ n, n ≤ lens.length → q < (lens.take n).count c →
      ∃ s, s < lens.length ∧ lenOf lens s = c ∧ (lens.take s).count c = q := by
    intro n
    induction n with
    | zero => simp
    | succ n ih =>
      intro hn hlt
      by_cases h : q < (lens.take n).count c
      · exact ih (by omega) h
      · have h1 := take_succ_count lens (show n < lens.length by omega) c
        by_cases hc : lenOf lens n = c
        · rw [if_pos hc] at h1
          exact ⟨n, by omega, hc, by omega⟩
        · rw [if_neg hc] at h1
          omega
  exact key lens.length (Nat.le_refl _) (by simpa using hq)

/-- Position of a symbol in the order of the codes. -/
def rank (lens : List Nat) (s : Nat) : Nat :=
  off lens (lenOf lens s) + (lens.take s).count (lenOf lens s)

theorem rank_lt_next (lens : List Nat) {s : Nat} (hs : 0 < lenOf lens s) :
    rank lens s < off lens (lenOf lens s + 1) := by
  have := take_count_lt lens hs
  rw [off_succ lens hs, rank]
  omega

theorem rank_inj {lens : List Nat} {s t : Nat} (hs : 0 < lenOf lens s) (ht : 0 < lenOf lens t)
    (h : rank lens s = rank lens t) : s = t := by
  have h1 := rank_lt_next lens hs
  have h2 := rank_lt_next lens ht
  have hl : lenOf lens s = lenOf lens t := by
    rcases Nat.lt_trichotomy (lenOf lens s) (lenOf lens t) with hlt | heq | hgt
    · have := off_mono lens (show lenOf lens s + 1 ≤ lenOf lens t by omega)
      unfold rank at h h1 h2
      omega
    · exact heq
    · have := off_mono lens (show lenOf lens t + 1 ≤ lenOf lens s by omega)
      unfold rank at h h1 h2
      omega
  unfold rank at h
  rw [hl] at h
  rcases Nat.lt_trichotomy s t with hlt | heq | hgt
  · have := take_count_lt_of_lt lens hs hlt
    rw [hl] at this
    omega
  · exact heq
  · have := take_count_lt_of_lt lens ht hgt
    omega

end Verif.Proofs.Crn
