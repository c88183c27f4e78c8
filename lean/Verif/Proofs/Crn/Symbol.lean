import Verif.Proofs.Crn.Tables

/-!
# The symbol at the front of the bit buffer
-/

namespace Verif.Proofs.Crn

open Verif Verif.Model.Crn Verif.Spec.Crn

variable [Build]

/-- The 16 bits `x` start with the code of symbol `s`. -/
def Starts (lens : List Nat) (s x : Nat) : Prop :=
  0 < lenOf lens s ∧ codeValue lens s * 2 ^ (16 - lenOf lens s) ≤ x ∧
    x < (codeValue lens s + 1) * 2 ^ (16 - lenOf lens s)

omit [Build] in
theorem starts_div {lens : List Nat} {s x : Nat} (h : Starts lens s x) :
    x / 2 ^ (16 - lenOf lens s) = codeValue lens s := by
  have hp := Nat.two_pow_pos (16 - lenOf lens s)
  apply Nat.div_eq_of_lt_le h.2.1
  exact h.2.2

omit [Build] in
/-- The interval of a code lies between the ends of the previous and of its own length. -/
theorem starts_range {lens : List Nat} (hl : LensOk lens) {s x : Nat} (h : Starts lens s x) :
    M lens (lenOf lens s - 1) ≤ x ∧ x < M lens (lenOf lens s) := by
  have h16 := lenOf_le hl s
  obtain ⟨h1, h2, h3⟩ := h
  have hc := codeValue_eq lens h1
  have hlt := take_count_lt lens h1
  obtain ⟨k, hk⟩ : ∃ k, lenOf lens s = k + 1 := ⟨lenOf lens s - 1, by omega⟩
  rw [hk] at h1 h2 h3 hc hlt ⊢
  have hs := usedSpace_succ lens k
  rw [show k + 1 - 1 = k by omega] at hc ⊢
  constructor
  · refine Nat.le_trans ?_ h2
    unfold M
    rw [show 16 - k = (16 - (k + 1)) + 1 by omega, Nat.pow_succ, ← Nat.mul_assoc, Nat.mul_right_comm]
    exact Nat.mul_le_mul_right _ (by omega)
  · refine Nat.lt_of_lt_of_le h3 ?_
    unfold M
    exact Nat.mul_le_mul_right _ (by omega)

omit [Build] in
/-- The codes of one length tile the space between the ends. -/
theorem exists_starts {lens : List Nat} {k x : Nat} (hk : k < 16) (h1 : M lens k ≤ x)
    (h2 : x < M lens (k + 1)) :
    ∃ s, s < lens.length ∧ lenOf lens s = k + 1 ∧ Starts lens s x ∧
      codeValue lens s = x / 2 ^ (15 - k) ∧
      rank lens s + 2 * usedSpace lens k = off lens (k + 1) + x / 2 ^ (15 - k) := by
  have hp := Nat.two_pow_pos (15 - k)
  have hs := usedSpace_succ lens k
  have hlo : 2 * usedSpace lens k ≤ x / 2 ^ (15 - k) := by
    rw [Nat.le_div_iff_mul_le hp]
    unfold M at h1
    rw [show 16 - k = (15 - k) + 1 by omega, Nat.pow_succ, ← Nat.mul_assoc, Nat.mul_right_comm] at h1
    rw [Nat.mul_comm 2, Nat.mul_right_comm]
    rw [Nat.mul_right_comm] at h1
    exact h1
  have hhi : x / 2 ^ (15 - k) < usedSpace lens (k + 1) := by
    rw [Nat.div_lt_iff_lt_mul hp]
    unfold M at h2
    rw [show 16 - (k + 1) = 15 - k by omega] at h2
    exact h2
  obtain ⟨s, hs1, hs2, hs3⟩ := exists_occurrence lens
    (c := k + 1) (q := x / 2 ^ (15 - k) - 2 * usedSpace lens k) (by omega)
  have hcv := codeValue_eq lens (s := s) (by omega)
  rw [hs2, hs3, show k + 1 - 1 = k by omega] at hcv
  have hcv' : codeValue lens s = x / 2 ^ (15 - k) := by omega
  refine ⟨s, hs1, hs2, ⟨by omega, ?_, ?_⟩, hcv', ?_⟩
  · rw [hs2, hcv', show 16 - (k + 1) = 15 - k by omega]
    exact Nat.div_mul_le_self _ _
  · rw [hs2, hcv', show 16 - (k + 1) = 15 - k by omega, Nat.mul_comm]
    exact Nat.lt_mul_div_succ x hp
  · unfold rank
    rw [hs2, hs3]
    omega

omit [Build] in
/-- No two codes start the same bits. -/
theorem starts_unique {lens : List Nat} (hl : LensOk lens) {s t x : Nat} (hs : Starts lens s x)
    (ht : Starts lens t x) : s = t := by
  have h1 := starts_range hl hs
  have h2 := starts_range hl ht
  have hs16 := lenOf_le hl s
  have ht16 := lenOf_le hl t
  have hlen : lenOf lens s = lenOf lens t := by
    rcases Nat.lt_trichotomy (lenOf lens s) (lenOf lens t) with h | h | h
    · have := M_mono lens (show lenOf lens s ≤ lenOf lens t - 1 by omega) (by omega)
      omega
    · exact h
    · have := M_mono lens (show lenOf lens t ≤ lenOf lens s - 1 by omega) (by omega)
      omega
  have e1 := starts_div hs
  have e2 := starts_div ht
  rw [hlen] at e1
  have hc : codeValue lens s = codeValue lens t := by rw [← e1, ← e2]
  rw [codeValue_eq lens hs.1, codeValue_eq lens ht.1, hlen] at hc
  apply rank_inj hs.1 ht.1
  unfold rank
  rw [hlen]
  omega

theorem findLen_ok {lens : List Nat} {x : Nat} (hx : x < M lens 16) {maxCodes : List Nat}
    (hm : maxCodes = (maxCodesAt lens 16).set 16 4294967295) {len n : Nat} (h1 : 1 ≤ len)
    (h2 : len ≤ 16) (hlo : M lens (len - 1) ≤ x) (hn : 17 ≤ len + n) :
    ∃ k, k < 16 ∧ findLen maxCodes (x + 1) len n = .ok (k + 1) ∧ M lens k ≤ x ∧
      x < M lens (k + 1) := by
  induction n generalizing len with
  | zero => omega
  | succ n ih =>
    have hg : maxCodes[len - 1]? = some (if lens.count len ≠ 0 then M lens len else 0) := by
      rw [hm, List.getElem?_set, if_neg (by omega)]
      unfold maxCodesAt
      rw [map_range_get _ (by omega), show len - 1 + 1 = len by omega]
      by_cases hc : lens.count len ≠ 0
      · rw [if_pos ⟨by omega, hc⟩, if_pos hc]
      · rw [if_neg hc, if_neg (by omega)]
    unfold findLen
    rw [subU_ok h1, Res.lift_ok, Res.ok_bind, idx_of_some hg, Res.lift_ok, Res.ok_bind]
    by_cases hle : x + 1 ≤ if lens.count len ≠ 0 then M lens len else 0
    · rw [if_pos hle]
      by_cases hc : lens.count len ≠ 0
      · rw [if_pos hc] at hle
        refine ⟨len - 1, by omega, ?_, hlo, ?_⟩
        · rw [show len - 1 + 1 = len by omega]; rfl
        · rw [show len - 1 + 1 = len by omega]; omega
      · rw [if_neg hc] at hle
        omega
    · have hstep : M lens len ≤ x := by
        by_cases hc : lens.count len ≠ 0
        · rw [if_pos hc] at hle
          omega
        · have := M_unused lens (show len - 1 ≤ len by omega) h2
            (fun j a b => by rw [show j = len by omega]; omega)
          omega
      have h16 : len ≠ 16 := by
        intro he
        rw [he] at hstep
        omega
      rw [if_neg hle, addU_ok (by omega), Res.lift_ok, Res.ok_bind]
      exact ih (by omega) (by omega) (by rw [show len + 1 - 1 = len by omega]; exact hstep)
        (by omega)

theorem findLen_sentinel {lens : List Nat} {x : Nat} (hx : M lens 16 ≤ x) (hx2 : x < 2 ^ 16)
    {maxCodes : List Nat}
    (hm : maxCodes = (maxCodesAt lens 16).set 16 4294967295) {len n : Nat} (h1 : 1 ≤ len)
    (h2 : len ≤ 17) (hn : 18 ≤ len + n) :
    findLen maxCodes (x + 1) len n = .ok 17 := by
  induction n generalizing len with
  | zero => omega
  | succ n ih =>
    unfold findLen
    rw [subU_ok h1, Res.lift_ok, Res.ok_bind]
    by_cases h17 : len = 17
    · have hg : maxCodes[len - 1]? = some 4294967295 := by
        rw [hm, List.getElem?_set, if_pos (by omega), if_pos (by simp [maxCodesAt])]
      rw [idx_of_some hg, Res.lift_ok, Res.ok_bind, if_pos (by omega), h17]
      rfl
    · have hg : maxCodes[len - 1]? = some (if lens.count len ≠ 0 then M lens len else 0) := by
        rw [hm, List.getElem?_set, if_neg (by omega)]
        unfold maxCodesAt
        rw [map_range_get _ (by omega), show len - 1 + 1 = len by omega]
        by_cases hc : lens.count len ≠ 0
        · rw [if_pos ⟨by omega, hc⟩, if_pos hc]
        · rw [if_neg hc, if_neg (by omega)]
      have hM := M_mono lens (show len ≤ 16 by omega) (Nat.le_refl 16)
      rw [idx_of_some hg, Res.lift_ok, Res.ok_bind, if_neg (by split <;> omega),
        addU_ok (by omega), Res.lift_ok, Res.ok_bind]
      exact ih (by omega) (by omega) (by omega)

omit [Build] in
theorem usedSpace_M {lens : List Nat} {k : Nat} : M lens k = usedSpace lens k * 2 ^ (16 - k) := rfl

omit [Build] in
theorem shift_top {b n : Nat} (hn : n ≤ 16) : b >>> (32 - n) = (b >>> 16) / 2 ^ (16 - n) := by
  rw [← Nat.shiftRight_eq_div_pow, ← Nat.shiftRight_add]
  congr 1
  omega

omit [Build] in
theorem entry_parts {s l : Nat} (hs : s < 2 ^ 16) (hl : l < 2 ^ 15) :
    (s ||| l <<< 16) &&& 0xffff = s ∧ (s ||| l <<< 16) >>> 16 = l ∧ (s ||| l <<< 16) ≠ 4294967295 := by
  have e : s ||| l <<< 16 = l * 2 ^ 16 + s := by
    rw [Nat.or_comm, ← Nat.shiftLeft_add_eq_or_of_lt hs, Nat.shiftLeft_eq]
  rw [e, show (0xffff : Nat) = 2 ^ 16 - 1 by rfl, Nat.and_two_pow_sub_one_eq_mod,
    Nat.shiftRight_eq_div_pow]
  omega

/-- The search path. -/
theorem lookup_search {lens : List Nat} {m : DataModel} (h : TablesOk lens m) {b : Nat}
    (hb : b < 2 ^ 32) (hx : M lens m.tables.tableBits ≤ b >>> 16) (hx2 : b >>> 16 < M lens 16) :
    ∃ s, s < lens.length ∧ Starts lens s (b >>> 16) ∧ lookupSymbol m b = .ok (s, lenOf lens s) := by
  have hlen := h.lensOk.len
  have hb16 : b >>> 16 < 2 ^ 16 := by rw [Nat.shiftRight_eq_div_pow]; omega
  have hused : ∃ c, 0 < c ∧ c ≤ 16 ∧ lens.count c ≠ 0 := by
    apply Classical.byContradiction
    intro hn
    have := M_unused lens (show 0 ≤ 16 by omega) (Nat.le_refl 16) (fun j a b => by
      apply Classical.byContradiction
      intro h3
      exact hn ⟨j, a, b, h3⟩)
    rw [M_zero] at this
    omega
  obtain ⟨hs1, hs2, _⟩ := h.start
  obtain ⟨st1, st2, st3⟩ := hs2 hused
  have h17 : m.tables.decodeStartCodeSize ≠ 17 := by
    intro he
    rw [he, show 17 - 1 = 16 by omega] at st3
    omega
  obtain ⟨k, hk, e, hlo, hhi⟩ := findLen_ok hx2 h.maxCodes (n := 18) st1 (by omega)
    (by rw [st3]; exact hx) (by omega)
  obtain ⟨s, ss1, ss2, ss3, ss4, ss5⟩ := exists_starts hk hlo hhi
  refine ⟨s, ss1, ss3, ?_⟩
  have hcnt : lens.count (k + 1) ≠ 0 := by
    have := take_count_lt lens ss3.1
    rw [ss2] at this
    omega
  have hg : m.tables.valPtrs[k]?
      = some ((off lens (k + 1) : Int) - (2 * usedSpace lens k : Nat)) := by
    rw [h.valPtrs, List.getElem?_set, if_neg (by omega)]
    unfold valPtrsEnd
    rw [map_range_get _ (by omega), if_pos ⟨hk, hcnt⟩]
  have hU := usedSpace_bound h.lensOk (show k ≤ 16 by omega)
  have hoff := off_le lens (k + 1)
  have hr := rank_lt h.lensOk ss3.1
  have hoff17 := off_le lens 17
  have htop : (b >>> 16) / 2 ^ (15 - k) < 2 ^ 16 :=
    Nat.lt_of_le_of_lt (Nat.div_le_self _ _) hb16
  unfold lookupSymbol
  simp only
  rw [addU_ok (by omega), Res.lift_ok, Res.ok_bind, if_neg (by omega), e, Res.ok_bind,
    show k + 1 - 1 = k by omega, idx_of_some hg, Res.lift_ok, Res.ok_bind, subU_ok (by omega),
    Res.lift_ok, Res.ok_bind, shrU_ok (by omega), Res.lift_ok, Res.ok_bind,
    shift_top (by omega), show 16 - (k + 1) = 15 - k by omega, asI_small (by omega)]
  unfold addI
  generalize hq : (b >>> 16) / 2 ^ (15 - k) = q at *
  rw [show (off lens (k + 1) : Int) - (2 * usedSpace lens k : Nat) + (q : Nat)
      = (rank lens s : Int) by omega, fitI_ok (by unfold InI; omega), Res.lift_ok, Res.ok_bind,
    show asUI 32 (rank lens s : Int) = rank lens s by unfold asUI; omega,
    show asUI 64 (rank lens s : Int) = rank lens s by unfold asUI; omega, h.totalSyms,
    if_neg (by omega), idx_of_some (h.sorted s ss1 ss3.1), Res.lift_ok, Res.ok_bind, ss2]
  rfl

omit [Build] in
/-- From the index of the lookup table to 16 bits. -/
theorem starts_of_table {lens : List Nat} {s x tb : Nat} (h0 : 0 < lenOf lens s)
    (htb : tb ≤ 16) (hl : lenOf lens s ≤ tb)
    (h1 : codeValue lens s * 2 ^ (tb - lenOf lens s) ≤ x / 2 ^ (16 - tb))
    (h2 : x / 2 ^ (16 - tb) < (codeValue lens s + 1) * 2 ^ (tb - lenOf lens s)) :
    Starts lens s x := by
  have hp := Nat.two_pow_pos (16 - tb)
  have hpow : (2 : Nat) ^ (16 - lenOf lens s) = 2 ^ (tb - lenOf lens s) * 2 ^ (16 - tb) := by
    rw [← Nat.pow_add]; congr 1; omega
  refine ⟨h0, ?_, ?_⟩
  · rw [Nat.le_div_iff_mul_le hp, Nat.mul_assoc, ← hpow] at h1
    exact h1
  · rw [Nat.div_lt_iff_lt_mul hp, Nat.mul_assoc, ← hpow] at h2
    exact h2

/-- The table path. -/
theorem lookup_table {lens : List Nat} {m : DataModel} (h : TablesOk lens m) {b : Nat}
    (hb : b < 2 ^ 32) (hx : b >>> 16 < M lens m.tables.tableBits) :
    ∃ s, s < lens.length ∧ Starts lens s (b >>> 16) ∧ lookupSymbol m b = .ok (s, lenOf lens s) := by
  have hlen := h.lensOk.len
  have hb16 : b >>> 16 < 2 ^ 16 := by rw [Nat.shiftRight_eq_div_pow]; omega
  have hbits := h.bits
  have htb0 : m.tables.tableBits ≠ 0 := by
    intro h0
    rw [h0, M_zero] at hx
    omega
  have hi : (b >>> 16) / 2 ^ (16 - m.tables.tableBits) < usedSpace lens m.tables.tableBits := by
    rw [Nat.div_lt_iff_lt_mul (Nat.two_pow_pos _)]
    exact hx
  obtain ⟨s, a1, a2, a3, a4, a5⟩ := h.lookup _ hi
  have hst := starts_of_table a1 (show m.tables.tableBits ≤ 16 by omega) a2 a3 a4
  have hsl := lenOf_lt a1
  refine ⟨s, hsl, hst, ?_⟩
  obtain ⟨p1, p2, p3⟩ := entry_parts (s := s) (l := lenOf lens s) (by omega) (by omega)
  obtain ⟨hs1, _, _⟩ := h.start
  unfold lookupSymbol
  simp only
  rw [addU_ok (by omega), Res.lift_ok, Res.ok_bind, if_pos (by omega), subU_ok (by omega),
    Res.lift_ok, Res.ok_bind, shrU_ok (by omega), Res.lift_ok, Res.ok_bind, shift_top (by omega),
    idx_of_some a5, Res.lift_ok, Res.ok_bind, if_neg p3, p1, p2, h.codeSizes,
    idx_of_some (lens_get hsl), Res.lift_ok, Res.ok_bind, if_neg (by simp)]
  rfl

/-- **The symbol decoder finds the symbol whose code the bits start with.** -/
theorem lookup_starts {lens : List Nat} {m : DataModel} (h : TablesOk lens m) {b s : Nat}
    (hb : b < 2 ^ 32) (hs : Starts lens s (b >>> 16)) :
    lookupSymbol m b = .ok (s, lenOf lens s) := by
  have hr := (starts_range h.lensOk hs).2
  have hM := M_mono lens (lenOf_le h.lensOk s) (Nat.le_refl 16)
  by_cases hx : b >>> 16 < M lens m.tables.tableBits
  · obtain ⟨t, _, t2, t3⟩ := lookup_table h hb hx
    rw [starts_unique h.lensOk hs t2]
    exact t3
  · obtain ⟨t, _, t2, t3⟩ := lookup_search h hb (by omega) (by omega)
    rw [starts_unique h.lensOk hs t2]
    exact t3

/-- If some symbol is used but no code starts the bits, the decoder reports a failure. -/
theorem lookup_none {lens : List Nat} {m : DataModel} (h : TablesOk lens m) {b : Nat}
    (hb : b < 2 ^ 32) (hused : ∃ c, 0 < c ∧ c ≤ 16 ∧ lens.count c ≠ 0)
    (hn : ∀ s, ¬ Starts lens s (b >>> 16)) : lookupSymbol m b = .fail "" := by
  have hb16 : b >>> 16 < 2 ^ 16 := by rw [Nat.shiftRight_eq_div_pow]; omega
  have hbits := h.bits
  have hlen := h.lensOk.len
  have hx1 : ¬ b >>> 16 < M lens m.tables.tableBits := by
    intro hx
    obtain ⟨t, _, t2, _⟩ := lookup_table h hb hx
    exact hn t t2
  have hx2 : ¬ b >>> 16 < M lens 16 := by
    intro hx
    obtain ⟨t, _, t2, _⟩ := lookup_search h hb (by omega) hx
    exact hn t t2
  obtain ⟨hs1, hs2, _⟩ := h.start
  obtain ⟨st1, st2, _⟩ := hs2 hused
  have hg : m.tables.valPtrs[16]? = some 0xFFFFF := by
    rw [h.valPtrs, List.getElem?_set, if_pos rfl, if_pos (by simp [valPtrsEnd])]
  unfold lookupSymbol
  simp only
  rw [addU_ok (by omega), Res.lift_ok, Res.ok_bind, if_neg (by omega),
    findLen_sentinel (by omega) hb16 h.maxCodes st1 st2 (by omega), Res.ok_bind,
    show 17 - 1 = 16 by rfl, idx_of_some hg, Res.lift_ok, Res.ok_bind, subU_ok (by omega),
    Res.lift_ok, Res.ok_bind, shrU_ok (by omega), Res.lift_ok, Res.ok_bind, show 32 - 17 = 15 by rfl]
  have ht : b >>> 15 < 2 ^ 17 := by rw [Nat.shiftRight_eq_div_pow]; omega
  rw [asI_small (by omega)]
  unfold addI
  rw [fitI_ok (by unfold InI; omega), Res.lift_ok, Res.ok_bind, h.totalSyms]
  rw [if_pos]
  unfold asUI
  omega

end Verif.Proofs.Crn
