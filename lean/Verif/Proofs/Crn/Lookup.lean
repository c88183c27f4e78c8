import Verif.Proofs.Crn.Sorted

/-!
# The lookup table computed by `DecoderTables::init`
-/

namespace Verif.Proofs.Crn

open Verif Verif.Model.Crn Verif.Spec.Crn

variable [Build]

/-- The first `T` entries of a table indexed by `tb` bits are those of the codes. -/
def Covered (lens : List Nat) (tb T : Nat) (lookup : List Nat) : Prop :=
  ∀ t, t < T → ∃ s, 0 < lenOf lens s ∧ lenOf lens s ≤ tb ∧
    codeValue lens s * 2 ^ (tb - lenOf lens s) ≤ t ∧
    t < (codeValue lens s + 1) * 2 ^ (tb - lenOf lens s) ∧
    lookup[t]? = some (s ||| (lenOf lens s) <<< 16)

omit [Build] in
theorem covered_set {lens : List Nat} {tb T : Nat} {lookup : List Nat}
    (h : Covered lens tb T lookup) (hT : T < lookup.length) {s : Nat} (h1 : 0 < lenOf lens s)
    (h2 : lenOf lens s ≤ tb) (h3 : codeValue lens s * 2 ^ (tb - lenOf lens s) ≤ T)
    (h4 : T < (codeValue lens s + 1) * 2 ^ (tb - lenOf lens s)) :
    Covered lens tb (T + 1) (lookup.set T (s ||| (lenOf lens s) <<< 16)) := by
  intro t ht
  by_cases he : t = T
  · subst he
    refine ⟨s, h1, h2, h3, h4, ?_⟩
    rw [List.getElem?_set, if_pos rfl, if_pos hT]
  · obtain ⟨s', a, b, c, d, e⟩ := h t (by omega)
    refine ⟨s', a, b, c, d, ?_⟩
    rw [List.getElem?_set, if_neg (by omega), e]

theorem fillCode_ok {lens : List Nat} {tb : Nat} (htb : tb ≤ 11) {lookup : List Nat}
    (hlook : 2 ^ tb ≤ lookup.length) {s : Nat} (h1 : 0 < lenOf lens s)
    (h2 : lenOf lens s ≤ tb) (hc : codeValue lens s < 2 ^ lenOf lens s)
    (hcov : Covered lens tb (codeValue lens s * 2 ^ (tb - lenOf lens s)) lookup) :
    ∃ lookup', fillCode tb (lenOf lens s) (tb - lenOf lens s) s (codeValue lens s) lookup
        = .ok lookup' ∧
      Covered lens tb ((codeValue lens s + 1) * 2 ^ (tb - lenOf lens s)) lookup' ∧
      lookup'.length = lookup.length := by
  generalize hL : lenOf lens s = L at *
  generalize hC : codeValue lens s = C at *
  have hpow : (2 : Nat) ^ tb = 2 ^ L * 2 ^ (tb - L) := by rw [← Nat.pow_add]; congr 1; omega
  have htop : (C + 1) * 2 ^ (tb - L) ≤ 2 ^ tb := by
    rw [hpow]; exact Nat.mul_le_mul_right _ hc
  have htb11 : (2 : Nat) ^ tb ≤ 2 ^ 11 := Nat.pow_le_pow_right (by omega) htb
  have hf11 : (2 : Nat) ^ (tb - L) ≤ 2 ^ 11 := Nat.pow_le_pow_right (by omega) (by omega)
  have hmul : (C + 1) * 2 ^ (tb - L) = C * 2 ^ (tb - L) + 2 ^ (tb - L) := by
    rw [Nat.add_mul, Nat.one_mul]
  unfold fillCode
  rw [shlU_ok (by omega), Res.lift_ok, Res.ok_bind, Nat.shiftLeft_eq, Nat.one_mul,
    Nat.mod_eq_of_lt (by omega)]
  obtain ⟨l', e, hc', hl'⟩ := Res.forRange_inv (n := 2 ^ (tb - L))
    (f := fun j (lookup : List Nat) => (do
      let c ← shlU 32 C (tb - L)
      let t ← addU 32 j c
      let size ← shlU 32 1 tb
      if t ≥ size then Res.fail ""
      else do
        let cs ← shlU 32 L 16
        setIdx lookup t (s ||| cs) : Res (List Nat))) (s := lookup)
    (fun j l => Covered lens tb (C * 2 ^ (tb - L) + j) l ∧ l.length = lookup.length)
    ⟨hcov, rfl⟩
    (by
      rintro j hj l ⟨hcv, hl⟩
      rw [shlU_ok (by omega), Res.lift_ok, Res.ok_bind, Nat.shiftLeft_eq,
        Nat.mod_eq_of_lt (by omega), addU_ok (by omega), Res.lift_ok, Res.ok_bind,
        shlU_ok (by omega), Res.lift_ok, Res.ok_bind, Nat.shiftLeft_eq, Nat.one_mul,
        Nat.mod_eq_of_lt (by omega), if_neg (by omega), shlU_ok (by omega), Res.lift_ok,
        Res.ok_bind, Nat.mod_eq_of_lt (by rw [Nat.shiftLeft_eq]; omega), setIdx_ok (by omega),
        Res.lift_ok, Nat.add_comm j]
      refine ⟨_, rfl, ?_, by simp [hl]⟩
      have := covered_set hcv (by omega) (s := s) (by omega) (by omega)
        (by rw [hL, hC]; omega) (by rw [hL, hC]; omega)
      rw [hL] at this
      exact this)
  refine ⟨l', e, ?_, hl'⟩
  rw [hmul]
  exact hc'

theorem fillCode_fail {tb L s C : Nat} (htb : tb ≤ 11) (hL : L ≤ tb) {lookup : List Nat}
    (hC : 2 ^ L ≤ C) (hb : C < 2 ^ 20) :
    fillCode tb L (tb - L) s C lookup = .fail "" := by
  have hpow : (2 : Nat) ^ tb = 2 ^ L * 2 ^ (tb - L) := by rw [← Nat.pow_add]; congr 1; omega
  have htop : 2 ^ tb ≤ C * 2 ^ (tb - L) := by
    rw [hpow]; exact Nat.mul_le_mul_right _ hC
  have htb11 : (2 : Nat) ^ tb ≤ 2 ^ 11 := Nat.pow_le_pow_right (by omega) htb
  have hf11 : (2 : Nat) ^ (tb - L) ≤ 2 ^ 11 := Nat.pow_le_pow_right (by omega) (by omega)
  have hbig : C * 2 ^ (tb - L) < 2 ^ 31 + 1 := by
    have : C * 2 ^ (tb - L) ≤ 2 ^ 20 * 2 ^ 11 := Nat.mul_le_mul (by omega) hf11
    omega
  unfold fillCode
  rw [shlU_ok (by omega), Res.lift_ok, Res.ok_bind, Nat.shiftLeft_eq, Nat.one_mul,
    Nat.mod_eq_of_lt (by omega)]
  apply Res.forRange_fail (m := 0) (fun _ _ => True) (Nat.two_pow_pos _) trivial
  · intro i hi; omega
  · intro l _
    rw [shlU_ok (by omega), Res.lift_ok, Res.ok_bind, Nat.shiftLeft_eq,
      Nat.mod_eq_of_lt (by omega), addU_ok (by omega), Res.lift_ok, Res.ok_bind,
      shlU_ok (by omega), Res.lift_ok, Res.ok_bind, Nat.shiftLeft_eq, Nat.one_mul,
      Nat.mod_eq_of_lt (by omega), if_pos (by omega)]

/-- What is known when the table is filled. -/
structure FillIn (lens sorted : List Nat) : Prop where
  lensOk : LensOk lens
  sorted : SortedFor lens lens.length sorted

theorem unshiftedMaxCode_ok {lens : List Nat} {k : Nat} (hk : k < 16)
    (hn : lens.count (k + 1) ≠ 0) :
    unshiftedMaxCode (maxCodesAt lens 16) (k + 1) = .ok (usedSpace lens (k + 1) - 1) := by
  have hs := usedSpace_succ lens k
  unfold unshiftedMaxCode
  have hg : (maxCodesAt lens 16)[k]? = some (M lens (k + 1)) := by
    unfold maxCodesAt
    rw [map_range_get _ (by omega), if_pos ⟨hk, hn⟩]
  have hp := Nat.two_pow_pos (16 - (k + 1))
  have hM : M lens (k + 1) ≠ 0 := by
    unfold M
    exact Nat.mul_ne_zero (by omega) (by omega)
  rw [if_neg (by omega), show k + 1 - 1 = k by omega, idx_of_some hg, Res.lift_ok, Res.ok_bind,
    if_neg hM, shrU_ok (by omega), Res.lift_ok, Nat.shiftRight_eq_div_pow]
  congr 1
  unfold M
  generalize hU : usedSpace lens (k + 1) = U at *
  generalize 2 ^ (16 - (k + 1)) = p at *
  obtain ⟨u, rfl⟩ : ∃ u, U = u + 1 := ⟨U - 1, by omega⟩
  rw [Nat.add_mul, Nat.one_mul, show u * p + p - 1 = (p - 1) + u * p by omega,
    Nat.add_mul_div_right _ _ hp, Nat.div_eq_of_lt (by omega)]
  omega

/-- The body of the loop over the codes of length `k + 1`. -/
def fillBody (lens sorted : List Nat) (tb k q : Nat) (lookup : List Nat) : Res (List Nat) := do
  let code := 2 * usedSpace lens k + q
  let a ← addU 32 (off lens (k + 1)) code
  let p ← subU 32 a (2 * usedSpace lens k)
  let sym ← idx sorted p
  let c ← idx lens sym
  if c ≠ k + 1 then Res.fail ""
  else fillCode tb (k + 1) (tb - (k + 1)) sym code lookup

theorem fillBody_eq {lens sorted : List Nat} (h : FillIn lens sorted) {tb k q : Nat}
    (hk : k < 16) (hq : q < lens.count (k + 1)) (lookup : List Nat) :
    ∃ s, s < lens.length ∧ lenOf lens s = k + 1 ∧ codeValue lens s = 2 * usedSpace lens k + q ∧
      fillBody lens sorted tb k q lookup
        = fillCode tb (k + 1) (tb - (k + 1)) s (codeValue lens s) lookup := by
  obtain ⟨s, hs, hl, hc⟩ := exists_occurrence lens hq
  have hcv := codeValue_eq lens (s := s) (by omega)
  rw [hl, hc, show k + 1 - 1 = k by omega] at hcv
  refine ⟨s, hs, hl, hcv, ?_⟩
  have hU := usedSpace_bound h.lensOk (show k ≤ 16 by omega)
  have hoff := off_le lens (k + 1)
  have hlen := h.lensOk.len
  have hcount : lens.count (k + 1) ≤ lens.length := List.count_le_length
  have hso := h.sorted s hs (by omega)
  have hr : rank lens s = off lens (k + 1) + q := by unfold rank; rw [hl, hc]
  rw [hr] at hso
  unfold fillBody
  simp only
  rw [addU_ok (by omega), Res.lift_ok, Res.ok_bind, subU_ok (by omega), Res.lift_ok, Res.ok_bind,
    show off lens (k + 1) + (2 * usedSpace lens k + q) - 2 * usedSpace lens k
      = off lens (k + 1) + q by omega, idx_of_some hso, Res.lift_ok, Res.ok_bind,
    idx_of_some (lens_get hs), Res.lift_ok, Res.ok_bind, hl, if_neg (by omega), hcv]

theorem fillLength_eq {lens sorted : List Nat} (h : LensOk lens) {tb k : Nat} (htb : tb ≤ 11)
    (hk : k < tb) (lookup : List Nat) :
    fillLength (NC lens) lens (minCodesAt lens 16) (maxCodesAt lens 16) (valPtrsAt lens 16) sorted
        tb (k + 1) lookup
      = Res.forRange (lens.count (k + 1)) (fillBody lens sorted tb k) lookup := by
  have hoff := off_le lens (k + 1)
  have hlen := h.len
  have hs := usedSpace_succ lens k
  unfold fillLength
  rw [idx_of_some (NC_get lens (show k + 1 < 17 by omega) (by omega)), Res.lift_ok, Res.ok_bind]
  by_cases hn : lens.count (k + 1) = 0
  · rw [if_pos hn, hn]
    rfl
  · have g1 : (minCodesAt lens 16)[k]? = some (2 * usedSpace lens k) := by
      unfold minCodesAt
      rw [map_range_get _ (by omega), if_pos ⟨by omega, hn⟩]
    have g2 : (valPtrsAt lens 16)[k]? = some (off lens (k + 1) : Int) := by
      unfold valPtrsAt
      rw [map_range_get _ (by omega), if_pos ⟨by omega, hn⟩]
    have hv : asUI 32 (off lens (k + 1) : Int) = off lens (k + 1) := by
      unfold asUI
      omega
    rw [if_neg hn, subU_ok (by omega), Res.lift_ok, Res.ok_bind, show k + 1 - 1 = k by omega,
      idx_of_some g1, Res.lift_ok, Res.ok_bind, unshiftedMaxCode_ok (by omega) hn, Res.ok_bind,
      idx_of_some g2, Res.lift_ok, Res.ok_bind, hv,
      show usedSpace lens (k + 1) - 1 + 1 - 2 * usedSpace lens k = lens.count (k + 1) by omega]
    rfl

theorem fillLength_ok {lens sorted : List Nat} (h : FillIn lens sorted) {tb k : Nat}
    (htb : tb ≤ 11) (hk : k < tb) {lookup : List Nat} (hlook : 2 ^ tb ≤ lookup.length)
    (hU : usedSpace lens (k + 1) ≤ 2 ^ (k + 1))
    (hcov : Covered lens tb (usedSpace lens k * 2 ^ (tb - k)) lookup) :
    ∃ lookup', fillLength (NC lens) lens (minCodesAt lens 16) (maxCodesAt lens 16)
        (valPtrsAt lens 16) sorted tb (k + 1) lookup = .ok lookup' ∧
      Covered lens tb (usedSpace lens (k + 1) * 2 ^ (tb - (k + 1))) lookup' ∧
      lookup'.length = lookup.length := by
  have hs := usedSpace_succ lens k
  rw [fillLength_eq h.lensOk htb hk]
  obtain ⟨l', e, hc', hl'⟩ := Res.forRange_inv (n := lens.count (k + 1))
    (f := fillBody lens sorted tb k) (s := lookup)
    (fun q l => Covered lens tb ((2 * usedSpace lens k + q) * 2 ^ (tb - (k + 1))) l ∧
      l.length = lookup.length)
    ⟨by
      rw [Nat.add_zero, Nat.mul_comm 2, Nat.mul_assoc, ← Nat.pow_succ',
        show (tb - (k + 1)).succ = tb - k by omega]
      exact hcov, rfl⟩
    (by
      rintro q hq l ⟨hcv, hl⟩
      obtain ⟨s, hs', hls, hcs, e⟩ := fillBody_eq h (tb := tb) (show k < 16 by omega) hq l
      rw [e]
      obtain ⟨l2, e2, c2, n2⟩ := fillCode_ok (lens := lens) htb (lookup := l) (by omega) (s := s)
        (by omega) (by omega) (by rw [hls]; omega) (by rw [hls, hcs]; exact hcv)
      rw [hls] at e2 c2
      refine ⟨l2, e2, ?_, by omega⟩
      rw [hcs] at c2
      exact c2)
  refine ⟨l', e, ?_, hl'⟩
  rw [hs]
  exact hc'

theorem fillLength_fail {lens sorted : List Nat} (h : FillIn lens sorted) {tb k : Nat}
    (htb : tb ≤ 11) (hk : k < tb) {lookup : List Nat} (hlook : 2 ^ tb ≤ lookup.length)
    (hU0 : usedSpace lens k ≤ 2 ^ k) (hU : 2 ^ (k + 1) < usedSpace lens (k + 1))
    (hcov : Covered lens tb (usedSpace lens k * 2 ^ (tb - k)) lookup) :
    fillLength (NC lens) lens (minCodesAt lens 16) (maxCodesAt lens 16)
        (valPtrsAt lens 16) sorted tb (k + 1) lookup = .fail "" := by
  have hs := usedSpace_succ lens k
  have hp : (2 : Nat) ^ (k + 1) = 2 * 2 ^ k := by rw [Nat.pow_succ]; omega
  have hp2 : (2 : Nat) ^ (k + 1) ≤ 2 ^ 11 := Nat.pow_le_pow_right (by omega) (by omega)
  rw [fillLength_eq h.lensOk htb hk]
  refine Res.forRange_fail (m := 2 ^ (k + 1) - 2 * usedSpace lens k)
    (fun q l => Covered lens tb ((2 * usedSpace lens k + q) * 2 ^ (tb - (k + 1))) l ∧
      l.length = lookup.length) (by omega)
    ⟨by
      rw [Nat.add_zero, Nat.mul_comm 2, Nat.mul_assoc, ← Nat.pow_succ',
        show (tb - (k + 1)).succ = tb - k by omega]
      exact hcov, rfl⟩ ?_ ?_
  · rintro q hq l ⟨hcv, hl⟩
    obtain ⟨s, hs', hls, hcs, e⟩ := fillBody_eq h (tb := tb) (show k < 16 by omega)
      (show q < lens.count (k + 1) by omega) l
    rw [e]
    obtain ⟨l2, e2, c2, n2⟩ := fillCode_ok (lens := lens) htb (lookup := l) (by omega) (s := s)
      (by omega) (by omega) (by rw [hls]; omega) (by rw [hls, hcs]; exact hcv)
    rw [hls] at e2 c2
    refine ⟨l2, e2, ?_, by omega⟩
    rw [hcs] at c2
    exact c2
  · rintro l ⟨hcv, hl⟩
    obtain ⟨s, hs', hls, hcs, e⟩ := fillBody_eq h (tb := tb) (show k < 16 by omega)
      (show 2 ^ (k + 1) - 2 * usedSpace lens k < lens.count (k + 1) by omega) l
    rw [e]
    exact fillCode_fail htb (by omega) (by omega) (by omega)

omit [Build] in
theorem usedSpace_fits (lens : List Nat) {k n : Nat} (hkn : k ≤ n) (h : usedSpace lens n ≤ 2 ^ n) :
    usedSpace lens k ≤ 2 ^ k := by
  induction n with
  | zero => rw [show k = 0 by omega]; exact h
  | succ n ih =>
    rcases (show k = n + 1 ∨ k ≤ n by omega) with rfl | hk
    · exact h
    · refine ih hk ?_
      rw [usedSpace_succ, Nat.pow_succ] at h
      omega

omit [Build] in
theorem usedSpace_first (lens : List Nat) {n : Nat} (h : ¬ usedSpace lens n ≤ 2 ^ n) :
    ∃ m, m < n ∧ usedSpace lens m ≤ 2 ^ m ∧ 2 ^ (m + 1) < usedSpace lens (m + 1) := by
  induction n with
  | zero => rw [usedSpace_zero] at h; omega
  | succ n ih =>
    by_cases hn : usedSpace lens n ≤ 2 ^ n
    · exact ⟨n, by omega, hn, by omega⟩
    · obtain ⟨m, a, b, c⟩ := ih hn
      exact ⟨m, by omega, b, c⟩

theorem fillTable_ok {lens sorted : List Nat} (h : FillIn lens sorted) {tb : Nat}
    (htb : tb ≤ 11) {lookup : List Nat} (hlook : tb = 0 ∨ 2 ^ tb ≤ lookup.length)
    (hU : usedSpace lens tb ≤ 2 ^ tb) :
    ∃ lookup', fillTable (NC lens) lens (minCodesAt lens 16) (maxCodesAt lens 16)
        (valPtrsAt lens 16) sorted tb lookup = .ok lookup' ∧
      Covered lens tb (usedSpace lens tb) lookup' ∧ lookup'.length = lookup.length := by
  obtain ⟨l', e, hc, hl⟩ := Res.forRange_inv (n := tb) (s := lookup)
    (f := fun k lookup => fillLength (NC lens) lens (minCodesAt lens 16) (maxCodesAt lens 16)
        (valPtrsAt lens 16) sorted tb (k + 1) lookup)
    (fun k l => Covered lens tb (usedSpace lens k * 2 ^ (tb - k)) l ∧ l.length = lookup.length)
    ⟨by intro t ht; rw [usedSpace_zero] at ht; omega, rfl⟩
    (by
      rintro k hk l ⟨hcv, hl⟩
      obtain ⟨l2, e2, c2, n2⟩ := fillLength_ok h htb hk (lookup := l) (by omega)
        (usedSpace_fits lens (by omega) hU) hcv
      exact ⟨l2, e2, c2, by omega⟩)
  refine ⟨l', e, ?_, hl⟩
  rw [Nat.sub_self, Nat.pow_zero, Nat.mul_one] at hc
  exact hc

theorem fillTable_fail {lens sorted : List Nat} (h : FillIn lens sorted) {tb : Nat}
    (htb : tb ≤ 11) {lookup : List Nat} (hlook : tb = 0 ∨ 2 ^ tb ≤ lookup.length)
    (hU : ¬ usedSpace lens tb ≤ 2 ^ tb) :
    fillTable (NC lens) lens (minCodesAt lens 16) (maxCodesAt lens 16)
        (valPtrsAt lens 16) sorted tb lookup = .fail "" := by
  obtain ⟨m, hm, h1, h2⟩ := usedSpace_first lens hU
  refine Res.forRange_fail (m := m)
    (fun k l => Covered lens tb (usedSpace lens k * 2 ^ (tb - k)) l ∧ l.length = lookup.length)
    hm ⟨by intro t ht; rw [usedSpace_zero] at ht; omega, rfl⟩ ?_ ?_
  · rintro k hk l ⟨hcv, hl⟩
    obtain ⟨l2, e2, c2, n2⟩ := fillLength_ok h htb (show k < tb by omega) (lookup := l) (by omega)
      (usedSpace_fits lens (show k + 1 ≤ m by omega) h1) hcv
    exact ⟨l2, e2, c2, by omega⟩
  · rintro l ⟨hcv, hl⟩
    exact fillLength_fail h htb hm (by omega) h1 h2 hcv

end Verif.Proofs.Crn
