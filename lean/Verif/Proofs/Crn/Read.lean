import Verif.Proofs.Crn.Codec

/-!
# Reading symbols: the decoder against the specification
-/

namespace Verif.Proofs.Crn

open Verif Verif.Model.Crn Verif.Spec.Crn

variable [Build]

omit [Build] in
theorem readSymbol_some {lens : List Nat} {bits rest : List Bool} {s : Nat}
    (h : readSymbol lens bits = some (s, rest)) :
    s < lens.length ∧ HasCode lens s ∧ bits = codeBits lens s ++ rest := by
  unfold readSymbol at h
  split at h
  · rename_i t ht
    obtain ⟨rfl, rfl⟩ : t = s ∧ bits.drop (lenOf lens t) = rest := by simpa using h
    have hm := List.mem_of_find?_eq_some ht
    have hp := List.find?_some ht
    simp only [decide_eq_true_eq] at hp
    refine ⟨by simpa using hm, hp.1, ?_⟩
    obtain ⟨r, hr⟩ := hp.2
    have hl : (codeBits lens t).length = lenOf lens t := by simp [codeBits]
    rw [← hr, ← hl, List.drop_left]
  · exact absurd h (by simp)

theorem decode_read {lens : List Nat} {m : DataModel} (hm : TablesOk lens m) {c : Codec} {s : Nat}
    {bits rest : List Bool} (hr : readSymbol lens bits = some (s, rest)) (h : St c bits) :
    ∃ c', c.decode m = .ok (s, c') ∧ St c' rest ∧ c'.buf = c.buf ∧ c'.last = c.last ∧
      (c.next ≤ c.last → c'.next ≤ c.last) := by
  obtain ⟨_, h1, rfl⟩ := readSymbol_some hr
  exact decode_ok hm h1 h

/-! ## Which code lengths are accepted -/

theorem countCodes_inv {sizes nc r : List Nat} (hnc : nc.length = 17)
    (h : Res.forList sizes (fun c (nc : List Nat) =>
      if c ≠ 0 then do
        let n ← idx nc c
        let n ← addU 32 n 1
        setIdx nc c n
      else pure nc) nc = .ok r) : ∀ l ∈ sizes, l ≤ 16 := by
  induction sizes generalizing nc with
  | nil => intro l hl; exact absurd hl (by simp)
  | cons c sizes ih =>
    unfold Res.forList at h
    obtain ⟨nc', h1, h2⟩ := Res.bind_eq_ok.mp h
    have hc : c ≤ 16 ∧ nc'.length = 17 := by
      by_cases h0 : c = 0
      · rw [if_neg (by omega)] at h1
        have : nc = nc' := by simpa using h1
        subst this
        exact ⟨by omega, hnc⟩
      · rw [if_pos h0] at h1
        obtain ⟨n, a1, a2⟩ := Res.bind_eq_ok.mp h1
        obtain ⟨n', b1, b2⟩ := Res.bind_eq_ok.mp a2
        have a1 := Res.lift_eq_ok.mp a1
        have b2 := Res.lift_eq_ok.mp b2
        have hlt : c < nc.length := by
          apply Nat.lt_of_not_le
          intro hn
          unfold idx at a1
          rw [List.getElem?_eq_none hn] at a1
          exact absurd a1 (by simp)
        refine ⟨by omega, ?_⟩
        rw [setIdx_ok hlt] at b2
        have : nc.set c n' = nc' := by simpa using b2
        rw [← this, List.length_set, hnc]
    intro l hl
    rcases List.mem_cons.mp hl with rfl | hl
    · exact hc.1
    · exact ih hc.2 h2 l hl

/-- A model that was prepared has code lengths in range that fit into the lookup table, and holds
the tables of the code. -/
theorem prepare_inv {lens : List Nat} (hlen : lens.length < 2 ^ 32) {m : DataModel}
    (h : DataModel.prepare { codeSizes := lens } = .ok m) :
    LensOk lens ∧ Fits lens ∧ TablesOk lens m := by
  have hpos : ¬ (lens.length = 0 ∨ 8192 < lens.length) := by
    intro hc
    rw [prepare_size hc hlen] at h
    exact absurd h (by simp)
  have hok : LensOk lens := by
    refine ⟨by omega, by omega, ?_⟩
    have h' := h
    have hu : asU 32 lens.length = lens.length := by unfold asU; omega
    unfold DataModel.prepare at h'
    simp only [hu] at h'
    rw [if_neg (by omega), tableBitsFor_ok (by omega), Res.lift_ok, Res.ok_bind] at h'
    obtain ⟨t, h1, _⟩ := Res.bind_eq_ok.mp h'
    unfold Tables.init at h1
    have hb : tableBitsOf lens.length ≤ 11 := by unfold tableBitsOf; split <;> omega
    rw [if_neg (by omega), List.take_length] at h1
    obtain ⟨nc, h2, _⟩ := Res.bind_eq_ok.mp h1
    exact countCodes_inv (by simp) h2
  by_cases hf : Fits lens
  · obtain ⟨m', e, ht, _⟩ := prepare_ok hok hf
    rw [e] at h
    have : m' = m := by simpa using h
    subst this
    exact ⟨hok, hf, ht⟩
  · rw [prepare_fail hok hf] at h
    exact absurd h (by simp)

omit [Build] in
/-- Codes that fit as a whole also fit up to any length. -/
theorem usedSpace_kraft {lens : List Nat} (h : usedSpace lens 16 ≤ 2 ^ 16) {k : Nat} (hk : k ≤ 16) :
    usedSpace lens k ≤ 2 ^ k := by
  have hm : M lens k ≤ M lens 16 := M_mono lens hk (Nat.le_refl 16)
  have h16 : M lens 16 ≤ 2 ^ 16 := by unfold M; simpa using h
  have : usedSpace lens k * 2 ^ (16 - k) ≤ 2 ^ k * 2 ^ (16 - k) := by
    rw [← Nat.pow_add, show k + (16 - k) = 16 by omega]
    exact Nat.le_trans hm h16
  exact Nat.le_of_mul_le_mul_right this (Nat.two_pow_pos _)

omit [Build] in
theorem kraft_fits {lens : List Nat} (h : usedSpace lens 16 ≤ 2 ^ 16) : Fits lens := by
  unfold Fits
  apply usedSpace_kraft h
  have hb : tableBitsOf lens.length ≤ 11 := by unfold tableBitsOf; split <;> omega
  unfold modelBits usedTableBits
  generalize tableBitsOf lens.length = tb at hb
  split
  · omega
  · split <;> omega

omit [Build] in
/-- In a code that is not oversubscribed every used symbol has a code. -/
theorem kraft_hasCode {lens : List Nat} (hl : LensOk lens) (h : usedSpace lens 16 ≤ 2 ^ 16) {s : Nat}
    (hs : 0 < lenOf lens s) : HasCode lens s := by
  refine ⟨hs, ?_⟩
  have h16 := lenOf_le hl s
  have hp := Nat.two_pow_pos (16 - lenOf lens s)
  have hst : Starts lens s (codeValue lens s * 2 ^ (16 - lenOf lens s)) := by
    refine ⟨hs, Nat.le_refl _, ?_⟩
    rw [Nat.add_mul]; omega
  have hr := (starts_range hl hst).2
  have hk := usedSpace_kraft h h16
  unfold M at hr
  have := Nat.lt_of_mul_lt_mul_right hr
  omega

omit [Build] in
theorem ofBits_lt (l : List Bool) : ofBits l < 2 ^ l.length := by
  induction l with
  | nil => simp [ofBits]
  | cons b l ih =>
    have := ofBits_append [b] l
    have hb : ofBits [b] ≤ 1 := by cases b <;> simp [ofBits]
    rw [show b :: l = [b] ++ l from rfl, this, List.length_append, Nat.pow_add]
    have h2 : ofBits [b] * 2 ^ l.length ≤ 1 * 2 ^ l.length := Nat.mul_le_mul_right _ hb
    simp only [List.length_singleton, Nat.pow_one]
    omega

omit [Build] in
theorem msbBits_ofBits (l : List Bool) : msbBits l.length (ofBits l) = l := by
  induction l with
  | nil => rfl
  | cons b l ih =>
    have h := ofBits_append [b] l
    rw [show b :: l = [b] ++ l from rfl, h, List.length_append,
      msbBits_append _ _ _ _ (ofBits_lt l), ih]
    congr 1
    cases b <;> rfl

omit [Build] in
/-- No code is the beginning of another one. -/
theorem prefix_free {lens : List Nat} (hl : LensOk lens) {s t : Nat} (hs : HasCode lens s)
    (ht : HasCode lens t) (h : codeBits lens s <+: codeBits lens t) : s = t := by
  obtain ⟨r, hr⟩ := h
  have hs16 := lenOf_le hl s
  have ht16 := lenOf_le hl t
  have hlen := congrArg List.length hr
  have hval := congrArg ofBits hr
  have l1 : (codeBits lens s).length = lenOf lens s := by simp [codeBits]
  have l2 : (codeBits lens t).length = lenOf lens t := by simp [codeBits]
  rw [List.length_append, l1, l2] at hlen
  have v1 : ofBits (codeBits lens s) = codeValue lens s := ofBits_msbBits hs.2
  have v2 : ofBits (codeBits lens t) = codeValue lens t := ofBits_msbBits ht.2
  rw [ofBits_append, v1, v2] at hval
  have hlt : ofBits r < 2 ^ r.length := ofBits_lt r
  have hp := Nat.two_pow_pos (16 - lenOf lens t)
  apply starts_unique hl (x := codeValue lens t * 2 ^ (16 - lenOf lens t))
  · apply hasCode_starts hs
    rw [show 16 - lenOf lens s = r.length + (16 - lenOf lens t) by omega, Nat.pow_add,
      Nat.mul_comm (2 ^ r.length), ← Nat.div_div_eq_div_mul, Nat.mul_div_cancel _ hp, ← hval,
      Nat.mul_comm, Nat.mul_add_div (Nat.two_pow_pos _), Nat.div_eq_of_lt hlt, Nat.add_zero]
  · exact hasCode_starts ht (Nat.mul_div_cancel _ hp)

omit [Build] in
theorem starts_prefix {lens : List Nat} (hl : LensOk lens) {s : Nat} {bits : List Bool}
    (hlen : 16 ≤ bits.length) (h : Starts lens s (ofBits (bits.take 16))) :
    s < lens.length ∧ HasCode lens s ∧ codeBits lens s <+: bits := by
  have h16 := lenOf_le hl s
  have hd := starts_div h
  have htl : (bits.take 16).length = 16 := by rw [List.length_take]; omega
  have hx := ofBits_lt (bits.take 16)
  have hb := msbBits_ofBits (bits.take 16)
  rw [htl] at hx hb
  generalize ofBits (bits.take 16) = x at *
  have hp := Nat.two_pow_pos (16 - lenOf lens s)
  have hcv : codeValue lens s < 2 ^ lenOf lens s := by
    rw [← hd, Nat.div_lt_iff_lt_mul hp, ← Nat.pow_add, show lenOf lens s + (16 - lenOf lens s) = 16 by omega]
    exact hx
  refine ⟨?_, ⟨h.1, hcv⟩, ?_⟩
  · apply Nat.lt_of_not_le
    intro hn
    have : lenOf lens s = 0 := by
      unfold lenOf
      rw [List.getD_eq_getElem?_getD, List.getElem?_eq_none hn]
      rfl
    have := h.1
    omega
  · have e : x = x / 2 ^ (16 - lenOf lens s) * 2 ^ (16 - lenOf lens s) + x % 2 ^ (16 - lenOf lens s) := by
      rw [Nat.mul_comm]; exact (Nat.div_add_mod x _).symm
    have ha := msbBits_append (lenOf lens s) (16 - lenOf lens s) (x / 2 ^ (16 - lenOf lens s))
      (x % 2 ^ (16 - lenOf lens s)) (Nat.mod_lt _ hp)
    rw [← e, show lenOf lens s + (16 - lenOf lens s) = 16 by omega, hb, hd] at ha
    exact List.IsPrefix.trans ⟨msbBits (16 - lenOf lens s) (x % 2 ^ (16 - lenOf lens s)), ha.symm⟩
      (List.take_prefix 16 bits)

/-- **No code.** If the stream has at least 16 more bits and none of the codes is at its front,
`decode` reports a failure. -/
theorem decode_none {lens : List Nat} {m : DataModel} (hm : TablesOk lens m)
    (hused : ∃ c, 0 < c ∧ c ≤ 16 ∧ lens.count c ≠ 0) {c : Codec} {bits : List Bool}
    (hlen : 16 ≤ bits.length) (hr : readSymbol lens bits = none) (h : St c bits) :
    c.decode m = .fail "" := by
  obtain ⟨c1, e1, h1, hc1, _, _, _⟩ := refill_ok h
  have htl : (bits.take 16).length = 16 := by rw [List.length_take]; omega
  have hst := h1
  rw [← List.take_append_drop 16 bits] at hst
  have ht := (st_take hst (by omega)).1
  rw [htl] at ht
  unfold Codec.decode
  rw [e1, Res.lift_ok, Res.ok_bind, lookup_none hm (st_buf_lt h1) hused, Res.fail_bind]
  intro s hs
  rw [ht] at hs
  obtain ⟨s1, s2, s3⟩ := starts_prefix hm.lensOk hlen hs
  unfold readSymbol at hr
  split at hr
  · exact absurd hr (by simp)
  · rename_i hn
    have := List.find?_eq_none.mp hn s (by simpa using s1)
    exact this (by simpa using ⟨s2, s3⟩)

end Verif.Proofs.Crn
