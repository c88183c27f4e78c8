import Verif.Proofs.Bc6Block

/-! # BC6H: mode 15, opacity, agreement with the standard -/

set_option linter.unusedSectionVars false

namespace Verif.Proofs

open Verif Verif.Model

/-! ## Mode 15 -/

theorem layout15 : (bc6Stmts 15).map toFld = Spec.Bc6.layout 15 := fld_ext _ _ (by decide)

/-- Reading a mode-15 block. -/
theorem bc6Read_15 [Build] {data : List UInt8} (hd : 16 ≤ data.length) :
    ∃ ep pos, bc6Read data (bc6Stmts 15) 5 [0, 0, 0, 0, 0, 0, 0, 0, 0, 0, 0, 0] = .ok (pos, ep) ∧
      ep.length = 12 ∧ ∀ c k, c < 3 → k < 4 → ∃ v, ep[4 * c + k]? = some v ∧
        v < 2 ^ (if k = 0 then 16 else 4) := by
  obtain ⟨ep, e, l, h⟩ := bc6Read_ok hd (bc6Stmts 15) 5
    [0, 0, 0, 0, 0, 0, 0, 0, 0, 0, 0, 0] (fun _ => 0) (fun j => if j % 4 = 0 then 16 else 4) rfl
    (by
      intro j hj
      exact (by decide : ∀ j, j < 12 → ([0, 0, 0, 0, 0, 0, 0, 0, 0, 0, 0, 0] : List Nat)[j]? = some 0) j hj)
    (by decide) (fun _ _ => Nat.zero_and _) (by decide +kernel) (fun _ => Nat.two_pow_pos _) (by decide)
    (by decide)
  refine ⟨ep, _, e, l, fun c k hc hk => ⟨_, (h c k hc hk).1, ?_⟩⟩
  have := (h c k hc hk).2
  simp only [show (4 * c + k) % 4 = k by omega] at this
  exact this

theorem endpoints15_panic [Build] (signed : Bool) {ep : List Nat} {eb d : Nat} (l : ep.length = 12)
    (he : 1 ≤ eb) (he16 : eb ≤ 16) (hd : 1 ≤ d) (hd16 : d ≤ 16) (hshl : shlU 16 1 eb = .panic)
    (h : ∀ c k, c < 3 → k < 4 → ∃ v, ep[4 * c + k]? = some v ∧ v < 2 ^ (if k = 0 then eb else d)) :
    bc6Endpoints ⟨true, 0, eb, [d, d, d]⟩ signed ep = .panic := by
  obtain ⟨a0, a1, a2, a3, b0, b1, b2, b3, c0, c1, c2, c3, rfl⟩ := list12 l
  have h16 : ∀ c, c < 3 → ∃ v, [a0, a1, a2, a3, b0, b1, b2, b3, c0, c1, c2, c3][4 * c]? = some v ∧
      ∃ r, signExtend v eb = .ok r := by
    intro c hc
    obtain ⟨v, e, hv⟩ := h c 0 hc (by omega)
    simp only [if_true] at hv
    exact ⟨v, e, _, signExtend_ok he he16 hv⟩
  have h4 : ∀ c, c < 3 → ∃ v, [a0, a1, a2, a3, b0, b1, b2, b3, c0, c1, c2, c3][4 * c + 1]? = some v ∧
      ∃ r, signExtend v d = .ok r := by
    intro c hc
    obtain ⟨v, e, hv⟩ := h c 1 hc (by omega)
    simp only [Nat.one_ne_zero, if_false] at hv
    exact ⟨v, e, _, signExtend_ok hd hd16 hv⟩
  obtain ⟨_, r0, _, E0⟩ := h16 0 (by omega)
  obtain ⟨_, r1, _, E1⟩ := h16 1 (by omega)
  obtain ⟨_, r2, _, E2⟩ := h16 2 (by omega)
  obtain ⟨_, s0, _, F0⟩ := h4 0 (by omega)
  obtain ⟨_, s1, _, F1⟩ := h4 1 (by omega)
  obtain ⟨_, s2, _, F2⟩ := h4 2 (by omega)
  have r0 := Option.some.inj r0
  have r1 := Option.some.inj r1
  have r2 := Option.some.inj r2
  have s0 := Option.some.inj s0
  have s1 := Option.some.inj s1
  have s2 := Option.some.inj s2
  subst r0 r1 r2 s0 s1 s2
  have i0 : ∀ a b c : Nat, idx [a, b, c] 0 = .ok a := fun _ _ _ => rfl
  have i1 : ∀ a b c : Nat, idx [a, b, c] 1 = .ok b := fun _ _ _ => rfl
  have i2 : ∀ a b c : Nat, idx [a, b, c] 2 = .ok c := fun _ _ _ => rfl
  unfold bc6Endpoints
  cases signed <;>
  simp only [bc6Delta, forRange, Bool.false_eq_true, if_false, if_true, ne_eq, not_true,
    Nat.reduceMul, Nat.reduceSub, Nat.reduceAdd, mi0, mi1, mi4, mi5, mi8, mi9, i0, i1, i2,
    Out.ok_bind, Out.pure_eq, E0, E1, E2, F0, F1, F2, hshl, Out.panic_bind, Bool.or_true]

theorem body15_panic {data : List UInt8} (hd : 16 ≤ data.length) (signed : Bool) (buf : List UInt32) :
    @bc6Body Build.debug data buf signed 15 5 = .panic := by
  letI := Build.debug
  obtain ⟨ep, pos, e, l, h⟩ := bc6Read_15 hd
  have hinfo : idx bc6ModeInfo 15 = .ok ⟨true, 0, 16, [4, 4, 4]⟩ := rfl
  unfold bc6Body
  rw [e, Out.ok_bind]
  simp only
  rw [hinfo, Out.ok_bind, endpoints15_panic signed l (by omega) (by omega) (by omega) (by omega) rfl h,
    Out.panic_bind]

/-- Every mode-15 block panics in a build with overflow checks. -/
theorem bc6_mode15_panic {data : List UInt8} (hd : 16 ≤ data.length) (signed : Bool)
    (h15 : Spec.Bc6.modeOf (data.take 16) = 15) (buf : List UInt32) :
    @decodeBc6Block Build.debug signed data buf = .panic := by
  letI := Build.debug
  have l2 := field_lt (data.take 16) 0 2
  have l3 := field_lt (data.take 16) 2 3
  have hsplit : Spec.field (data.take 16) 0 5 =
      Spec.field (data.take 16) 0 2 + 4 * Spec.field (data.take 16) 2 3 := by
    unfold Spec.field; omega
  have hlt : ¬ Spec.field (data.take 16) 0 2 < 2 := by
    intro h; unfold Spec.Bc6.modeOf at h15; rw [if_pos h] at h15; omega
  have hm : Spec.field (data.take 16) 0 5 = 15 := by
    unfold Spec.Bc6.modeOf at h15; rw [if_neg hlt] at h15; exact h15
  have ha : asU 8 (Spec.field (data.take 16) 0 2) = Spec.field (data.take 16) 0 2 :=
    Nat.mod_eq_of_lt (by omega)
  have hand : Spec.field (data.take 16) 0 2 &&& 2 ≠ 0 ↔ ¬ Spec.field (data.take 16) 0 2 < 2 := by
    have key : ∀ x, x < 4 → (x &&& 2 ≠ 0 ↔ ¬ x < 2) := by decide
    exact key _ l2
  have hinfo : idx bc6ModeInfo 15 = .ok ⟨true, 0, 16, [4, 4, 4]⟩ := rfl
  unfold decodeBc6Block
  rw [readBits16 hd (by omega) (by omega), Out.ok_bind]
  simp only [Nat.zero_add, ha]
  rw [if_pos (by rw [hand]; exact hlt), readBits16 hd (by omega) (by omega), Out.ok_bind]
  simp only
  rw [shlU_ok (by omega), Out.ok_bind, mode_bits_or l2 l3, ← hsplit, hm, hinfo, Out.ok_bind,
    if_neg (by decide)]
  exact body15_panic hd signed buf

/-! ## Opacity -/

variable [Build]

/-- Inversion of a loop that ended normally. -/
theorem forRange_ok_inv {σ : Type} {n : Nat} {f : Nat → σ → Out σ} {s s' : σ} (P : Nat → σ → Prop)
    (h : forRange n f s = .ok s') (h0 : P 0 s)
    (hstep : ∀ i, i < n → ∀ s s', P i s → f i s = .ok s' → P (i + 1) s') : P n s' := by
  induction n generalizing s' with
  | zero => cases h; exact h0
  | succ n ih =>
    obtain ⟨s1, e1, e2⟩ := Out.bind_eq_ok.mp h
    exact hstep n (by omega) s1 s' (ih e1 (fun i hi => hstep i (by omega))) e2

theorem f16ToU8_lt {h v : Nat} (e : f16ToU8 h = .ok v) : v < 256 := by
  unfold f16ToU8 at e
  cases hf : fp16ToFp32 h with
  | panic => rw [hf] at e; cases e
  | ok b =>
    rw [hf] at e
    rw [← Out.ok.inj e]
    unfold f32ToU8
    generalize ((Fl.mul (Fl.ofBits b) Fl.c255).clamp Fl.zero Fl.c255) = x
    cases x with
    | nan => decide
    | inf n => cases n <;> decide
    | fin n k => cases n <;> simp only [Fl.asU8] <;> omega

theorem bc6Texel_inv {data : List UInt8} {mi : Bc6ModeInfo} {signed : Bool} {p ib : Nat}
    {factors ep : List Nat} {i : Nat} {st st' : Nat × List UInt32}
    (h : bc6Texel data mi signed p ib factors ep i st = .ok st') :
    i < st.2.length ∧ ∃ v, st'.2 = st.2.set i v ∧ Spec.alpha v = 255 := by
  unfold bc6Texel at h
  simp only at h
  obtain ⟨_, _, h⟩ := Out.bind_eq_ok.mp h
  obtain ⟨_, _, h⟩ := Out.bind_eq_ok.mp h
  obtain ⟨_, _, h⟩ := Out.bind_eq_ok.mp h
  obtain ⟨_, _, h⟩ := Out.bind_eq_ok.mp h
  obtain ⟨_, _, h⟩ := Out.bind_eq_ok.mp h
  obtain ⟨_, _, h⟩ := Out.bind_eq_ok.mp h
  obtain ⟨_, _, h⟩ := Out.bind_eq_ok.mp h
  obtain ⟨_, _, h⟩ := Out.bind_eq_ok.mp h
  obtain ⟨_, _, h⟩ := Out.bind_eq_ok.mp h
  obtain ⟨r, hr, h⟩ := Out.bind_eq_ok.mp h
  obtain ⟨g, hg, h⟩ := Out.bind_eq_ok.mp h
  obtain ⟨b, hb, h⟩ := Out.bind_eq_ok.mp h
  obtain ⟨o, ho, h⟩ := Out.bind_eq_ok.mp h
  cases h
  unfold setIdx at ho
  split at ho
  · next hi =>
    cases ho
    exact ⟨hi, _, rfl, by
      rw [color_eq]; exact alpha_px (f16ToU8_lt hr) (f16ToU8_lt hg) (f16ToU8_lt hb) (by omega)⟩
  · cases ho

/-- Whenever the body returns, all 16 texels are opaque. -/
theorem bc6Body_opaque {data : List UInt8} {buf o : List UInt32} {signed : Bool} {m pos : Nat}
    (h : bc6Body data buf signed m pos = .ok o) : ∀ i, i < 16 → ∃ p, o[i]? = some p ∧ Spec.alpha p = 255 := by
  unfold bc6Body at h
  obtain ⟨⟨_, _⟩, _, h⟩ := Out.bind_eq_ok.mp h
  simp only at h
  obtain ⟨_, _, h⟩ := Out.bind_eq_ok.mp h
  obtain ⟨_, _, h⟩ := Out.bind_eq_ok.mp h
  obtain ⟨⟨_, _⟩, _, h⟩ := Out.bind_eq_ok.mp h
  simp only at h
  obtain ⟨_, _, h⟩ := Out.bind_eq_ok.mp h
  obtain ⟨_, _, h⟩ := Out.bind_eq_ok.mp h
  obtain ⟨st, hst, h⟩ := Out.bind_eq_ok.mp h
  cases h
  rw [forRange_nested 4 4] at hst
  refine forRange_ok_inv (fun n (s : Nat × List UInt32) =>
    ∀ i, i < n → ∃ p, s.2[i]? = some p ∧ Spec.alpha p = 255) hst (by intro i hi; omega) ?_
  intro i _ s s' P hs j hj
  obtain ⟨hi, v, e, hv⟩ := bc6Texel_inv hs
  rw [e]
  by_cases hij : j = i
  · subst hij; exact ⟨v, by rw [List.getElem?_set_self hi], hv⟩
  · rw [List.getElem?_set_ne (by omega)]; exact P j (by omega)

theorem bc6_opaque {data : List UInt8} (hd : 16 ≤ data.length) {signed : Bool} {buf o : List UInt32}
    (hr : Spec.Bc6.mode (Spec.Bc6.modeOf (data.take 16)) ≠ none)
    (h : decodeBc6Block signed data buf = .ok o) :
    ∀ i, i < 16 → ∃ p, o[i]? = some p ∧ Spec.alpha p = 255 := by
  have l2 := field_lt (data.take 16) 0 2
  have l3 := field_lt (data.take 16) 2 3
  have hsplit : Spec.field (data.take 16) 0 5 =
      Spec.field (data.take 16) 0 2 + 4 * Spec.field (data.take 16) 2 3 := by
    unfold Spec.field; omega
  have ha : asU 8 (Spec.field (data.take 16) 0 2) = Spec.field (data.take 16) 0 2 :=
    Nat.mod_eq_of_lt (by omega)
  have hand : Spec.field (data.take 16) 0 2 &&& 2 ≠ 0 ↔ ¬ Spec.field (data.take 16) 0 2 < 2 := by
    have key : ∀ x, x < 4 → (x &&& 2 ≠ 0 ↔ ¬ x < 2) := by decide
    exact key _ l2
  unfold decodeBc6Block at h
  rw [readBits16 hd (by omega) (by omega), Out.ok_bind] at h
  simp only [Nat.zero_add, ha] at h
  by_cases hlt : Spec.field (data.take 16) 0 2 < 2
  · rw [if_neg (by rw [hand]; simpa using hlt)] at h
    exact bc6Body_opaque h
  · rw [if_pos (by rw [hand]; exact hlt), readBits16 hd (by omega) (by omega), Out.ok_bind] at h
    simp only at h
    rw [shlU_ok (by omega), Out.ok_bind, mode_bits_or l2 l3, ← hsplit] at h
    have hm : Spec.Bc6.modeOf (data.take 16) = Spec.field (data.take 16) 0 5 := by
      unfold Spec.Bc6.modeOf; rw [if_neg hlt]
    rw [hm] at hr
    have l5 := field_lt (data.take 16) 0 5
    generalize Spec.field (data.take 16) 0 5 = m at *
    by_cases h15 : m = 15
    · subst h15
      have hinfo : idx bc6ModeInfo 15 = .ok ⟨true, 0, 16, [4, 4, 4]⟩ := rfl
      rw [hinfo, Out.ok_bind, if_neg (by decide)] at h
      exact bc6Body_opaque h
    · obtain ⟨mi, M, F⟩ := mode6 l5 h15 hr
      have h6 := F.eb6
      rw [F.info, Out.ok_bind, if_neg (by rw [F.eb]; omega)] at h
      exact bc6Body_opaque h

/-! ## Agreement with the BPTC specification -/

omit [Build] in
theorem mode_eb {m : Nat} {M : Spec.Bc6.Mode} (h15 : m ≠ 15) (h : Spec.Bc6.mode m = some M) :
    6 ≤ M.eb ∧ M.eb ≤ 12 ∧ (M.ns = 1 ∨ M.ns = 2) := by
  unfold Spec.Bc6.mode at h
  split at h <;> first
    | (have h := Option.some.inj h; subst h; decide)
    | exact absurd rfl h15
    | cases h

omit [Build] in
theorem stored_nonneg_quantised {blk : List UInt8} {m : Nat} {M : Spec.Bc6.Mode} {c k : Nat} :
    0 ≤ Spec.Bc6.quantised false blk m M c k := by
  unfold Spec.Bc6.quantised
  simp only [Bool.false_eq_true, if_false]
  split
  · omega
  · split <;> omega

omit [Build] in
theorem unq_clean_unsigned {eb : Nat} {v : Int} (h0 : 0 ≤ v) (h6 : 6 ≤ eb) (h12 : eb ≤ 12)
    (h1 : v ≠ 2 ^ (eb - 1)) (h2 : v ≠ 2 ^ eb - 1) :
    (Spec.Bc6.unquantiseAsIs false eb v : Int) = Spec.Bc6.unquantise false eb v := by
  unfold Spec.Bc6.unquantiseAsIs Spec.Bc6.unquantise
  simp only [Bool.false_eq_true, if_false]
  rw [if_neg (show ¬ eb ≥ 15 by omega), if_neg h1, if_neg h2]
  split
  · rfl
  · rw [Int.toNat_of_nonneg]
    exact Int.ediv_nonneg (by omega) (by have := Nat.two_pow_pos eb; exact_mod_cast Nat.zero_le _)

omit [Build] in
theorem unq_clean_signed {eb : Nat} {v : Int} (h0 : 0 ≤ v) (h6 : 6 ≤ eb) (h12 : eb ≤ 12) :
    (Spec.Bc6.unquantiseAsIs true eb v : Int) = Spec.Bc6.unquantise true eb v ∧
      Spec.Bc6.unquantiseAsIs true eb v < 32768 := by
  unfold Spec.Bc6.unquantiseAsIs
  simp only [if_true]
  rw [if_neg (show ¬ v < 0 by omega)]
  have key : ∃ n : Nat, Spec.Bc6.unquantise true eb v = n ∧ n < 32768 := by
    unfold Spec.Bc6.unquantise
    simp only [if_true]
    rw [if_neg (show ¬ eb ≥ 16 by omega), if_neg (show ¬ v < 0 by omega)]
    refine ⟨_, rfl, ?_⟩
    split
    · omega
    · split
      · omega
      · next h =>
        rw [Nat.div_lt_iff_lt_mul (Nat.two_pow_pos _)]
        have : v.natAbs + 2 ≤ 2 ^ (eb - 1) := by omega
        omega
  obtain ⟨n, e, hn⟩ := key
  rw [e]
  exact ⟨by simp, by simpa using hn⟩

omit [Build] in
theorem lerp_nat (a b w : Nat) :
    Spec.Bc6.lerp a b w = (Spec.Bptc.interpolate a b w : Nat) := by
  unfold Spec.Bc6.lerp Spec.Bptc.interpolate
  push_cast
  rfl

omit [Build] in
theorem finish_clean_unsigned (v : Nat) :
    Spec.Bc6.finishAsIs false v = Spec.Bc6.finish false (v : Int) := rfl

omit [Build] in
theorem finish_clean_signed {v : Nat} (h : v < 32768) :
    Spec.Bc6.finishAsIs true v = Spec.Bc6.finish true (v : Int) := by
  unfold Spec.Bc6.finishAsIs Spec.Bc6.finish
  simp only [if_true]
  rw [if_neg (show ¬ (v : Int) < 0 by omega)]
  simp only [Int.natAbs_natCast]
  omega

omit [Build] in
theorem interpolate_lt {a b w L : Nat} (ha : a < L) (hb : b < L) (hw : w ≤ 64) :
    Spec.Bptc.interpolate a b w < L := by
  unfold Spec.Bptc.interpolate
  have e1 : a * (64 - w) ≤ (L - 1) * (64 - w) := Nat.mul_le_mul_right _ (by omega)
  have e2 : b * w ≤ (L - 1) * w := Nat.mul_le_mul_right _ (by omega)
  have e3 : (L - 1) * (64 - w) + (L - 1) * w = (L - 1) * 64 := by
    rw [← Nat.mul_add]; congr 1; omega
  omega

omit [Build] in
theorem weight_le {blk : List UInt8} {m : Nat} {M : Spec.Bc6.Mode} (i : Nat) :
    Spec.Bc6.weight blk m M i ≤ 64 := by
  unfold Spec.Bc6.weight
  have hib : M.ib = 3 ∨ M.ib = 4 := by unfold Spec.Bc6.Mode.ib; split <;> omega
  have hfl : Spec.Bc6.index blk m M i < 2 ^ M.ib := by
    unfold Spec.Bc6.index
    exact Nat.lt_of_lt_of_le (field_lt _ _ _) (Nat.pow_le_pow_right (by omega) (by omega))
  obtain ⟨_, _, _, h⟩ := factor_all M.ib (by omega) (by omega) _ hfl
  exact h

omit [Build] in
theorem subset_lt {ns p i : Nat} (hns : ns = 1 ∨ ns = 2) (hp : p < 64) (hi : i < 16) :
    Spec.Bptc.subset ns p i < ns := by
  letI := Build.debug
  obtain ⟨_, _, _, h⟩ := bc7Subset_ok (ns := ns) (p := p) (i := i) (by omega) (by omega) hp hi
  exact h

omit [Build] in
theorem clean_texel {signed : Bool} {blk : List UInt8} (h : Spec.Bc6.Clean signed blk) {i : Nat} (hi : i < 16) :
    Spec.Bc6.texelAsIs signed blk i = Spec.Bc6.texel signed blk i := by
  obtain ⟨h15, h⟩ := h
  unfold Spec.Bc6.texelAsIs Spec.Bc6.texel
  cases hm : Spec.Bc6.mode (Spec.Bc6.modeOf blk) with
  | none => rfl
  | some M =>
    obtain ⟨h6, h12, hns⟩ := mode_eb h15 hm
    have hc : ∀ c, c < 3 → Spec.Bc6.channelAsIs signed blk (Spec.Bc6.modeOf blk) M c i =
        Spec.Bc6.channel signed blk (Spec.Bc6.modeOf blk) M c i := by
      intro c hc
      have hp : Spec.Bc6.partition blk (Spec.Bc6.modeOf blk) M < 64 := by
        unfold Spec.Bc6.partition
        split
        · exact Nat.lt_of_lt_of_le (field_lt _ _ 5) (by omega)
        · omega
      have hsub := subset_lt (p := Spec.Bc6.partition blk (Spec.Bc6.modeOf blk) M) hns hp hi
      have hw := weight_le (blk := blk) (m := Spec.Bc6.modeOf blk) (M := M) i
      have hk := h M hm c hc
      unfold Spec.Bc6.channelAsIs Spec.Bc6.channel
      simp only
      generalize Spec.Bptc.subset M.ns (Spec.Bc6.partition blk (Spec.Bc6.modeOf blk) M) i = s at *
      have k0 := hk (2 * s) (by omega)
      have k1 := hk (2 * s + 1) (by omega)
      cases signed
      · simp only [Bool.false_eq_true, if_false] at k0 k1
        rw [← unq_clean_unsigned stored_nonneg_quantised h6 h12 k0.1 k0.2,
          ← unq_clean_unsigned stored_nonneg_quantised h6 h12 k1.1 k1.2, lerp_nat,
          finish_clean_unsigned]
      · simp only [if_true] at k0 k1
        obtain ⟨a1, a2⟩ := unq_clean_signed k0 h6 h12
        obtain ⟨b1, b2⟩ := unq_clean_signed k1 h6 h12
        rw [← a1, ← b1, lerp_nat, finish_clean_signed (interpolate_lt a2 b2 hw)]
    simp only [hc 0 (by omega), hc 1 (by omega), hc 2 (by omega)]

end Verif.Proofs
