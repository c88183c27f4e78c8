import Verif.Proofs.EtcBlock

set_option linter.unusedSimpArgs false
set_option linter.unusedSectionVars false

/-! # EAC blocks refine their specification; contracts of the ETC family -/

namespace Verif.Proofs

open Verif Verif.Model

theorem setAlpha_eq {a : Nat} (p : UInt32) (h : a < 256) : setAlpha a p = Spec.withAlpha p a := by
  unfold setAlpha Spec.withAlpha asU
  apply UInt32.toNat_inj.mp
  rw [UInt32.toNat_or, UInt32.toNat_and, UInt32.toNat_ofNat',
    px_toNat (red_lt p) (green_lt p) (blue_lt p) h,
    show transparentMask.toNat = 2 ^ 24 - 1 from rfl, and_mask, shl_eq,
    show a * 2 ^ 24 % 2 ^ 32 % 2 ^ 32 = a * 2 ^ 24 by omega, or_mul _ (Nat.mod_lt _ (by omega))]
  unfold Spec.red Spec.green Spec.blue
  omega

theorem fromBE_bytesOf (l : List UInt8) : fromBE (bytesOf l) = Spec.beNat l := by
  unfold fromBE Spec.beNat
  rw [← fromLE_bytesOf, bytesOf, bytesOf, List.map_reverse]

theorem eacTable_some : ∀ t, t < 16 → ∃ row, etc2AlphaModTable[t]? = some row ∧
    ∀ k, k < 8 → row[k]? = some (Spec.Etc.eacModifier t k) ∧ -15 ≤ Spec.Etc.eacModifier t k ∧
      Spec.Etc.eacModifier t k ≤ 14 := by
  intro t ht
  have key : ∀ t, t < 16 → ∀ k, k < 8 →
      etc2AlphaModTable[t]?.bind (·[k]?) = some (Spec.Etc.eacModifier t k) ∧
      -15 ≤ Spec.Etc.eacModifier t k ∧ Spec.Etc.eacModifier t k ≤ 14 := by decide +kernel
  have hlen : t < etc2AlphaModTable.length := ht
  refine ⟨etc2AlphaModTable[t], List.getElem?_eq_getElem hlen, ?_⟩
  intro k hk
  have := key t ht k hk
  rw [List.getElem?_eq_getElem hlen, Option.bind_some] at this
  exact this

theorem first_bytes {data : List UInt8} (h : 8 ≤ data.length) :
    ∃ d, IsBytes d (data.take 8) ∧ byte data 0 = .ok d.d0 ∧ byte data 1 = .ok d.d1 := by
  obtain ⟨d, e, hd⟩ := bytes8_ok h
  refine ⟨d, hd, ?_⟩
  match data, h, e with
  | b0 :: b1 :: b2 :: b3 :: b4 :: b5 :: b6 :: b7 :: r, _, e =>
    have e : Out.ok (Bytes8.mk b0.toNat b1.toNat b2.toNat b3.toNat b4.toNat b5.toNat b6.toNat
      b7.toNat) = Out.ok d := e
    have e := Out.ok.inj e
    subst e
    exact ⟨rfl, rfl⟩

/-- The order in which the EAC loops write. -/
def revPos (i : Nat) : Nat := colPos (15 - i)

theorem revPos_lt : ∀ i, i < 16 → revPos i < 16 := by decide
theorem revPos_inj : ∀ i j, i < 16 → j < 16 → revPos i = revPos j → i = j := by
  intro i j hi hj h
  have := colPos_inj (15 - i) (15 - j) (by omega) (by omega) h
  omega
theorem revPos_surj : ∀ q, q < 16 → ∃ i, i < 16 ∧ revPos i = q := by
  intro q hq
  obtain ⟨i, hi, e⟩ := colPos_surj q hq
  exact ⟨15 - i, by omega, by unfold revPos; rw [show 15 - (15 - i) = i by omega, e]⟩
theorem order_revPos : ∀ i, i < 16 → Spec.Etc.order (revPos i) = 15 - i := by decide

theorem div8_succ (l i : Nat) : (l / 2 ^ (3 * i)) >>> 3 = l / 2 ^ (3 * (i + 1)) := by
  rw [shr_eq, Nat.div_div_eq_div_mul, ← Nat.pow_add]; congr 2

theorem leNat_append (l m : List UInt8) :
    Spec.leNat (l ++ m) = Spec.leNat l + 2 ^ (8 * l.length) * Spec.leNat m := by
  induction l with
  | nil => simp [Spec.leNat]
  | cons b bs ih =>
    rw [List.cons_append, Spec.leNat, Spec.leNat, ih, List.length_cons,
      show 8 * (bs.length + 1) = 8 + 8 * bs.length by omega, Nat.pow_add, Nat.mul_add,
      Nat.mul_assoc, ← Nat.add_assoc]

variable [Build]

theorem decodeEtc2A8_spec {data : List UInt8} {out : List UInt32} (hd : 8 ≤ data.length)
    (ho : 16 ≤ out.length) :
    ∃ o, decodeEtc2A8Block data out = .ok o ∧ o.length = out.length ∧
      (∀ q, q < 16 → o[q]? =
        (out[q]?).map (fun p => Spec.withAlpha p (Spec.Etc.eacAlpha (data.take 8) q))) ∧
      ∀ q, 16 ≤ q → o[q]? = out[q]? := by
  obtain ⟨d, h, hb0, hb1⟩ := first_bytes hd
  have hlt := h.lt
  unfold decodeEtc2A8Block
  rw [hb0, Out.ok_bind, hb1, Out.ok_bind]
  have m1 : ∀ x, x < 256 → (x &&& 0xf0 > 0 ↔ x / 16 ≠ 0) := by decide +kernel
  have f0 : Spec.Etc.bits (data.take 8) 63 56 = d.d0 := by
    rw [bits_eq h]; simp only [Nat.reduceSub, Nat.reduceAdd]; omega
  have f1 : Spec.Etc.bits (data.take 8) 55 52 = d.d1 / 16 := by
    rw [bits_eq h]; simp only [Nat.reduceSub, Nat.reduceAdd]; omega
  have f2 : Spec.Etc.bits (data.take 8) 51 48 = d.d1 % 16 := by
    rw [bits_eq h]; simp only [Nat.reduceSub, Nat.reduceAdd]; omega
  have hval : ∀ q, Spec.Etc.eacAlpha (data.take 8) q = Spec.Etc.clamp255 ((d.d0 : Int) +
      (d.d1 / 16 : Nat) * Spec.Etc.eacModifier (d.d1 % 16) (Spec.Etc.eacIndex (data.take 8) q)) := by
    intro q
    unfold Spec.Etc.eacAlpha
    rw [f0, f1, f2]
  by_cases hm : d.d1 &&& 0xf0 > 0
  · rw [if_pos hm]
    obtain ⟨row, hr, hrow⟩ := eacTable_some (d.d1 % 16) (by omega)
    simp only [and_15]
    rw [idx_of_some hr, Out.ok_bind, slice_ok (by omega) hd, Out.ok_bind, fromBE_bytesOf,
      List.drop_zero, shr_eq]
    simp only [Nat.sub_zero]
    obtain ⟨o, e, hl, h1, h2⟩ := permLoop (n := 16) (f := fun i (s : Nat × List UInt32) => do
        let (l, outbuf) := s
        let t ← idx row (l &&& 7)
        let m ← mulI 32 ((d.d1 / 2 ^ 4 : Nat) : Int) t
        let a ← addI 32 d.d0 m
        let pos ← idx writeOrderTableRev i
        let p ← idx outbuf pos
        let outbuf ← setIdx outbuf pos (setAlpha (etcClamp a) p)
        pure (l >>> 3, outbuf)) revPos revPos_lt revPos_inj revPos_surj
      (fun i => Spec.beNat (data.take 8) / 2 ^ (3 * i))
      (fun q p => Spec.withAlpha p (Spec.Etc.eacAlpha (data.take 8) q)) out ho
      (by
        intro i hi o p hol hp
        have hpos := revPos_lt i hi
        have hidx : Spec.Etc.eacIndex (data.take 8) (revPos i) =
            Spec.beNat (data.take 8) / 2 ^ (3 * i) % 8 := by
          unfold Spec.Etc.eacIndex Spec.Etc.bits
          rw [order_revPos i hi, show 45 - 3 * (15 - i) = 3 * i by omega,
            show 47 - 3 * (15 - i) + 1 - 3 * i = 3 by omega]
        simp only
        rw [and_7, ← hidx]
        have hk : Spec.Etc.eacIndex (data.take 8) (revPos i) < 8 := by rw [hidx]; omega
        obtain ⟨hs, hlo, hhi⟩ := hrow _ hk
        rw [idx_of_some hs, Out.ok_bind]
        have hb : -225 ≤ ((d.d1 / 2 ^ 4 : Nat) : Int) * Spec.Etc.eacModifier (d.d1 % 16)
              (Spec.Etc.eacIndex (data.take 8) (revPos i)) ∧
            ((d.d1 / 2 ^ 4 : Nat) : Int) * Spec.Etc.eacModifier (d.d1 % 16)
              (Spec.Etc.eacIndex (data.take 8) (revPos i)) ≤ 225 := by
          have hx : d.d1 / 2 ^ 4 < 16 := by omega
          generalize Spec.Etc.eacModifier (d.d1 % 16)
              (Spec.Etc.eacIndex (data.take 8) (revPos i)) = M at *
          generalize d.d1 / 2 ^ 4 = X at *
          have l1 : (X : Int) * M ≤ X * 15 := Int.mul_le_mul_of_nonneg_left (by omega) (by omega)
          have l2 : (X : Int) * (-15) ≤ X * M := Int.mul_le_mul_of_nonneg_left (by omega) (by omega)
          omega
        rw [mulI32_ok (by omega) (by omega), Out.ok_bind, addI32_ok (by omega) (by omega),
          Out.ok_bind, idx_of_some (writeOrderRev_some i hi), Out.ok_bind]
        show (do let p ← idx o (revPos i); _) = _
        rw [idx_of_some hp, Out.ok_bind]
        show (do let o ← setIdx o (revPos i) _; _) = _
        rw [setIdx_ok (by omega), Out.ok_bind, div8_succ, etcClamp_eq,
          setAlpha_eq _ (clamp255_lt _), hval]
        rfl)
    simp only [Nat.mul_zero, Nat.pow_zero, Nat.div_one] at e
    exact ⟨o, by rw [e]; rfl, hl, h1, h2⟩
  · rw [if_neg hm]
    have hz : d.d1 / 16 = 0 := by
      have := mt (m1 _ h.h1).mpr hm
      omega
    refine ⟨_, rfl, by simp only [List.length_append, List.length_map, List.length_take,
      List.length_drop]; omega, ?_, ?_⟩
    · intro q hq
      have hc : Spec.Etc.eacAlpha (data.take 8) q = d.d0 := by
        rw [hval, hz]
        simp only [Int.ofNat_zero, Int.zero_mul, Int.add_zero]
        exact clamp255_self h.h0
      rw [List.getElem?_append_left (by simp only [List.length_map, List.length_take]; omega),
        List.getElem?_map, List.getElem?_take_of_lt hq, hc]
      congr 1
      funext p
      exact setAlpha_eq p h.h0
    · intro q hq
      rw [List.getElem?_append_right (by simp only [List.length_map, List.length_take]; omega)]
      simp only [List.length_map, List.length_take, List.getElem?_drop]
      congr 1; omega

theorem decodeEtc2Rgba8_spec {data : List UInt8} {out : List UInt32} (hd : 16 ≤ data.length)
    (ho : 16 ≤ out.length) :
    Paints (decodeEtc2Rgba8Block data out) out (Spec.Etc.etc2Rgba8Texel (data.take 16)) := by
  unfold decodeEtc2Rgba8Block
  rw [sliceFrom_ok (by omega), Out.ok_bind]
  obtain ⟨o1, e1, hl1, h1, h1'⟩ := decodeEtc2Rgb_spec (data := data.drop 8) (out := out)
    (by rw [List.length_drop]; omega) ho
  rw [e1, Out.ok_bind]
  obtain ⟨o2, e2, hl2, h2, h2'⟩ := decodeEtc2A8_spec (data := data) (out := o1) (by omega) (by omega)
  refine ⟨o2, e2, by omega, ?_, ?_⟩
  · intro q hq
    rw [h2 q hq, h1 q hq]
    unfold Spec.Etc.etc2Rgba8Texel
    rw [List.take_take, List.drop_take]
    rfl
  · intro q hq
    rw [h2' q hq, h1' q hq]

/-! ## R11 and RG11 -/

/-- The pixel with `v` or-ed into one channel. -/
def orRed (v : Nat) (p : UInt32) : UInt32 :=
  Spec.px (Spec.red p ||| v) (Spec.green p) (Spec.blue p) (Spec.alpha p)
def orGreen (v : Nat) (p : UInt32) : UInt32 :=
  Spec.px (Spec.red p) (Spec.green p ||| v) (Spec.blue p) (Spec.alpha p)

omit [Build] in
theorem or_lt256 {a b : Nat} (ha : a < 256) (hb : b < 256) : a ||| b < 256 :=
  Nat.or_lt_two_pow (n := 8) ha hb

omit [Build] in
theorem or_split {P v k : Nat} (hv : v < 2 ^ 8) : P ||| v * 2 ^ k =
    P % 2 ^ k + (P / 2 ^ k % 2 ^ 8 ||| v) * 2 ^ k + P / 2 ^ (k + 8) * 2 ^ (k + 8) := by
  have e1 : P = P / 2 ^ (k + 8) * 2 ^ (k + 8) ||| (P / 2 ^ k % 2 ^ 8 * 2 ^ k ||| P % 2 ^ k) := by
    have hm : P % 2 ^ k < 2 ^ k := Nat.mod_lt _ (Nat.two_pow_pos _)
    have hdm := Nat.div_add_mod P (2 ^ k)
    have hdm2 := Nat.div_add_mod (P / 2 ^ k) (2 ^ 8)
    rw [Nat.div_div_eq_div_mul, ← Nat.pow_add] at hdm2
    rw [mul_or _ hm, mul_or]
    · rw [Nat.pow_add, show P / (2 ^ k * 2 ^ 8) * (2 ^ k * 2 ^ 8) =
          2 ^ k * (2 ^ 8 * (P / (2 ^ k * 2 ^ 8))) by
        rw [Nat.mul_comm, Nat.mul_assoc], ← Nat.pow_add]
      rw [Nat.mul_comm (P / 2 ^ k % 2 ^ 8), ← Nat.add_assoc, ← Nat.mul_add, hdm2, hdm]
    · have h8 : P / 2 ^ k % 2 ^ 8 < 2 ^ 8 := Nat.mod_lt _ (by omega)
      generalize P / 2 ^ k % 2 ^ 8 = A at *
      have : A * 2 ^ k ≤ 255 * 2 ^ k := Nat.mul_le_mul_right _ (by omega)
      rw [Nat.pow_add, Nat.mul_comm (2 ^ k)]
      omega
  have hm : P % 2 ^ k < 2 ^ k := Nat.mod_lt _ (Nat.two_pow_pos _)
  have h8 : P / 2 ^ k % 2 ^ 8 < 2 ^ 8 := Nat.mod_lt _ (by omega)
  conv => lhs; rw [e1]
  generalize P / 2 ^ (k + 8) = C at *
  generalize P / 2 ^ k % 2 ^ 8 = A at *
  generalize P % 2 ^ k = L at *
  have e2 : (C * 2 ^ (k + 8) ||| (A * 2 ^ k ||| L)) ||| v * 2 ^ k =
      C * 2 ^ (k + 8) ||| ((A ||| v) * 2 ^ k ||| L) := by
    rw [← Nat.shiftLeft_eq A, ← Nat.shiftLeft_eq v, ← Nat.shiftLeft_eq (A ||| v),
      Nat.shiftLeft_or_distrib]
    ac_rfl
  have hAv : A ||| v < 2 ^ 8 := Nat.or_lt_two_pow h8 hv
  rw [e2]
  generalize A ||| v = W at *
  rw [mul_or _ hm, mul_or]
  · omega
  · have : W * 2 ^ k ≤ 255 * 2 ^ k := Nat.mul_le_mul_right _ (by omega)
    rw [Nat.pow_add, Nat.mul_comm (2 ^ k)]
    omega

omit [Build] in
theorem or_red {v : Nat} (p : UInt32) (hv : v < 256) :
    p ||| UInt32.ofNat (v * 2 ^ 16) = orRed v p := by
  have hp := p.toNat_lt
  apply UInt32.toNat_inj.mp
  unfold orRed
  rw [UInt32.toNat_or, UInt32.toNat_ofNat', Nat.mod_eq_of_lt (by omega), or_split hv,
    px_toNat (or_lt256 (red_lt p) hv) (green_lt p) (blue_lt p) (alpha_lt p)]
  unfold Spec.red Spec.green Spec.blue Spec.alpha
  generalize p.toNat / 2 ^ 16 % 2 ^ 8 ||| v = W at *
  omega

omit [Build] in
theorem or_green {v : Nat} (p : UInt32) (hv : v < 256) :
    p ||| UInt32.ofNat (v * 2 ^ 8) = orGreen v p := by
  have hp := p.toNat_lt
  apply UInt32.toNat_inj.mp
  unfold orGreen
  rw [UInt32.toNat_or, UInt32.toNat_ofNat', Nat.mod_eq_of_lt (by omega), or_split hv,
    px_toNat (red_lt p) (or_lt256 (green_lt p) hv) (blue_lt p) (alpha_lt p)]
  unfold Spec.red Spec.green Spec.blue Spec.alpha
  generalize p.toNat / 2 ^ 8 % 2 ^ 8 ||| v = W at *
  omega

omit [Build] in
theorem eac8_lt (signed : Bool) (blk : List UInt8) (k : Nat) : Spec.Etc.eac8 signed blk k < 256 := by
  unfold Spec.Etc.eac8 Spec.Etc.eac11 Spec.Etc.eac11s
  split <;> omega

omit [Build] in
theorem eacClamp_eq (v : Int) : eacClamp v = (max 0 (min 2047 v) / 8).toNat := by
  unfold eacClamp asUI
  split
  · omega
  · split <;> omega

/-- The base value and the bias of the two variants. -/
def eacBase (signed : Bool) (d0 : Nat) : Int := if signed then asI 8 d0 else d0
def eacBias (signed : Bool) : Int := if signed then 1023 else 4

/-- One run of the EAC loop, for channel 1 (green) or 2 (red). -/
theorem eacCore_spec {signed : Bool} {data : List UInt8} {out : List UInt32} {channel : Nat}
    {upd : Nat → UInt32 → UInt32} (hd : 8 ≤ data.length) (ho : 16 ≤ out.length)
    (hupd : ∀ v p, v < 256 → ∃ blk, setIdx [0, 0, 0, 0] channel v = .ok blk ∧
      p ||| UInt32.ofNat (fromLE blk) = upd v p) :
    ∃ o, (do let d0 ← byte data 0; eacCore (eacBase signed d0) (eacBias signed) data channel out) =
        .ok o ∧ o.length = out.length ∧
      (∀ q, q < 16 → o[q]? = (out[q]?).map (upd (Spec.Etc.eac8 signed (data.take 8)
        (Spec.Etc.eacIndexLE (data.take 8) q)))) ∧
      ∀ q, 16 ≤ q → o[q]? = out[q]? := by
  obtain ⟨d, h, hb0⟩ := first_bytes hd
  have hlt := h.lt
  rw [hb0.1, Out.ok_bind]
  unfold eacCore
  rw [hb0.2, Out.ok_bind]
  have f0 : Spec.Etc.bits (data.take 8) 63 56 = d.d0 := by
    rw [bits_eq h]; simp only [Nat.reduceSub, Nat.reduceAdd]; omega
  have f1 : Spec.Etc.bits (data.take 8) 55 52 = d.d1 / 16 := by
    rw [bits_eq h]; simp only [Nat.reduceSub, Nat.reduceAdd]; omega
  have f2 : Spec.Etc.bits (data.take 8) 51 48 = d.d1 % 16 := by
    rw [bits_eq h]; simp only [Nat.reduceSub, Nat.reduceAdd]; omega
  have hmul : (if d.d1 >>> 1 &&& 0x78 = 0 then 1 else d.d1 >>> 1 &&& 0x78) =
      Spec.Etc.mult11 (data.take 8) := by
    have key : ∀ x, x < 256 → x >>> 1 &&& 0x78 = 8 * (x / 16) := by decide +kernel
    unfold Spec.Etc.mult11
    rw [f1, key _ h.h1]
    split <;> split <;> omega
  have hmlt : Spec.Etc.mult11 (data.take 8) ≤ 120 := by
    unfold Spec.Etc.mult11; rw [f1]; split <;> omega
  have hbase : eacBase signed d.d0 =
      if signed then Spec.Etc.signed8 d.d0 else (d.d0 : Int) := by
    unfold eacBase Spec.Etc.signed8
    cases signed
    · simp only [Bool.false_eq_true, if_false]
    · simp only [if_true]
      have key : ∀ x, x < 256 → asI 8 x = if x < 128 then (x : Int) else (x : Int) - 256 := by
        decide +kernel
      exact key _ h.h0
  have hbb : -128 ≤ eacBase signed d.d0 ∧ eacBase signed d.d0 ≤ 255 := by
    rw [hbase]; unfold Spec.Etc.signed8
    split
    · split <;> omega
    · omega
  have hbi : 0 ≤ eacBias signed ∧ eacBias signed ≤ 1023 := by
    unfold eacBias; split <;> omega
  have hval : ∀ k, Spec.Etc.eac8 signed (data.take 8) k = eacClamp (eacBase signed d.d0 * 8 +
      (Spec.Etc.mult11 (data.take 8) : Int) * Spec.Etc.eacModifier (d.d1 % 16) k +
        eacBias signed) := by
    intro k
    rw [eacClamp_eq]
    unfold Spec.Etc.eac8 Spec.Etc.eac11 Spec.Etc.eac11s
    rw [f0, f2, hbase]
    unfold eacBias
    cases signed
    · simp only [Bool.false_eq_true, if_false]
      generalize (Spec.Etc.mult11 (data.take 8) : Int) * Spec.Etc.eacModifier (d.d1 % 16) k = M
      rw [show (d.d0 : Int) * 8 + 4 + M = d.d0 * 8 + M + 4 by omega]
    · simp only [if_true]
      generalize (Spec.Etc.mult11 (data.take 8) : Int) * Spec.Etc.eacModifier (d.d1 % 16) k = M
      generalize Spec.Etc.signed8 d.d0 = S
      rw [show S * 8 + 1023 + M = S * 8 + M + 1023 by omega]
  simp only [hmul, and_15]
  obtain ⟨row, hr, hrow⟩ := eacTable_some (d.d1 % 16) (by omega)
  rw [idx_of_some hr, Out.ok_bind, slice_ok (by omega) hd, Out.ok_bind, fromLE_bytesOf,
    List.drop_zero]
  simp only [Nat.sub_zero]
  obtain ⟨o, e, hl, h1, h2⟩ := permLoop (n := 16) (f := fun i (s : Nat × List UInt32) => do
      let (l, outbuf) := s
      let b8 ← mulI 32 (eacBase signed d.d0) 8
      let t ← idx row (l &&& 7)
      let m ← mulI 32 (Spec.Etc.mult11 (data.take 8)) t
      let v ← addI 32 b8 m
      let val ← addI 32 v (eacBias signed)
      let block ← setIdx [0, 0, 0, 0] channel (eacClamp val)
      let pos ← idx writeOrderTableRev i
      let p ← idx outbuf pos
      let outbuf ← setIdx outbuf pos (p ||| UInt32.ofNat (fromLE block))
      pure (l >>> 3, outbuf)) revPos revPos_lt revPos_inj revPos_surj
    (fun i => Spec.leNat (data.take 8) / 2 ^ (3 * i))
    (fun q => upd (Spec.Etc.eac8 signed (data.take 8)
        (Spec.Etc.eacIndexLE (data.take 8) q))) out ho
    (by
      intro i hi o p hol hp
      have hpos := revPos_lt i hi
      have hidx : Spec.Etc.eacIndexLE (data.take 8) (revPos i) =
          Spec.leNat (data.take 8) / 2 ^ (3 * i) % 8 := by
        unfold Spec.Etc.eacIndexLE Spec.field
        rw [order_revPos i hi, show 45 - 3 * (15 - i) = 3 * i by omega]
      simp only
      rw [and_7, ← hidx]
      have hk : Spec.Etc.eacIndexLE (data.take 8) (revPos i) < 8 := by rw [hidx]; omega
      obtain ⟨hs, hlo, hhi⟩ := hrow _ hk
      have hv := hval (Spec.Etc.eacIndexLE (data.take 8) (revPos i))
      have hb : -1800 ≤ (Spec.Etc.mult11 (data.take 8) : Int) * Spec.Etc.eacModifier (d.d1 % 16)
            (Spec.Etc.eacIndexLE (data.take 8) (revPos i)) ∧
          (Spec.Etc.mult11 (data.take 8) : Int) * Spec.Etc.eacModifier (d.d1 % 16)
            (Spec.Etc.eacIndexLE (data.take 8) (revPos i)) ≤ 1800 := by
        generalize Spec.Etc.eacModifier (d.d1 % 16)
            (Spec.Etc.eacIndexLE (data.take 8) (revPos i)) = M at *
        generalize Spec.Etc.mult11 (data.take 8) = X at *
        have l1 : (X : Int) * M ≤ X * 15 := Int.mul_le_mul_of_nonneg_left (by omega) (by omega)
        have l2 : (X : Int) * (-15) ≤ X * M := Int.mul_le_mul_of_nonneg_left (by omega) (by omega)
        omega
      obtain ⟨bk, hbk, hup⟩ := hupd _ p (eac8_lt signed (data.take 8)
        (Spec.Etc.eacIndexLE (data.take 8) (revPos i)))
      rw [mulI32_ok (by omega) (by omega), Out.ok_bind, idx_of_some hs, Out.ok_bind,
        mulI32_ok (by omega) (by omega), Out.ok_bind,
        addI32_ok (by omega) (by omega), Out.ok_bind, addI32_ok (by omega) (by omega),
        Out.ok_bind, ← hv, hbk, Out.ok_bind, idx_of_some (writeOrderRev_some i hi), Out.ok_bind]
      show (do let p ← idx o (revPos i); _) = _
      rw [idx_of_some hp, Out.ok_bind]
      show (do let o ← setIdx o (revPos i) _; _) = _
      rw [setIdx_ok (by omega), Out.ok_bind, div8_succ, hup]
      rfl)
  simp only [Nat.mul_zero, Nat.pow_zero, Nat.div_one] at e
  exact ⟨o, by rw [e]; rfl, hl, h1, h2⟩

theorem decodeEacBlock_eq (data : List UInt8) (channel : Nat) (out : List UInt32) :
    decodeEacBlock data channel out =
      (do let d0 ← byte data 0; eacCore (eacBase false d0) (eacBias false) data channel out) := by
  simp only [decodeEacBlock, eacBase, eacBias, Bool.false_eq_true, if_false]

theorem decodeEacSignedBlock_eq (data : List UInt8) (channel : Nat) (out : List UInt32) :
    decodeEacSignedBlock data channel out =
      (do let d0 ← byte data 0; eacCore (eacBase true d0) (eacBias true) data channel out) := by
  simp only [decodeEacSignedBlock, eacBase, eacBias, if_true]

omit [Build] in
theorem upd_red : ∀ v (p : UInt32), v < 256 → ∃ blk, setIdx [0, 0, 0, 0] 2 v = .ok blk ∧
      p ||| UInt32.ofNat (fromLE blk) = orRed v p := by
  intro v p hv
  refine ⟨_, rfl, ?_⟩
  rw [← or_red p hv]
  congr 2
  simp only [List.set, fromLE]; omega

omit [Build] in
theorem upd_green : ∀ v (p : UInt32), v < 256 → ∃ blk, setIdx [0, 0, 0, 0] 1 v = .ok blk ∧
      p ||| UInt32.ofNat (fromLE blk) = orGreen v p := by
  intro v p hv
  refine ⟨_, rfl, ?_⟩
  rw [← or_green p hv]
  congr 2
  simp only [List.set, fromLE]; omega

theorem eacr_spec (signed : Bool) {data : List UInt8} {out : List UInt32} (hd : 8 ≤ data.length)
    (ho : 16 ≤ out.length) :
    Paints (if signed then decodeEacrSignedBlock data out else decodeEacrBlock data out) out
      (Spec.Etc.eacrTexelAsIs signed (data.take 8)) := by
  have hfill : fillRange out 0 16 (color 0 0 0 255) =
      .ok (List.replicate 16 (Spec.px 0 0 0 255) ++ out.drop 16) := by
    unfold fillRange; rw [if_pos ⟨by omega, by omega⟩, color_eq]; rfl
  have hlen : (List.replicate 16 (Spec.px 0 0 0 255) ++ out.drop 16).length = out.length := by
    simp only [List.length_append, List.length_replicate, List.length_drop]; omega
  obtain ⟨o, e, hl, h1, h2⟩ := eacCore_spec (signed := signed) (channel := 2) (upd := orRed)
    (out := List.replicate 16 (Spec.px 0 0 0 255) ++ out.drop 16) hd (by omega) upd_red
  refine ⟨o, ?_, by omega, ?_, ?_⟩
  · cases signed
    · show (do let o ← fillRange out 0 16 (color 0 0 0 255); decodeEacBlock data 2 o) = _
      rw [hfill, Out.ok_bind, decodeEacBlock_eq]; exact e
    · show (do let o ← fillRange out 0 16 (color 0 0 0 255); decodeEacSignedBlock data 2 o) = _
      rw [hfill, Out.ok_bind, decodeEacSignedBlock_eq]; exact e
  · intro q hq
    rw [h1 q hq, List.getElem?_append_left (by rw [List.length_replicate]; exact hq),
      List.getElem?_replicate_of_lt hq]
    simp only [Option.map_some, orRed, red_px (show 0 < 256 by omega) (show 0 < 256 by omega)
      (show 0 < 256 by omega) (show 255 < 256 by omega), Nat.zero_or,
      green_px (show 0 < 256 by omega) (show 0 < 256 by omega)
      (show 0 < 256 by omega) (show 255 < 256 by omega),
      blue_px (show 0 < 256 by omega) (show 0 < 256 by omega)
      (show 0 < 256 by omega) (show 255 < 256 by omega),
      alpha_px (show 0 < 256 by omega) (show 0 < 256 by omega)
      (show 0 < 256 by omega) (show 255 < 256 by omega)]
    rfl
  · intro q hq
    rw [h2 q hq, List.getElem?_append_right (by rw [List.length_replicate]; exact hq),
      List.length_replicate, List.getElem?_drop]
    congr 1; omega

theorem eacrg_spec (signed : Bool) {data : List UInt8} {out : List UInt32} (hd : 16 ≤ data.length)
    (ho : 16 ≤ out.length) :
    Paints (if signed then decodeEacrgSignedBlock data out else decodeEacrgBlock data out) out
      (Spec.Etc.eacrgTexelAsIs signed (data.take 16)) := by
  obtain ⟨o1, e1, hl1, h1, h1'⟩ := eacr_spec signed (data := data) (out := out) (by omega) ho
  obtain ⟨o, e, hl, h2, h2'⟩ := eacCore_spec (signed := signed) (channel := 1) (upd := orGreen)
    (data := data.drop 8) (out := o1) (by rw [List.length_drop]; omega) (by omega) upd_green
  refine ⟨o, ?_, by omega, ?_, ?_⟩
  · cases signed
    · have e1 : decodeEacrBlock data out = .ok o1 := e1
      have hx : decodeEacrgBlock data out = (decodeEacrBlock data out >>= fun o => do
          let d ← sliceFrom data 8
          decodeEacBlock d 1 o) := by
        unfold decodeEacrBlock; rw [Out.bind_assoc]; rfl
      show decodeEacrgBlock data out = _
      rw [hx, e1, Out.ok_bind, sliceFrom_ok (by omega), Out.ok_bind, decodeEacBlock_eq]; exact e
    · have e1 : decodeEacrSignedBlock data out = .ok o1 := e1
      have hx : decodeEacrgSignedBlock data out = (decodeEacrSignedBlock data out >>= fun o => do
          let d ← sliceFrom data 8
          decodeEacSignedBlock d 1 o) := by
        unfold decodeEacrSignedBlock; rw [Out.bind_assoc]; rfl
      show decodeEacrgSignedBlock data out = _
      rw [hx, e1, Out.ok_bind, sliceFrom_ok (by omega), Out.ok_bind, decodeEacSignedBlock_eq]; exact e
  · intro q hq
    have hr := eac8_lt signed (data.take 8) (Spec.Etc.eacIndexLE (data.take 8) q)
    rw [h2 q hq, h1 q hq]
    simp only [Option.map_some, orGreen, Spec.Etc.eacrTexelAsIs, Spec.Etc.eacrgTexelAsIs,
      List.take_take, List.drop_take, Nat.reduceSub, Nat.reduceLeDiff, Nat.min_eq_left]
    rw [red_px hr (by omega) (by omega) (by omega), green_px hr (by omega) (by omega) (by omega),
      blue_px hr (by omega) (by omega) (by omega), alpha_px hr (by omega) (by omega) (by omega),
      Nat.zero_or]
  · intro q hq
    rw [h2' q hq, h1' q hq]

/-! ## Contracts -/

theorem contract_of_paints {f : BlockFn} {raw : Nat} {texel : List UInt8 → Nat → UInt32}
    (h : ∀ data out, raw ≤ data.length → 16 ≤ out.length →
      Paints (f data out) out (texel (data.take raw))) :
    BlockContract f (4 * 4) raw (fun _ => True) texel (fun buf => buf.length = 16) where
  init := by simp
  step := by
    intro data buf hd _ hb
    obtain ⟨o, e, hl, h1, _⟩ := h data buf hd (by omega)
    exact ⟨o, e, by omega, by omega, h1⟩

end Verif.Proofs
