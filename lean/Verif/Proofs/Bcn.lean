import Verif.Model.Bcn
import Verif.Spec.Bcn
import Verif.Proofs.Blocks

set_option linter.unusedSimpArgs false
set_option linter.unusedSectionVars false

/-! # BC1 – BC5 blocks refine their specification -/

namespace Verif.Proofs

open Verif Verif.Model

theorem rgb565_le_eq {d : Nat} (h : d < 65536) :
    rgb565_le d = (Spec.red565 d, Spec.green565 d, Spec.blue565 d) := by
  unfold rgb565_le asU Spec.red565 Spec.green565 Spec.blue565 Spec.expand5 Spec.expand6
  simp only [shr_eq, shl_eq, and_f8, and_fc, and_3, and_7]
  refine Prod.ext ?_ (Prod.ext ?_ ?_) <;> simp only
  · rw [show d / 2 ^ 8 / 8 % 32 * 8 % 2 ^ 8 = d / 2048 * 2 ^ 3 by omega, mul_or _ (by omega)]; omega
  · rw [show d / 2 ^ 3 / 4 % 64 * 4 % 2 ^ 8 = d / 32 % 64 * 2 ^ 2 by omega, mul_or _ (by omega)]
    omega
  · rw [show d * 2 ^ 3 % 2 ^ 16 % 2 ^ 8 = d % 32 * 2 ^ 3 by omega, mul_or _ (by omega)]; omega

theorem red565_lt {q : Nat} (h : q < 65536) : Spec.red565 q < 256 := by
  unfold Spec.red565 Spec.expand5; omega
theorem green565_lt (q : Nat) : Spec.green565 q < 256 := by
  unfold Spec.green565 Spec.expand6; omega
theorem blue565_lt (q : Nat) : Spec.blue565 q < 256 := by
  unfold Spec.blue565 Spec.expand5; omega

variable [Build]

theorem u16LE_eq {data : List UInt8} {i : Nat} (h : i + 1 < data.length) :
    u16LE data i = .ok (Spec.leNat data / 2 ^ (8 * i) % 2 ^ 16) := by
  unfold u16LE
  rw [byte_eq (by omega), Out.ok_bind, byte_eq h, Out.ok_bind]
  simp only [fromLE, Out.pure_eq]
  congr 1
  rw [show 8 * (i + 1) = 8 * i + 8 by omega, Nat.pow_add, ← Nat.div_div_eq_div_mul]
  omega

theorem mix16_ok {m n d a b : Nat} (ha : a < 256) (hb : b < 256) (hm : m ≤ 2) (hn : n ≤ 2)
    (hd : m + n = d) (h0 : d ≠ 0) : mix16 m n d a b = .ok ((a * m + b * n) / d) := by
  have h1 : a * m ≤ 255 * m := Nat.mul_le_mul_right m (by omega)
  have h2 : b * n ≤ 255 * n := Nat.mul_le_mul_right n (by omega)
  unfold mix16
  rw [mulU_ok (by omega), Out.ok_bind, mulU_ok (by omega), Out.ok_bind, addU_ok (by omega),
    Out.ok_bind, divU_ok h0, Out.ok_bind]
  unfold asU
  rw [Nat.mod_eq_of_lt]; rfl
  rw [Nat.div_lt_iff_lt_mul (by omega)]
  have : 255 * d = 255 * m + 255 * n := by rw [← hd, Nat.mul_add]
  omega

omit [Build] in
theorem bc1Channel_lt {four : Bool} {c0 c1 k : Nat} (h0 : c0 < 256) (h1 : c1 < 256) :
    Spec.bc1Channel four c0 c1 k < 256 := by
  unfold Spec.bc1Channel
  split <;> (try split) <;> omega

theorem decodeBc1Core_spec {punch : Bool} {data : List UInt8} {out : List UInt32}
    (hd : 8 ≤ data.length) (ho : 16 ≤ out.length) :
    ∃ o, decodeBc1Core punch data out = .ok o ∧ o.length = out.length ∧
      (∀ i, i < 16 → o[i]? = some (Spec.bc1Texel punch (data.take 8) i)) ∧
      ∀ i, 16 ≤ i → o[i]? = out[i]? := by
  have hf0 : Spec.field (data.take 8) 0 16 = Spec.leNat data / 2 ^ 0 % 2 ^ 16 :=
    field_take (by omega)
  have hf1 : Spec.field (data.take 8) 16 16 = Spec.leNat data / 2 ^ 16 % 2 ^ 16 :=
    field_take (by omega)
  have hfi : ∀ i, i < 16 → Spec.field (data.take 8) (32 + 2 * i) 2 =
      Spec.leNat data / 2 ^ (32 + 2 * i) % 2 ^ 2 := fun i hi => field_take (by omega)
  unfold decodeBc1Core
  rw [u16LE_eq (by omega), Out.ok_bind, u16LE_eq (by omega), Out.ok_bind]
  simp only [Nat.mul_zero, show 8 * 2 = 16 from rfl]
  rw [← hf0, ← hf1]
  have hq0 := field_lt (data.take 8) 0 16
  have hq1 := field_lt (data.take 8) 16 16
  have hk : ∀ i, i < 16 → (Spec.leNat data / 2 ^ 32 % 2 ^ 32) / 2 ^ (2 * i) % 4 =
      Spec.field (data.take 8) (32 + 2 * i) 2 := by
    intro i hi
    rw [hfi i hi]
    rw [show Spec.leNat data / 2 ^ 32 % 2 ^ 32 = Spec.leNat data / 2 ^ 32 % 2 ^ (2 * i + (32 - 2 * i))
      by congr 2; omega, Nat.pow_add, Nat.mod_mul_right_div_self, Nat.div_div_eq_div_mul,
      ← Nat.pow_add, show 4 = 2 ^ 2 from rfl, Nat.mod_mod_of_dvd _ (Nat.pow_dvd_pow 2 (by omega))]
  unfold Spec.bc1Texel
  simp only
  generalize Spec.field (data.take 8) 0 16 = q0 at *
  generalize Spec.field (data.take 8) 16 16 = q1 at *
  generalize Spec.field (data.take 8) = fld at *
  rw [rgb565_le_eq hq0, rgb565_le_eq hq1]
  simp only
  have hr0 := red565_lt hq0
  have hr1 := red565_lt hq1
  have hg0 := green565_lt q0
  have hg1 := green565_lt q1
  have hb0 := blue565_lt q0
  have hb1 := blue565_lt q1
  generalize Spec.red565 q0 = r0 at *
  generalize Spec.red565 q1 = r1 at *
  generalize Spec.green565 q0 = g0 at *
  generalize Spec.green565 q1 = g1 at *
  generalize Spec.blue565 q0 = b0 at *
  generalize Spec.blue565 q1 = b1 at *
  -- the palette
  have hpal : ∃ c2 c3, (if q0 > q1 then do
      let r2 ← mix16 2 1 3 r0 r1
      let g2 ← mix16 2 1 3 g0 g1
      let b2 ← mix16 2 1 3 b0 b1
      let r3 ← mix16 1 2 3 r0 r1
      let g3 ← mix16 1 2 3 g0 g1
      let b3 ← mix16 1 2 3 b0 b1
      pure (color r2 g2 b2 255, color r3 g3 b3 255)
    else do
      let r2 ← mix16 1 1 2 r0 r1
      let g2 ← mix16 1 1 2 g0 g1
      let b2 ← mix16 1 1 2 b0 b1
      pure (color r2 g2 b2 255, color 0 0 0 (if punch then 0 else 255))) = Out.ok (c2, c3) ∧
      ∀ k, k < 4 → [color r0 g0 b0 255, color r1 g1 b1 255, c2, c3][k]? = some (
        Spec.px (Spec.bc1Channel (decide (q0 > q1)) r0 r1 k)
          (Spec.bc1Channel (decide (q0 > q1)) g0 g1 k)
          (Spec.bc1Channel (decide (q0 > q1)) b0 b1 k)
          (if punch ∧ ¬ decide (q0 > q1) ∧ k = 3 then 0 else 255)) := by
    split
    · next h =>
      refine ⟨_, _, by
        simp only [mix16_ok hr0 hr1, mix16_ok hg0 hg1, mix16_ok hb0 hb1, Out.ok_bind, Out.pure_eq,
          Nat.reduceLeDiff, Nat.reduceAdd, ne_eq, Nat.reduceEqDiff,
          not_false_eq_true]
        rfl, ?_⟩
      intro k hk
      have : k = 0 ∨ k = 1 ∨ k = 2 ∨ k = 3 := by omega
      rcases this with rfl | rfl | rfl | rfl <;>
        simp [color_eq, Spec.bc1Channel, h, Nat.mul_comm]
    · next h =>
      refine ⟨_, _, by
        simp only [mix16_ok hr0 hr1, mix16_ok hg0 hg1, mix16_ok hb0 hb1, Out.ok_bind, Out.pure_eq,
          Nat.reduceLeDiff, Nat.reduceAdd, ne_eq, Nat.reduceEqDiff,
          not_false_eq_true]
        rfl, ?_⟩
      intro k hk
      have h' : q0 ≤ q1 := by omega
      have : k = 0 ∨ k = 1 ∨ k = 2 ∨ k = 3 := by omega
      rcases this with rfl | rfl | rfl | rfl <;>
        simp [color_eq, Spec.bc1Channel, h', Nat.not_lt.mpr h']
  obtain ⟨c2, c3, e, hpal⟩ := hpal
  rw [e, Out.ok_bind]
  simp only
  rw [slice_ok (by omega) hd, Out.ok_bind, fromLE_bytesOf, leNat_take, leNat_drop]
  simp only [show 8 * (8 - 4) = 32 from rfl, show 8 * 4 = 32 from rfl]
  generalize Spec.leNat data / 2 ^ 32 % 2 ^ 32 = D at *
  obtain ⟨o, ho, hl, h1, h2⟩ := pixelLoop (n := 16)
    (f := fun i (s : Nat × List UInt32) => do
      let (d, outbuf) := s
      let v ← idx [color r0 g0 b0 255, color r1 g1 b1 255, c2, c3] (d &&& 3)
      let outbuf ← setIdx outbuf i v
      pure (d >>> 2, outbuf))
    (fun i => D / 2 ^ (2 * i))
    (fun i _ => Spec.px (Spec.bc1Channel (decide (q0 > q1)) r0 r1 (fld (32 + 2 * i) 2))
          (Spec.bc1Channel (decide (q0 > q1)) g0 g1 (fld (32 + 2 * i) 2))
          (Spec.bc1Channel (decide (q0 > q1)) b0 b1 (fld (32 + 2 * i) 2))
          (if punch ∧ ¬ decide (q0 > q1) ∧ (fld (32 + 2 * i) 2) = 3 then 0 else 255))
    out ho
    (by
      intro i hi o p hol hp
      simp only
      rw [and_3, hk i hi, idx_of_some (hpal _ (by rw [← hk i hi]; omega)), Out.ok_bind,
        setIdx_ok (by omega), Out.ok_bind, shr_eq, Nat.div_div_eq_div_mul, ← Nat.pow_add]
      rfl)
  simp only [Nat.mul_zero, Nat.pow_zero, Nat.div_one] at ho
  refine ⟨o, by rw [ho]; rfl, hl, ?_, h2⟩
  intro i hi
  rw [h1 i hi, List.getElem?_eq_getElem (by omega)]
  rfl

theorem bc1_contract (punch : Bool) :
    BlockContract (decodeBc1Core punch) (4 * 4) 8 (fun _ => True) (Spec.bc1Texel punch)
      (fun buf => buf.length = 16) where
  init := by simp
  step := by
    intro data buf hd _ hb
    obtain ⟨o, e, hl, h1, _⟩ := decodeBc1Core_spec (punch := punch) hd (out := buf) (by omega)
    exact ⟨o, e, by omega, by omega, h1⟩

omit [Build] in
theorem clear_channel (p k : Nat) (hp : p < 2 ^ 32) (hk : k ≤ 24) :
    p &&& (0xFFFFFFFF ^^^ (0xFF <<< k)) = p % 2 ^ k + p / 2 ^ (k + 8) * 2 ^ (k + 8) := by
  have hx : 0xFFFFFFFF ^^^ (0xFF <<< k) =
      ((2 ^ (24 - k) - 1) * 2 ^ (k + 8)) ||| (2 ^ k - 1) := by
    apply Nat.eq_of_testBit_eq
    intro i
    rw [show 0xFFFFFFFF = 2 ^ 32 - 1 from rfl, show 0xFF = 2 ^ 8 - 1 from rfl,
      ← Nat.shiftLeft_eq]
    simp only [Nat.testBit_xor, Nat.testBit_or, Nat.testBit_shiftLeft, Nat.testBit_two_pow_sub_one]
    by_cases h1 : i < k
    · have h2 : ¬ k ≤ i := by omega
      have h3 : ¬ k + 8 ≤ i := by omega
      have h4 : i < 32 := by omega
      simp [h1, h2, h3, h4]
    · by_cases h2 : i < k + 8
      · have h3 : k ≤ i := by omega
        have h4 : ¬ k + 8 ≤ i := by omega
        have h5 : i < 32 := by omega
        have h6 : i - k < 8 := by omega
        simp [h1, h3, h4, h5, h6]
      · have h3 : k ≤ i := by omega
        have h4 : k + 8 ≤ i := by omega
        have h6 : ¬ i - k < 8 := by omega
        have h7 : i - (k + 8) < 24 - k ↔ i < 32 := by omega
        simp [h1, h3, h4, h6, h7]
  rw [hx, Nat.and_or_distrib_left, and_mask_shift, and_mask, mul_or]
  · rw [Nat.mod_eq_of_lt (a := p / 2 ^ (k + 8)), Nat.add_comm]
    rw [Nat.div_lt_iff_lt_mul (Nat.two_pow_pos _), ← Nat.pow_add]
    rw [show 24 - k + (k + 8) = 32 by omega]; exact hp
  · exact Nat.lt_of_lt_of_le (Nat.mod_lt _ (Nat.two_pow_pos _))
      (Nat.pow_le_pow_right (by omega) (by omega))

omit [Build] in
theorem setChannel_toNat {c v : Nat} (p : UInt32) (hc : c ≤ 3) (hv : v < 256) :
    (setChannel c v p).toNat =
      p.toNat % 2 ^ (c * 8) + p.toNat / 2 ^ (c * 8 + 8) * 2 ^ (c * 8 + 8) + v * 2 ^ (c * 8) := by
  have hp := p.toNat_lt
  have hc' : c = 0 ∨ c = 1 ∨ c = 2 ∨ c = 3 := by omega
  unfold setChannel asU
  rw [UInt32.toNat_ofNat', clear_channel _ _ hp (by omega), shl_eq]
  generalize p.toNat = P at *
  have e : (P % 2 ^ (c * 8) + P / 2 ^ (c * 8 + 8) * 2 ^ (c * 8 + 8) |||
      v % 2 ^ 32 * 2 ^ (c * 8) % 2 ^ 32) =
      P % 2 ^ (c * 8) + P / 2 ^ (c * 8 + 8) * 2 ^ (c * 8 + 8) + v * 2 ^ (c * 8) := by
    have h1 : v % 2 ^ 32 * 2 ^ (c * 8) % 2 ^ 32 = v * 2 ^ (c * 8) := by
      rcases hc' with rfl | rfl | rfl | rfl <;> omega
    have h2 : P % 2 ^ (c * 8) + P / 2 ^ (c * 8 + 8) * 2 ^ (c * 8 + 8) =
        P % 2 ^ (c * 8) ||| P / 2 ^ (c * 8 + 8) * 2 ^ (c * 8 + 8) := by
      rw [or_mul]
      exact Nat.lt_of_lt_of_le (Nat.mod_lt _ (Nat.two_pow_pos _))
        (Nat.pow_le_pow_right (by omega) (by omega))
    rw [h1, h2, Nat.or_assoc, mul_or, Nat.or_comm,
      show P / 2 ^ (c * 8 + 8) * 2 ^ (c * 8 + 8) + v * 2 ^ (c * 8) =
        (P / 2 ^ (c * 8 + 8) * 2 ^ 8 + v) * 2 ^ (c * 8) by
        rw [Nat.add_mul, Nat.mul_assoc, ← Nat.pow_add, Nat.add_comm 8], mul_or, ← h2]
    · rw [Nat.add_mul, Nat.mul_assoc, ← Nat.pow_add, Nat.add_comm 8]; omega
    · exact Nat.mod_lt _ (Nat.two_pow_pos _)
    · rw [Nat.pow_add, Nat.mul_comm]
      exact Nat.mul_lt_mul_of_pos_left hv (Nat.two_pow_pos _)
  rw [e, Nat.mod_eq_of_lt]
  rcases hc' with rfl | rfl | rfl | rfl <;> omega

omit [Build] in
theorem setChannel_3 {v : Nat} (p : UInt32) (hv : v < 256) :
    setChannel 3 v p = Spec.withAlpha p v := by
  apply UInt32.toNat_inj.mp
  unfold Spec.withAlpha
  rw [setChannel_toNat p (by omega) hv, px_toNat (red_lt p) (green_lt p) (blue_lt p) hv]
  have := p.toNat_lt
  unfold Spec.red Spec.green Spec.blue
  omega

omit [Build] in
theorem setChannel_2 {v : Nat} (p : UInt32) (hv : v < 256) :
    setChannel 2 v p = Spec.px v (Spec.green p) (Spec.blue p) (Spec.alpha p) := by
  apply UInt32.toNat_inj.mp
  rw [setChannel_toNat p (by omega) hv, px_toNat hv (green_lt p) (blue_lt p) (alpha_lt p)]
  have := p.toNat_lt
  unfold Spec.green Spec.blue Spec.alpha
  omega

omit [Build] in
theorem setChannel_1 {v : Nat} (p : UInt32) (hv : v < 256) :
    setChannel 1 v p = Spec.px (Spec.red p) v (Spec.blue p) (Spec.alpha p) := by
  apply UInt32.toNat_inj.mp
  rw [setChannel_toNat p (by omega) hv, px_toNat (red_lt p) hv (blue_lt p) (alpha_lt p)]
  have := p.toNat_lt
  unfold Spec.red Spec.blue Spec.alpha
  omega

theorem decodeBc2Alpha_spec {data : List UInt8} {out : List UInt32}
    (hd : 8 ≤ data.length) (ho : 16 ≤ out.length) :
    ∃ o, decodeBc2Alpha 3 data out = .ok o ∧ o.length = out.length ∧
      (∀ i, i < 16 → o[i]? =
        (out[i]?).map (fun p => Spec.withAlpha p (17 * Spec.field data (4 * i) 4))) ∧
      ∀ i, 16 ≤ i → o[i]? = out[i]? := by
  unfold decodeBc2Alpha
  rw [slice_ok (by omega) ho, Out.ok_bind]
  refine pixelLoop' (fun i p => Spec.withAlpha p (17 * Spec.field data (4 * i) 4)) out ho ?_
  intro i hi o p hol hp
  have hb : i &&& 1 = i % 2 := and_1 i
  simp only [shr_eq, shl_eq, hb]
  rw [byte_eq (by omega), Out.ok_bind, shrU_ok (by omega), Out.ok_bind, and_15,
    shlU_ok (by omega), Out.ok_bind, idx_of_some hp, Out.ok_bind, setIdx_ok (by omega)]
  have hv : (Spec.leNat data / 2 ^ (8 * (i / 2 ^ 1)) % 256) >>> (i % 2 * 2 ^ 2) % 16 =
      Spec.field data (4 * i) 4 := by
    unfold Spec.field
    have h2 : 4 * i = 8 * (i / 2 ^ 1) + i % 2 * 2 ^ 2 := by omega
    rw [h2, Nat.pow_add, ← Nat.div_div_eq_div_mul, shr_eq]
    generalize Spec.leNat data / 2 ^ (8 * (i / 2 ^ 1)) = X
    have : i % 2 = 0 ∨ i % 2 = 1 := by omega
    rcases this with h | h <;> rw [h] <;> omega
  rw [hv]
  have hlt := field_lt data (4 * i) 4
  generalize Spec.field data (4 * i) 4 = F at *
  rw [shl_eq, show F * 2 ^ 4 % 2 ^ 8 = F * 2 ^ 4 by omega, mul_or _ (by omega),
    setChannel_3 _ (by omega)]
  congr 3; omega

theorem mixA_ok {m n d a b : Nat} (ha : a < 256) (hb : b < 256) (hd : m + n = d) (h0 : d ≠ 0)
    (hd' : d ≤ 7) : mixA m n d a b = .ok ((a * m + b * n) / d) := by
  have h1 : a * m ≤ 255 * m := Nat.mul_le_mul_right m (by omega)
  have h2 : b * n ≤ 255 * n := Nat.mul_le_mul_right n (by omega)
  unfold mixA
  rw [mulU_ok (by omega), Out.ok_bind, mulU_ok (by omega), Out.ok_bind, addU_ok (by omega),
    Out.ok_bind, divU_ok h0]

theorem bc3Table_ok {a0 a1 : Nat} (h0 : a0 < 256) (h1 : a1 < 256) :
    ∃ t, bc3Table a0 a1 = .ok t ∧ ∀ k, k < 8 → t[k]? = some (Spec.bc3Entry a0 a1 k) := by
  unfold bc3Table
  split
  · next h =>
    simp only [mixA_ok h0 h1, Out.ok_bind, Out.pure_eq, Nat.reduceLeDiff, Nat.reduceAdd, ne_eq,
      Nat.reduceEqDiff, not_false_eq_true, Nat.le_refl]
    refine ⟨_, rfl, ?_⟩
    intro k hk
    have : k = 0 ∨ k = 1 ∨ k = 2 ∨ k = 3 ∨ k = 4 ∨ k = 5 ∨ k = 6 ∨ k = 7 := by omega
    rcases this with rfl | rfl | rfl | rfl | rfl | rfl | rfl | rfl <;>
      simp [Spec.bc3Entry, h]
  · next h =>
    simp only [mixA_ok h0 h1, Out.ok_bind, Out.pure_eq, Nat.reduceLeDiff, Nat.reduceAdd, ne_eq,
      Nat.reduceEqDiff, not_false_eq_true, Nat.le_refl]
    refine ⟨_, rfl, ?_⟩
    intro k hk
    have : k = 0 ∨ k = 1 ∨ k = 2 ∨ k = 3 ∨ k = 4 ∨ k = 5 ∨ k = 6 ∨ k = 7 := by omega
    rcases this with rfl | rfl | rfl | rfl | rfl | rfl | rfl | rfl <;>
      simp [Spec.bc3Entry, h]

omit [Build] in
theorem bc3Entry_lt {a0 a1 k : Nat} (h0 : a0 < 256) (h1 : a1 < 256) (hk : k < 8) :
    Spec.bc3Entry a0 a1 k < 256 := by
  unfold Spec.bc3Entry
  have : k = 0 ∨ k = 1 ∨ k = 2 ∨ k = 3 ∨ k = 4 ∨ k = 5 ∨ k = 6 ∨ k = 7 := by omega
  rcases this with rfl | rfl | rfl | rfl | rfl | rfl | rfl | rfl <;> simp <;> (try split) <;> omega

omit [Build] in
theorem byteAt_lt (blk : List UInt8) (i : Nat) : Spec.byteAt blk i < 256 := field_lt _ _ 8

omit [Build] in
theorem bc3Value_lt (blk : List UInt8) (i : Nat) : Spec.bc3Value blk i < 256 :=
  bc3Entry_lt (byteAt_lt _ _) (byteAt_lt _ _) (field_lt _ _ 3)

/-- The loop of `decode_bc3_alpha`: the bit buffer runs over the 48 index bits only. -/
theorem decodeBc3Alpha_any {c : Nat} {data : List UInt8} {out : List UInt32}
    (hd : 8 ≤ data.length) :
    ∃ o, decodeBc3Alpha c data out = .ok o ∧ o.length = out.length ∧
      ∀ i, i < out.length →
        o[i]? = (out[i]?).map (setChannel c (Spec.bc3Value (data.take 8) i)) := by
  unfold decodeBc3Alpha
  rw [byte_eq (by omega), Out.ok_bind, byte_eq (by omega), Out.ok_bind]
  have e0 : Spec.byteAt (data.take 8) 0 = Spec.leNat data / 2 ^ (8 * 0) % 256 :=
    field_take (by omega)
  have e1 : Spec.byteAt (data.take 8) 1 = Spec.leNat data / 2 ^ (8 * 1) % 256 :=
    field_take (by omega)
  rw [← e0, ← e1]
  obtain ⟨t, ht, htk⟩ := bc3Table_ok (byteAt_lt (data.take 8) 0) (byteAt_lt (data.take 8) 1)
  rw [ht, Out.ok_bind, slice_ok (by omega) hd, Out.ok_bind, fromLE_bytesOf, List.drop_zero,
    show 8 - 0 = 8 from rfl, shr_eq]
  simp only
  have hk : ∀ i, Spec.leNat (data.take 8) / 2 ^ 16 / 2 ^ (3 * i) % 8 =
      Spec.field (data.take 8) (16 + 3 * i) 3 := by
    intro i
    rw [Nat.div_div_eq_div_mul, ← Nat.pow_add]; rfl
  obtain ⟨o, e, hl, h1, h2⟩ := pixelLoop (n := out.length)
    (f := fun i (s : Nat × List UInt32) => do
      let (d, outbuf) := s
      let v ← idx t (d &&& 7)
      let p ← idx outbuf i
      let outbuf ← setIdx outbuf i (setChannel c v p)
      pure (d >>> 3, outbuf))
    (fun i => Spec.leNat (data.take 8) / 2 ^ 16 / 2 ^ (3 * i))
    (fun i => setChannel c (Spec.bc3Value (data.take 8) i)) out (Nat.le_refl _)
    (by
      intro i hi o p hol hp
      simp only
      rw [and_7, hk, idx_of_some (htk _ (field_lt _ _ 3)), Out.ok_bind, idx_of_some hp, Out.ok_bind,
        setIdx_ok (by omega), Out.ok_bind, shr_eq, Nat.div_div_eq_div_mul _ (2 ^ (3 * i)) (2 ^ 3),
        ← Nat.pow_add]
      rfl)
  simp only [Nat.mul_zero, Nat.pow_zero, Nat.div_one] at e
  exact ⟨o, by rw [e]; rfl, hl, h1⟩

theorem decodeBc3Alpha_spec {c : Nat} {data : List UInt8} {out : List UInt32}
    (hd : 8 ≤ data.length) (ho : out.length = 16) :
    ∃ o, decodeBc3Alpha c data out = .ok o ∧ o.length = 16 ∧
      ∀ i, i < 16 → o[i]? = (out[i]?).map (setChannel c (Spec.bc3Value (data.take 8) i)) := by
  obtain ⟨o, e, hl, h1⟩ := decodeBc3Alpha_any (c := c) (out := out) hd
  exact ⟨o, e, by omega, fun i hi => h1 i (by omega)⟩

omit [Build] in
theorem bc3Value_take16 {data : List UInt8} {i : Nat} (hi : i < 16) :
    Spec.bc3Value (data.take 8) i = Spec.bc3Value (data.take 16) i := by
  unfold Spec.bc3Value Spec.byteAt
  simp only [field_take (show 8 * 0 + 8 ≤ 8 * 8 by omega), field_take (show 8 * 1 + 8 ≤ 8 * 8 by omega),
    field_take (show 8 * 0 + 8 ≤ 8 * 16 by omega), field_take (show 8 * 1 + 8 ≤ 8 * 16 by omega),
    field_take (show 16 + 3 * i + 3 ≤ 8 * 8 by omega),
    field_take (show 16 + 3 * i + 3 ≤ 8 * 16 by omega)]

omit [Build] in
theorem drop_take16 {α : Type} (data : List α) : (data.drop 8).take 8 = (data.take 16).drop 8 := by
  rw [List.drop_take]

theorem bc2_contract :
    BlockContract decodeBc2Block (4 * 4) 16 (fun _ => True) Spec.bc2Texel
      (fun buf => buf.length = 16) where
  init := by simp
  step := by
    intro data buf hd _ hb
    obtain ⟨o, e, hl, h1, _⟩ := decodeBc1Core_spec (punch := false) (data := data.drop 8)
      (by simp; omega) (out := buf) (by omega)
    obtain ⟨o2, e2, hl2, h3, _⟩ := decodeBc2Alpha_spec (data := data) (by omega) (out := o) (by omega)
    refine ⟨o2, ?_, by omega, by omega, ?_⟩
    · unfold decodeBc2Block
      rw [sliceFrom_ok (by omega), Out.ok_bind]
      rw [show decodeBc1Block = decodeBc1Core false from rfl, e, Out.ok_bind, e2]
    · intro i hi
      rw [h3 i hi, h1 i hi]
      unfold Spec.bc2Texel
      rw [field_eq, ← field_take (raw := 16) (by omega), drop_take16]
      rfl

theorem bc3_contract :
    BlockContract decodeBc3Block (4 * 4) 16 (fun _ => True) Spec.bc3Texel
      (fun buf => buf.length = 16) where
  init := by simp
  step := by
    intro data buf hd _ hb
    obtain ⟨o, e, hl, h1, _⟩ := decodeBc1Core_spec (punch := false) (data := data.drop 8)
      (by simp; omega) (out := buf) (by omega)
    obtain ⟨o2, e2, hl2, h3⟩ := decodeBc3Alpha_spec (c := 3) (data := data) (by omega) (out := o)
      (by omega)
    refine ⟨o2, ?_, by omega, by omega, ?_⟩
    · unfold decodeBc3Block
      rw [sliceFrom_ok (by omega), Out.ok_bind]
      rw [show decodeBc1Block = decodeBc1Core false from rfl, e, Out.ok_bind, e2]
    · intro i hi
      rw [h3 i hi, h1 i hi]
      unfold Spec.bc3Texel
      rw [drop_take16, ← bc3Value_take16 hi, Option.map_some, setChannel_3 _ (bc3Value_lt _ _)]

/-- The scratch buffer of BC4 and BC5: blue is 0, alpha is 255, and green is 0 in BC4. -/
def RedOnly (buf : List UInt32) : Prop :=
  buf.length = 16 ∧ ∀ (i : Nat) p, buf[i]? = some p →
    Spec.green p = 0 ∧ Spec.blue p = 0 ∧ Spec.alpha p = 255
def RedGreen (buf : List UInt32) : Prop :=
  buf.length = 16 ∧ ∀ (i : Nat) p, buf[i]? = some p → Spec.blue p = 0 ∧ Spec.alpha p = 255

omit [Build] in
theorem black_channels : Spec.green (color 0 0 0 255) = 0 ∧ Spec.blue (color 0 0 0 255) = 0 ∧
    Spec.alpha (color 0 0 0 255) = 255 := by decide

theorem bc4_contract :
    BlockContract decodeBc4Block (4 * 4) 8 (fun _ => True) Spec.bc4Texel RedOnly where
  init := by
    refine ⟨by simp, ?_⟩
    intro i p hp
    rw [List.getElem?_replicate] at hp
    split at hp
    · cases hp; exact black_channels
    · cases hp
  step := by
    rintro data buf hd _ ⟨hb, hinv⟩
    obtain ⟨o, e, hl, h1⟩ := decodeBc3Alpha_spec (c := 2) (data := data) (by omega) (out := buf) hb
    have hpx : ∀ i, i < 16 → o[i]? = some (Spec.bc4Texel (data.take 8) i) := by
      intro i hi
      have hg : buf[i]? = some (buf[i]'(by omega)) := List.getElem?_eq_getElem _
      obtain ⟨c1, c2, c3⟩ := hinv i _ hg
      rw [h1 i hi, hg, Option.map_some, setChannel_2 _ (bc3Value_lt _ _), c1, c2, c3,
        Spec.bc4Texel]
    refine ⟨o, e, ⟨hl, ?_⟩, hl, hpx⟩
    intro i p hp
    have hi : i < 16 := by
      have := (List.getElem?_eq_some_iff.mp hp).1; omega
    rw [hpx i hi] at hp
    have hp := Option.some.inj hp
    subst hp
    have hv := bc3Value_lt (data.take 8) i
    exact ⟨green_px hv (by omega) (by omega) (by omega), blue_px hv (by omega) (by omega) (by omega),
      alpha_px hv (by omega) (by omega) (by omega)⟩

theorem bc5_contract :
    BlockContract decodeBc5Block (4 * 4) 16 (fun _ => True) Spec.bc5Texel RedGreen where
  init := by
    refine ⟨by simp, ?_⟩
    intro i p hp
    rw [List.getElem?_replicate] at hp
    split at hp
    · cases hp; exact black_channels.2
    · cases hp
  step := by
    rintro data buf hd _ ⟨hb, hinv⟩
    obtain ⟨o, e, hl, h1⟩ := decodeBc3Alpha_spec (c := 2) (data := data) (by omega) (out := buf) hb
    obtain ⟨o2, e2, hl2, h2⟩ := decodeBc3Alpha_spec (c := 1) (data := data.drop 8)
      (by simp; omega) (out := o) hl
    have hpx : ∀ i, i < 16 → o2[i]? = some (Spec.bc5Texel (data.take 16) i) := by
      intro i hi
      have hg : buf[i]? = some (buf[i]'(by omega)) := List.getElem?_eq_getElem _
      obtain ⟨c2, c3⟩ := hinv i _ hg
      have hv := bc3Value_lt (data.take 8) i
      have hv2 := green_lt (buf[i]'(by omega))
      have hv3 := blue_lt (buf[i]'(by omega))
      have hv4 := alpha_lt (buf[i]'(by omega))
      rw [h2 i hi, h1 i hi, hg, Option.map_some, Option.map_some,
        setChannel_1 _ (bc3Value_lt _ _), setChannel_2 _ hv, red_px hv hv2 hv3 hv4,
        blue_px hv hv2 hv3 hv4, alpha_px hv hv2 hv3 hv4, c2, c3, bc3Value_take16 hi, drop_take16,
        Spec.bc5Texel]
    refine ⟨o2, ?_, ⟨hl2, ?_⟩, hl2, hpx⟩
    · unfold decodeBc5Block
      rw [e, Out.ok_bind, sliceFrom_ok (by omega), Out.ok_bind, e2]
    intro i p hp
    have hi : i < 16 := by
      have := (List.getElem?_eq_some_iff.mp hp).1; omega
    rw [hpx i hi] at hp
    have hp := Option.some.inj hp
    subst hp
    have hv := bc3Value_lt (data.take 16) i
    have hv' := bc3Value_lt ((data.take 16).drop 8) i
    exact ⟨blue_px hv hv' (by omega) (by omega), alpha_px hv hv' (by omega) (by omega)⟩

end Verif.Proofs
