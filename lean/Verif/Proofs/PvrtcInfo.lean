import Verif.Model.Pvrtc
import Verif.Spec.Pvrtc
import Verif.Proofs.Blocks
import Verif.Proofs.Tiles
import Verif.Proofs.Etc

/-! # What `get_texel_colors` and `get_texel_weights_*` extract from a block -/

namespace Verif.Proofs.Pvrtc

open Verif Verif.Model Verif.Proofs
open Verif.Spec.Pvrtc (colourA colourB widen4 widen3 mode weight4 transparent4 stored2 standard punch)

/-! ## Colours -/

theorem or_bit (a b : Nat) (h : b < 2) : a * 2 ||| b = a * 2 + b := mul_or (k := 1) a h
theorem or_2bits (a b : Nat) (h : b < 4) : a * 4 ||| b = a * 4 + b := mul_or (k := 2) a h
theorem and_1e (x : Nat) : x &&& 0x1e = x / 2 % 16 * 2 := and_mask_shift x 4 1
theorem and_1c (x : Nat) : x &&& 0x1c = x / 4 % 8 * 4 := and_mask_shift x 3 2
theorem and_e (x : Nat) : x &&& 0xe = x / 2 % 8 * 2 := and_mask_shift x 3 1
theorem and_bit15 (x : Nat) : x &&& 0x8000 = x / 32768 % 2 * 32768 := and_mask_shift x 1 15

theorem widen4_or (q : Nat) : asU 8 (q % 16 * 2 ||| q / 8 % 2) = widen4 (q % 16) := by
  rw [or_bit _ _ (by omega)]
  unfold asU widen4
  rw [show q / 8 % 2 = q % 16 / 8 by omega]
  omega

theorem widen3_or (q : Nat) : asU 8 (q % 8 * 4 ||| q / 2 % 4) = widen3 (q % 8) := by
  rw [or_2bits _ _ (by omega)]
  unfold asU widen3
  rw [show q / 2 % 4 = q % 8 / 2 by omega]
  omega

theorem pvColorA_eq {c : Nat} (hc : c < 65536) : pvColorA c =
    if c / 32768 % 2 = 1 then ⟨c / 1024 % 32, c / 32 % 32, widen4 (c / 2 % 16), 15⟩
    else ⟨widen4 (c / 256 % 16), widen4 (c / 16 % 16), widen3 (c / 2 % 8), 2 * (c / 4096 % 8)⟩ := by
  unfold pvColorA
  simp only [shr_eq, shl_eq, and_31, and_1, and_3, and_1e, and_1c, and_e, and_bit15, Nat.reducePow]
  have e1 : c / 16 = c / 2 / 8 := by omega
  have e2 : c / 2048 = c / 256 / 8 := by omega
  have e3 : c / 128 / 2 = c / 256 := by omega
  have e4 : c / 128 = c / 16 / 8 := by omega
  have e5 : c / 8 / 2 = c / 16 := by omega
  have e6 : asU 16 (c * 2) / 4 % 8 = c / 2 % 8 := by unfold asU; omega
  have e7 : c / 4 = c / 2 / 2 := by omega
  have e8 : c / 2048 / 2 = c / 4096 := by omega
  by_cases h : c / 32768 % 2 = 1
  · rw [if_pos h, if_pos (by omega), e1, widen4_or]
    unfold asU
    congr 1 <;> omega
  · rw [if_neg h, if_neg (by omega), e8, e3, e5, e6, e2, widen4_or, e4, widen4_or, e7, widen3_or]
    congr 1
    unfold asU; omega

theorem pvColorB_eq {c : Nat} (hc : c < 65536) : pvColorB c =
    if c / 32768 % 2 = 1 then ⟨c / 1024 % 32, c / 32 % 32, c % 32, 15⟩
    else ⟨widen4 (c / 256 % 16), widen4 (c / 16 % 16), widen4 (c % 16), 2 * (c / 4096 % 8)⟩ := by
  unfold pvColorB
  simp only [shr_eq, shl_eq, and_31, and_1, and_1e, and_e, and_bit15, Nat.reducePow]
  have e2 : c / 2048 = c / 256 / 8 := by omega
  have e3 : c / 128 / 2 = c / 256 := by omega
  have e4 : c / 128 = c / 16 / 8 := by omega
  have e5 : c / 8 / 2 = c / 16 := by omega
  have e6 : asU 16 (c * 2) / 2 % 16 = c % 16 := by unfold asU; omega
  have e8 : c / 2048 / 2 = c / 4096 := by omega
  by_cases h : c / 32768 % 2 = 1
  · rw [if_pos h, if_pos (by omega)]
    unfold asU
    congr 1 <;> omega
  · rw [if_neg h, if_neg (by omega), e8, e3, e5, e6, e2, widen4_or, e4, widen4_or, widen4_or]
    congr 1
    unfold asU; omega

/-- The two colours as the model's records. -/
def recA (blk : List UInt8) : PvColor := ⟨colourA blk 0, colourA blk 1, colourA blk 2, colourA blk 3⟩
def recB (blk : List UInt8) : PvColor := ⟨colourB blk 0, colourB blk 1, colourB blk 2, colourB blk 3⟩

theorem sub16 (N p k n : Nat) (h : k + n ≤ 16) :
    N / 2 ^ p % 65536 / 2 ^ k % 2 ^ n = N / 2 ^ (p + k) % 2 ^ n := by
  rw [Nat.pow_add, ← Nat.div_div_eq_div_mul]
  generalize N / 2 ^ p = D
  rw [show (65536 : Nat) = 2 ^ k * 2 ^ (16 - k) by
    rw [← Nat.pow_add, show k + (16 - k) = 16 by omega], Nat.mod_mul_right_div_self,
    Nat.mod_mod_of_dvd]
  exact Nat.pow_dvd_pow 2 (by omega)

theorem colourA_rec {d : List UInt8} : pvColorA (Spec.leNat d / 2 ^ 32 % 65536) = recA (d.take 8) := by
  rw [pvColorA_eq (Nat.mod_lt _ (by omega))]
  unfold recA colourA
  generalize hN : Spec.leNat d = N
  have f := fun pos n (h : pos + n ≤ 8 * 8) => field_take (data := d) (raw := 8) (pos := pos) (n := n) h
  rw [hN] at f
  have s := fun k n h => sub16 N 32 k n h
  simp only [f 47 1 (by omega), f 42 5 (by omega), f 37 5 (by omega), f 33 4 (by omega),
    f 40 4 (by omega), f 36 4 (by omega), f 33 3 (by omega), f 44 3 (by omega)]
  rw [← s 15 1 (by omega), ← s 10 5 (by omega), ← s 5 5 (by omega), ← s 1 4 (by omega),
    ← s 8 4 (by omega), ← s 4 4 (by omega), ← s 1 3 (by omega), ← s 12 3 (by omega)]
  generalize N / 2 ^ 32 % 65536 = c
  simp only [Nat.reducePow]
  split <;> rfl

theorem colourB_rec {d : List UInt8} : pvColorB (Spec.leNat d / 2 ^ 48 % 65536) = recB (d.take 8) := by
  rw [pvColorB_eq (Nat.mod_lt _ (by omega))]
  unfold recB colourB
  generalize hN : Spec.leNat d = N
  have f := fun pos n (h : pos + n ≤ 8 * 8) => field_take (data := d) (raw := 8) (pos := pos) (n := n) h
  rw [hN] at f
  have s := fun k n h => sub16 N 48 k n h
  simp only [f 63 1 (by omega), f 58 5 (by omega), f 53 5 (by omega), f 48 5 (by omega),
    f 56 4 (by omega), f 52 4 (by omega), f 48 4 (by omega), f 60 3 (by omega)]
  rw [← s 15 1 (by omega), ← s 10 5 (by omega), ← s 5 5 (by omega), ← s 0 5 (by omega),
    ← s 8 4 (by omega), ← s 4 4 (by omega), ← s 0 4 (by omega), ← s 12 3 (by omega)]
  generalize N / 2 ^ 48 % 65536 = c
  simp only [Nat.reducePow, Nat.div_one]
  split <;> rfl

theorem getTexelColors_eq {d : List UInt8} {info : PvInfo} (hd : 8 ≤ d.length) :
    getTexelColors d info = .ok { info with a := recA (d.take 8), b := recB (d.take 8) } := by
  unfold getTexelColors
  rw [slice_ok (by omega) (by omega), Out.ok_bind, slice_ok (by omega) (by omega), Out.ok_bind,
    fromLE_bytesOf, fromLE_bytesOf, leNat_take, leNat_take, leNat_drop, leNat_drop]
  have h1 := colourA_rec (d := d)
  have h2 := colourB_rec (d := d)
  simp only [Nat.reducePow, Nat.reduceMul, Nat.reduceSub] at *
  rw [h1, h2]; rfl

/-! ## Modulation -/

/-- The code the decoder stores for a texel that is not stored in the block. -/
def fillCode (blk : List UInt8) : Int :=
  if Spec.field blk 0 1 = 0 then -3 else if Spec.field blk 20 1 = 1 then -1 else -2

/-- What the decoder stores for texel `t` of a 2 bits per pixel block. -/
def code2 (blk : List UInt8) (t : Nat) : Int :=
  if mode blk = 1 ∧ (t % 8 + t / 8) % 2 = 1 then fillCode blk else stored2 blk (t % 8) (t / 8)

/-- `info` holds what block `blk` says. -/
structure Good (is2 : Bool) (blk : List UInt8) (info : PvInfo) : Prop where
  a : info.a = recA blk
  b : info.b = recB blk
  len : info.weight.length = 32
  w4 : is2 = false → ∀ t, t < 16 → info.weight[t]? = some (weight4 blk t : Int)
  p4 : is2 = false → ∀ t, t < 16 →
    info.punchThrough / 2 ^ t % 2 = if transparent4 blk t then 1 else 0
  w2 : is2 = true → ∀ t, t < 32 → info.weight[t]? = some (code2 blk t)
  p2 : is2 = true → info.punchThrough = 0

theorem idx_standard (m : Nat) : idx pvStandardWeight (m &&& 3) = .ok (standard (m % 4) : Int) := by
  rw [and_3]
  have h : m % 4 < 4 := Nat.mod_lt _ (by omega)
  generalize m % 4 = v at *
  have key : ∀ v, v < 4 → idx pvStandardWeight v = .ok (standard v : Int) := by decide
  exact key v h

theorem idx_punch (m : Nat) : idx pvPunchWeight (m &&& 3) = .ok (punch (m % 4) : Int) := by
  rw [and_3]
  have h : m % 4 < 4 := Nat.mod_lt _ (by omega)
  generalize m % 4 = v at *
  have key : ∀ v, v < 4 → idx pvPunchWeight v = .ok (punch v : Int) := by decide
  exact key v h

theorem mode_eq {d : List UInt8} : mode (d.take 8) = Spec.leNat d / 2 ^ 32 % 2 :=
  field_take (by omega)

theorem div_pow_two (m i : Nat) : (m / 2 ^ (2 * i)) >>> 2 = m / 2 ^ (2 * (i + 1)) := by
  rw [shr_eq, Nat.div_div_eq_div_mul, ← Nat.pow_add]; rfl

/-- Modulation fields, read from the first four bytes. -/
theorem modField {d : List UInt8} {pos n : Nat} (h : pos + n ≤ 32) :
    Spec.leNat d % 2 ^ 32 / 2 ^ pos % 2 ^ n = Spec.field (d.take 8) pos n := by
  rw [field_take (by omega), show (2 : Nat) ^ 32 = 2 ^ pos * 2 ^ (32 - pos) by
    rw [← Nat.pow_add, show pos + (32 - pos) = 32 by omega], Nat.mod_mul_right_div_self,
    Nat.mod_mod_of_dvd]
  exact Nat.pow_dvd_pow 2 (by omega)

variable [Build]

theorem getTexelWeights4_good {d : List UInt8} {info : PvInfo} (hd : 8 ≤ d.length)
    (ha : info.a = recA (d.take 8)) (hb : info.b = recB (d.take 8)) (hl : info.weight.length = 32) :
    ∃ i', getTexelWeights4 d info = .ok i' ∧ Good false (d.take 8) i' := by
  unfold getTexelWeights4
  rw [byte_eq (by omega), Out.ok_bind, slice_ok (by omega) (by omega), Out.ok_bind,
    fromLE_bytesOf, leNat_take, leNat_drop, and_1]
  simp only [Nat.mul_zero, Nat.pow_zero, Nat.div_one, Nat.sub_zero]
  have hmode := mode_eq (d := d)
  rw [show 8 * 4 = 32 from rfl]
  have hm2 : Spec.leNat d / 2 ^ 32 % 256 % 2 = mode (d.take 8) := by
    rw [hmode]; omega
  rw [hm2]
  generalize hM : Spec.leNat d % 2 ^ 32 = M
  have hf : ∀ t, t < 16 → M / 2 ^ (2 * t) % 4 = Spec.field (d.take 8) (2 * t) 2 := by
    intro t ht
    rw [← hM]; exact modField (n := 2) (by omega)
  by_cases hmd : mode (d.take 8) = 1
  · rw [if_pos (by omega)]
    obtain ⟨s, e, l, hs, h1, h2, h3⟩ := forRange_inv (n := 16)
      (f := fun i (s : Nat × List Int × Nat) => do
        let (modBits, weight, flag) := s
        let v ← idx pvPunchWeight (modBits &&& 3)
        let weight ← setIdx weight i v
        let flag ← (if modBits &&& 3 = 2 then do
            let bit ← shlU 32 1 i
            pure (flag ||| bit)
          else pure flag)
        pure (modBits >>> 2, weight, flag)) (s := (M, info.weight, 0))
      (fun k s => ∃ l : List Int, s = (M / 2 ^ (2 * k), l, s.2.2) ∧ l.length = 32 ∧ s.2.2 < 2 ^ k ∧
        ∀ t, t < k → l[t]? = some (punch (M / 2 ^ (2 * t) % 4) : Int) ∧
          s.2.2 / 2 ^ t % 2 = if M / 2 ^ (2 * t) % 4 = 2 then 1 else 0)
      ⟨info.weight, by simp, hl, Nat.zero_lt_one, fun _ h => absurd h (Nat.not_lt_zero _)⟩
      (by
        rintro i hi ⟨mb, wt, fl⟩ ⟨l, hs, h1, h2, h3⟩
        simp only [Prod.mk.injEq, and_true] at hs
        obtain ⟨rfl, rfl⟩ := hs
        simp only at h2 h3 ⊢
        have hw : ∀ t, t < i + 1 → (wt.set i (punch (M / 2 ^ (2 * i) % 4) : Int))[t]? =
            some (punch (M / 2 ^ (2 * t) % 4) : Int) := by
          intro t ht
          rw [List.getElem?_set]
          by_cases h : i = t
          · subst h; rw [if_pos rfl, if_pos (by omega)]
          · rw [if_neg h]; exact (h3 t (by omega)).1
        rw [idx_punch, Out.ok_bind, setIdx_ok (by omega), Out.ok_bind, and_3]
        have hp : (2 : Nat) ^ (i + 1) = 2 * 2 ^ i := by rw [Nat.pow_succ, Nat.mul_comm]
        by_cases hc : M / 2 ^ (2 * i) % 4 = 2
        · have hlt : (2 : Nat) ^ i < 2 ^ 32 := Nat.pow_lt_pow_right (by omega) (by omega)
          rw [if_pos hc, shlU_ok (by omega), Out.ok_bind, shl_eq, Nat.one_mul,
            Nat.mod_eq_of_lt hlt, Out.pure_eq, Out.ok_bind, div_pow_two]
          have hor : fl ||| 2 ^ i = fl + 2 ^ i := by
            have := or_mul (b := fl) (k := i) 1 h2
            rwa [Nat.one_mul] at this
          rw [hor]
          refine ⟨_, rfl, _, rfl, by rw [List.length_set]; exact h1, by simp only; omega, ?_⟩
          intro t ht
          refine ⟨hw t ht, ?_⟩
          simp only
          by_cases h : t = i
          · subst h
            rw [if_pos hc, Nat.add_div_right _ (Nat.two_pow_pos _), Nat.div_eq_of_lt h2]
          · rw [← (h3 t (by omega)).2]
            have : (2 : Nat) ^ i = 2 ^ t * (2 * 2 ^ (i - t - 1)) := by
              rw [← Nat.mul_assoc, ← Nat.pow_succ, ← Nat.pow_add]
              congr 1; omega
            rw [this, Nat.add_mul_div_left _ _ (Nat.two_pow_pos _)]
            omega
        · rw [if_neg hc, Out.pure_eq, Out.ok_bind, div_pow_two]
          refine ⟨_, rfl, _, rfl, by rw [List.length_set]; exact h1, by simp only; omega, ?_⟩
          intro t ht
          refine ⟨hw t ht, ?_⟩
          simp only
          by_cases h : t = i
          · subst h
            rw [if_neg hc, Nat.div_eq_of_lt h2]
          · exact (h3 t (by omega)).2)
    obtain ⟨mb, wt, fl⟩ := s
    simp only [Prod.mk.injEq, and_true] at hs
    obtain ⟨rfl, rfl⟩ := hs
    simp only at h2 h3
    rw [e, Out.ok_bind]
    refine ⟨_, rfl, ha, hb, h1, ?_, ?_, fun h => absurd h (by decide), fun h => absurd h (by decide)⟩
    · intro _ t ht
      rw [(h3 t ht).1, hf t ht]
      unfold weight4; rw [if_pos hmd]
    · intro _ t ht
      simp only
      rw [(h3 t ht).2, hf t ht]
      unfold transparent4
      rw [hmd]; simp
  · rw [if_neg (by have : mode (d.take 8) < 2 := (field_lt _ _ 1); omega)]
    obtain ⟨l, e, h1, h2, -⟩ := setLoop (n := 16)
      (f := fun i (s : Nat × List Int) => do
        let (modBits, weight) := s
        let v ← idx pvStandardWeight (modBits &&& 3)
        let weight ← setIdx weight i v
        pure (modBits >>> 2, weight))
      (fun i l => (M / 2 ^ (2 * i), l)) id (fun i => (standard (M / 2 ^ (2 * i) % 4) : Int)) info.weight
      (fun i hi => by simp only [id]; omega) (fun i j _ _ h => h)
      (fun i hi l hl' => by
        simp only [id]
        rw [idx_standard, Out.ok_bind, setIdx_ok (by omega), Out.ok_bind, div_pow_two]; rfl)
    simp only [Nat.mul_zero, Nat.pow_zero, Nat.div_one] at e
    rw [e, Out.ok_bind]
    refine ⟨_, rfl, ha, hb, by rw [← hl]; exact h1, ?_, ?_, fun h => absurd h (by decide),
      fun h => absurd h (by decide)⟩
    · intro _ t ht
      have := h2 t ht
      simp only [id] at this ⊢
      rw [this, hf t ht]
      unfold weight4; rw [if_neg hmd]
    · intro _ t ht
      simp only
      unfold transparent4
      have : (mode (d.take 8) == 1) = false := by simp [hmd]
      rw [this]; simp

theorem pvFill_spec {flag : Int} {l0 : List Int} (hl : l0.length = 32) :
    ∃ l, pvFill flag l0 = .ok l ∧ l.length = 32 ∧
      ∀ t, t < 32 → (t % 8 + t / 8) % 2 = 1 → l[t]? = some flag := by
  unfold pvFill
  obtain ⟨s, e, hs, h1, h2⟩ := forRange_inv (n := 4)
    (f := fun y (s : Nat × List Int) => do
      let (i, weight) := s
      let i ← (if y &&& 1 = 0 then addU 64 i 1 else subU 64 i 1)
      forRange 4 (fun _ (s : Nat × List Int) => do
        let (i, weight) := s
        let weight ← setIdx weight i flag
        let i ← addU 64 i 2
        pure (i, weight)) (i, weight)) (s := (0, l0))
    (fun y s => s.1 = 8 * y + y % 2 ∧ s.2.length = 32 ∧
      ∀ t, t < 32 → t / 8 < y → (t % 8 + t / 8) % 2 = 1 → s.2[t]? = some flag)
    ⟨rfl, hl, fun t _ h => absurd h (Nat.not_lt_zero _)⟩
    (by
      rintro y hy ⟨i, l⟩ ⟨hi, h1, h2⟩
      simp only at hi h1 h2 ⊢
      subst hi
      have hadj : (if y &&& 1 = 0 then addU 64 (8 * y + y % 2) 1 else subU 64 (8 * y + y % 2) 1) =
          .ok (8 * y + (1 - y % 2)) := by
        rw [and_1]
        split
        · rw [addU_ok (by omega)]; congr 1; omega
        · rw [subU_ok (by omega)]; congr 1; omega
      rw [hadj, Out.ok_bind]
      obtain ⟨l', e, k1, k2, k3⟩ := setLoop (n := 4)
        (f := fun _ (s : Nat × List Int) => do
          let (i, weight) := s
          let weight ← setIdx weight i flag
          let i ← addU 64 i 2
          pure (i, weight))
        (fun x l => (8 * y + (1 - y % 2) + 2 * x, l)) (fun x => 8 * y + (1 - y % 2) + 2 * x)
        (fun _ => flag) l (fun x hx => by omega) (fun a b _ _ h => by omega)
        (fun x hx l hl' => by
          simp only
          rw [setIdx_ok (by omega), Out.ok_bind, addU_ok (by omega), Out.ok_bind]; rfl)
      refine ⟨_, e, by simp only; omega, by simp only; omega, ?_⟩
      intro t ht hty hp
      simp only
      by_cases hr : t / 8 = y
      · have := k2 ((t % 8) / 2) (by omega)
        rw [show 8 * y + (1 - y % 2) + 2 * (t % 8 / 2) = t by omega] at this
        exact this
      · rw [k3 t (fun x hx => by omega)]
        exact h2 t ht (by omega) hp)
  rw [e, Out.ok_bind]
  exact ⟨_, rfl, h1, fun t ht hp => h2 t ht (by omega) hp⟩

theorem pvStore_spec {M : Nat} {l0 : List Int} (hl : l0.length = 32) :
    ∃ l, pvStore M l0 = .ok l ∧ l.length = 32 ∧
      ∀ t, t < 32 → l[t]? = if (t % 8 + t / 8) % 2 = 1 then l0[t]?
        else some (standard (M / 2 ^ (2 * (t / 2)) % 4) : Int) := by
  unfold pvStore
  obtain ⟨s, e, hs, hm, h1, h2⟩ := forRange_inv (n := 4)
    (f := fun y (s : Nat × Nat × List Int) => do
      let (i, modBits, weight) := s
      let i ← (if y &&& 1 = 0 then subU 64 i 1 else addU 64 i 1)
      forRange 4 (fun _ (s : Nat × Nat × List Int) => do
        let (i, modBits, weight) := s
        let v ← idx pvStandardWeight (modBits &&& 3)
        let weight ← setIdx weight i v
        let i ← addU 64 i 2
        pure (i, modBits >>> 2, weight)) (i, modBits, weight)) (s := (1, M, l0))
    (fun y s => s.1 = 8 * y + (1 - y % 2) ∧ s.2.1 = M / 2 ^ (2 * (4 * y)) ∧ s.2.2.length = 32 ∧
      ∀ t, t < 32 → s.2.2[t]? = if (t % 8 + t / 8) % 2 = 0 ∧ t / 8 < y then
        some (standard (M / 2 ^ (2 * (t / 2)) % 4) : Int) else l0[t]?)
    ⟨rfl, by simp, hl, fun t _ => by rw [if_neg (by omega)]⟩
    (by
      rintro y hy ⟨i, m, l⟩ ⟨hi, hm, h1, h2⟩
      simp only at hi hm h1 h2 ⊢
      subst hi hm
      have hadj : (if y &&& 1 = 0 then subU 64 (8 * y + (1 - y % 2)) 1
          else addU 64 (8 * y + (1 - y % 2)) 1) = .ok (8 * y + y % 2) := by
        rw [and_1]
        split
        · rw [subU_ok (by omega)]; congr 1; omega
        · rw [addU_ok (by omega)]; congr 1; omega
      rw [hadj, Out.ok_bind]
      obtain ⟨l', e, k1, k2, k3⟩ := setLoop (n := 4)
        (f := fun _ (s : Nat × Nat × List Int) => do
          let (i, modBits, weight) := s
          let v ← idx pvStandardWeight (modBits &&& 3)
          let weight ← setIdx weight i v
          let i ← addU 64 i 2
          pure (i, modBits >>> 2, weight))
        (fun x l => (8 * y + y % 2 + 2 * x, M / 2 ^ (2 * (4 * y + x)), l))
        (fun x => 8 * y + y % 2 + 2 * x)
        (fun x => (standard (M / 2 ^ (2 * (4 * y + x)) % 4) : Int)) l
        (fun x hx => by omega) (fun a b _ _ h => by omega)
        (fun x hx l hl' => by
          simp only
          rw [idx_standard, Out.ok_bind, setIdx_ok (by omega), Out.ok_bind, addU_ok (by omega),
            Out.ok_bind, div_pow_two]; rfl)
      refine ⟨_, e, by simp only; omega, by simp only; congr 2, by simp only; omega, ?_⟩
      intro t ht
      simp only
      by_cases hr : t / 8 = y ∧ (t % 8 + t / 8) % 2 = 0
      · have := k2 ((t % 8) / 2) (by omega)
        rw [show 8 * y + y % 2 + 2 * (t % 8 / 2) = t by omega,
          show 4 * y + t % 8 / 2 = t / 2 by omega] at this
        rw [this, if_pos (by omega)]
      · rw [k3 t (fun x hx he => hr (by
          have h1 : t / 8 = y := by omega
          have h2 : t % 8 = y % 2 + 2 * x := by omega
          rw [h1, h2]
          omega)), h2 t ht]
        by_cases hc : (t % 8 + t / 8) % 2 = 0 ∧ t / 8 < y
        · rw [if_pos hc, if_pos (by omega)]
        · rw [if_neg hc, if_neg (by omega)])
  rw [e, Out.ok_bind]
  refine ⟨_, rfl, h1, fun t ht => ?_⟩
  rw [h2 t ht]
  by_cases hc : (t % 8 + t / 8) % 2 = 1
  · rw [if_pos hc, if_neg (by omega)]
  · rw [if_neg hc, if_pos (by omega)]

theorem pvRound_spec {k m : Nat} {l : List Int} (hm : m < 4) (hk : l[k]? = some (standard m : Int)) :
    pvRound k l = .ok (l.set k (8 * (m / 2) : Nat)) := by
  have hlt : k < l.length := by
    rcases Nat.lt_or_ge k l.length with h | h
    · exact h
    · rw [List.getElem?_eq_none h] at hk; cases hk
  unfold pvRound
  have key : ∀ m, m < 4 → InI 8 ((standard m : Int) + 3) ∧
      andI 8 ((standard m : Int) + 3) 8 = ((8 * (m / 2) : Nat) : Int) := by decide
  obtain ⟨h1, h2⟩ := key m hm
  rw [idx_of_some hk, Out.ok_bind, addI, fitI_ok h1, Out.ok_bind, h2, setIdx_ok hlt]

theorem getTexelWeights2_good {d : List UInt8} {info : PvInfo} (hd : 8 ≤ d.length)
    (ha : info.a = recA (d.take 8)) (hb : info.b = recB (d.take 8)) (hl : info.weight.length = 32) :
    ∃ i', getTexelWeights2 d info = .ok i' ∧ Good true (d.take 8) i' := by
  unfold getTexelWeights2
  rw [byte_eq (by omega), Out.ok_bind, slice_ok (by omega) (by omega), Out.ok_bind,
    fromLE_bytesOf, leNat_take, leNat_drop, and_1]
  simp only [Nat.mul_zero, Nat.pow_zero, Nat.div_one, Nat.sub_zero]
  have hmode := mode_eq (d := d)
  rw [show 8 * 4 = 32 from rfl]
  have hm2 : Spec.leNat d / 2 ^ 32 % 256 % 2 = mode (d.take 8) := by
    rw [hmode]; omega
  rw [hm2, byte_eq (by omega), Out.ok_bind]
  simp only [Nat.mul_zero, Nat.pow_zero, Nat.div_one, and_1]
  have hb0 : Spec.leNat d % 256 % 2 = Spec.field (d.take 8) 0 1 := by
    rw [field_take (by omega)]; omega
  have hb20 : Spec.leNat d / 2 ^ (8 * 2) % 256 / 16 % 2 = Spec.field (d.take 8) 20 1 := by
    rw [field_take (by omega)]; omega
  rw [byte_eq (by omega)]
  generalize hM : Spec.leNat d % 2 ^ 32 = M
  have hf : ∀ t, t < 16 → M / 2 ^ (2 * t) % 4 = Spec.field (d.take 8) (2 * t) 2 := by
    intro t ht
    rw [← hM]; exact modField (n := 2) (by omega)
  have hf1 : ∀ t, t < 32 → M / 2 ^ t % 2 = Spec.field (d.take 8) t 1 := by
    intro t ht
    rw [← hM]; exact modField (n := 1) (by omega)
  by_cases hmd : mode (d.take 8) = 1
  · rw [if_pos (by omega)]
    have hflag : ∃ d2, (if Spec.leNat d % 256 % 2 ≠ 0 then
        Out.ok (Spec.leNat d / 2 ^ (8 * 2) % 256) else pure 0) = .ok d2 ∧
        pvFillFlag (Spec.leNat d % 256) d2 = fillCode (d.take 8) := by
      unfold pvFillFlag fillCode
      rw [and_1, hb0, ← hb20]
      by_cases h : Spec.field (d.take 8) 0 1 = 0
      · refine ⟨0, ?_, ?_⟩
        · rw [if_neg (by omega)]; rfl
        · rw [if_neg (by omega), if_pos h]
      · refine ⟨_, if_pos h, ?_⟩
        rw [if_pos h, if_neg h]
        have e16 := and_mask_shift (Spec.leNat d / 2 ^ (8 * 2) % 256) 1 4
        simp only [Nat.reducePow, Nat.reduceMul, Nat.reduceSub] at e16 ⊢
        generalize Spec.leNat d / 65536 % 256 = v at *
        rw [e16]
        by_cases h2 : v / 16 % 2 = 1
        · rw [if_pos h2, if_pos (by omega)]
        · rw [if_neg h2, if_neg (by omega)]
    obtain ⟨d2, e2, hfc⟩ := hflag
    rw [e2, Out.ok_bind, hfc]
    obtain ⟨l1, e1, hl1, hw1⟩ := pvFill_spec (flag := fillCode (d.take 8)) hl
    rw [e1, Out.ok_bind]
    obtain ⟨l2, e2, hl2, hw2⟩ := pvStore_spec (M := M) hl1
    rw [e2, Out.ok_bind]
    have h0 : l2[0]? = some (standard (M / 2 ^ (2 * 0) % 4) : Int) := by
      rw [hw2 0 (by omega), if_neg (by omega)]
    rw [pvRound_spec (Nat.mod_lt _ (by omega)) h0, Out.ok_bind]
    have h20 : l2[20]? = some (standard (M / 2 ^ (2 * 10) % 4) : Int) := by
      rw [hw2 20 (by omega), if_neg (by omega)]
    have hcode : ∀ t, t < 32 → (∀ m, m = M / 2 ^ (2 * (t / 2)) % 4 → code2 (d.take 8) t =
        if (t % 8 + t / 8) % 2 = 1 then fillCode (d.take 8)
        else if t = 0 ∨ (t = 20 ∧ Spec.field (d.take 8) 0 1 = 1) then ((8 * (m / 2) : Nat) : Int)
        else (standard m : Int)) := by
      rintro t ht m rfl
      unfold code2 stored2
      rw [hmd, hf (t / 2) (by omega)]
      by_cases hp : (t % 8 + t / 8) % 2 = 1
      · rw [if_pos ⟨rfl, hp⟩, if_pos hp]
      · rw [if_neg (fun h => hp h.2), if_neg hp, if_pos rfl]
        simp only
        rw [show t / 8 * 4 + t % 8 / 2 = t / 2 by omega]
        by_cases hq : t = 0 ∨ (t = 20 ∧ Spec.field (d.take 8) 0 1 = 1)
        · rw [if_pos hq, if_pos (by omega)]
        · rw [if_neg hq, if_neg (by omega)]
    have hlt1 := field_lt (d.take 8) 0 1
    rw [hb0]
    by_cases hz : Spec.field (d.take 8) 0 1 = 0
    · rw [if_neg (by omega), Out.pure_eq, Out.ok_bind]
      refine ⟨_, rfl, ha, hb, by simp only [List.length_set]; exact hl2, fun h => absurd h (by decide),
        fun h => absurd h (by decide), ?_, fun _ => rfl⟩
      intro _ t ht
      simp only
      rw [List.getElem?_set, hcode t ht _ rfl]
      by_cases h0 : t = 0
      · subst h0
        rw [if_pos rfl, if_pos (by omega), if_neg (by omega), if_pos (Or.inl rfl)]
      · rw [if_neg (by omega), hw2 t ht]
        by_cases hp : (t % 8 + t / 8) % 2 = 1
        · rw [if_pos hp, if_pos hp, hw1 t ht hp]
        · rw [if_neg hp, if_neg hp, if_neg (by omega)]
    · rw [if_pos hz, pvRound_spec (k := 20) (m := M / 2 ^ (2 * 10) % 4) (Nat.mod_lt _ (by omega)) (by
        rw [List.getElem?_set, if_neg (by omega)]; exact h20), Out.ok_bind]
      refine ⟨_, rfl, ha, hb, by simp only [List.length_set]; exact hl2, fun h => absurd h (by decide),
        fun h => absurd h (by decide), ?_, fun _ => rfl⟩
      intro _ t ht
      simp only
      rw [List.getElem?_set, List.getElem?_set, List.length_set, hcode t ht _ rfl]
      by_cases h2 : t = 20
      · subst h2
        rw [if_pos rfl, if_pos (by omega), if_neg (by omega), if_pos (by omega)]
      · rw [if_neg (by omega)]
        by_cases h0 : t = 0
        · subst h0
          rw [if_pos rfl, if_pos (by omega), if_neg (by omega), if_pos (Or.inl rfl)]
        · rw [if_neg (by omega), hw2 t ht]
          by_cases hp : (t % 8 + t / 8) % 2 = 1
          · rw [if_pos hp, if_pos hp, hw1 t ht hp]
          · rw [if_neg hp, if_neg hp, if_neg (by omega)]
  · rw [if_neg (by have : mode (d.take 8) < 2 := (field_lt _ _ 1); omega)]
    obtain ⟨l, e, h1, h2, -⟩ := setLoop (n := 32)
      (f := fun i (s : Nat × List Int) => do
        let (modBits, weight) := s
        let weight ← setIdx weight i (if modBits &&& 1 ≠ 0 then 8 else 0)
        pure (modBits >>> 1, weight))
      (fun i l => (M / 2 ^ i, l)) id (fun i => ((8 * (M / 2 ^ i % 2) : Nat) : Int)) info.weight
      (fun i hi => by simp only [id]; omega) (fun i j _ _ h => h)
      (fun i hi l hl' => by
        simp only [id]
        rw [setIdx_ok (by omega), Out.ok_bind, div_pow_succ, and_1]
        have : (if M / 2 ^ i % 2 ≠ 0 then (8 : Int) else 0) = ((8 * (M / 2 ^ i % 2) : Nat) : Int) := by
          split <;> omega
        rw [this]; rfl)
    simp only [Nat.pow_zero, Nat.div_one, and_1] at e
    rw [e, Out.ok_bind]
    refine ⟨_, rfl, ha, hb, by rw [← hl]; exact h1, fun h => absurd h (by decide),
      fun h => absurd h (by decide), ?_, fun _ => rfl⟩
    intro _ t ht
    have := h2 t ht
    simp only [id] at this ⊢
    rw [this, hf1 t ht]
    unfold code2 stored2
    rw [if_neg (fun h => hmd h.1), if_neg hmd, show 8 * (t / 8) + t % 8 = t by omega]

/-- The infos of all blocks. -/
theorem pvInfos_spec {is2 : Bool} {data : List UInt8} {n : Nat} (hd : n * 8 ≤ data.length)
    (hn : n * 8 < 2 ^ 64) :
    ∃ infos, pvInfos is2 data n = .ok infos ∧ infos.length = n ∧
      ∀ k, k < n → ∃ info, infos[k]? = some info ∧ Good is2 (Spec.blockBytes 8 data k) info := by
  unfold pvInfos
  obtain ⟨s, e, hs, h1, h2⟩ := forRange_inv (n := n)
    (f := fun _ (s : Nat × List PvInfo) => do
      let (dataOffset, infos) := s
      let d ← sliceFrom data dataOffset
      let info ← getTexelColors d PvInfo.zero
      let d ← sliceFrom data dataOffset
      let info ← (if is2 then getTexelWeights2 d info else getTexelWeights4 d info)
      let dataOffset ← addU 64 dataOffset 8
      pure (dataOffset, infos ++ [info])) (s := (0, []))
    (fun k s => s.1 = k * 8 ∧ s.2.length = k ∧
      ∀ j, j < k → ∃ info, s.2[j]? = some info ∧ Good is2 (Spec.blockBytes 8 data j) info)
    ⟨rfl, rfl, fun _ h => absurd h (Nat.not_lt_zero _)⟩
    (by
      rintro k hk ⟨off, infos⟩ ⟨ho, h1, h2⟩
      simp only at ho h1 h2 ⊢
      subst ho
      rw [sliceFrom_ok (by omega), Out.ok_bind]
      have hdl : 8 ≤ (data.drop (k * 8)).length := by simp; omega
      rw [getTexelColors_eq hdl, Out.ok_bind, Out.ok_bind]
      obtain ⟨i', e, g⟩ : ∃ i', (if is2 = true then
          getTexelWeights2 (data.drop (k * 8))
            { PvInfo.zero with a := recA ((data.drop (k * 8)).take 8), b := recB ((data.drop (k * 8)).take 8) }
          else getTexelWeights4 (data.drop (k * 8))
            { PvInfo.zero with a := recA ((data.drop (k * 8)).take 8), b := recB ((data.drop (k * 8)).take 8) }) =
          .ok i' ∧ Good is2 ((data.drop (k * 8)).take 8) i' := by
        cases is2
        · exact getTexelWeights4_good hdl rfl rfl rfl
        · exact getTexelWeights2_good hdl rfl rfl rfl
      rw [e, Out.ok_bind, addU_ok (by omega), Out.ok_bind]
      refine ⟨_, rfl, by simp only; omega, by simp [h1], ?_⟩
      intro j hj
      simp only
      by_cases hjk : j = k
      · subst hjk
        exact ⟨i', by rw [List.getElem?_append_right (by omega), h1, Nat.sub_self]; rfl, g⟩
      · rw [List.getElem?_append_left (by omega)]
        exact h2 j (by omega))
  rw [e, Out.ok_bind]
  exact ⟨_, rfl, h1, h2⟩

end Verif.Proofs.Pvrtc
