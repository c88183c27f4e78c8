import Verif.Proofs.AstcParams

/-! # Colour endpoints of ASTC blocks -/

namespace Verif.Proofs.Astc

open Verif Verif.Model Verif.Proofs
open Verif.Spec.Astc (bitsAt Quant colourQuants)

/-! ## Masks, shifts and combinations of small signed numbers -/

theorem andI_x1 {a : Nat} (h : a < 2 ^ 31) : andI 32 (a : Int) 0x1 = ((a % 2 : Nat) : Int) := by
  show andI 32 (a : Int) ((0x1 : Nat) : Int) = _
  rw [andI_nat h (by omega)]
  exact congrArg Int.ofNat (and_mask a 1)

theorem andI_x2 {a : Nat} (h : a < 2 ^ 31) : andI 32 (a : Int) 0x2 = ((a / 2 % 2 * 2 : Nat) : Int) := by
  show andI 32 (a : Int) ((0x2 : Nat) : Int) = _
  rw [andI_nat h (by omega)]
  exact congrArg Int.ofNat (and_mask_shift a 1 1)

theorem andI_x3 {a : Nat} (h : a < 2 ^ 31) : andI 32 (a : Int) 0x3 = ((a % 4 : Nat) : Int) := by
  show andI 32 (a : Int) ((0x3 : Nat) : Int) = _
  rw [andI_nat h (by omega)]
  exact congrArg Int.ofNat (and_mask a 2)

theorem andI_x4 {a : Nat} (h : a < 2 ^ 31) : andI 32 (a : Int) 0x4 = ((a / 4 % 2 * 4 : Nat) : Int) := by
  show andI 32 (a : Int) ((0x4 : Nat) : Int) = _
  rw [andI_nat h (by omega)]
  exact congrArg Int.ofNat (and_mask_shift a 1 2)

theorem andI_x7 {a : Nat} (h : a < 2 ^ 31) : andI 32 (a : Int) 0x7 = ((a % 8 : Nat) : Int) := by
  show andI 32 (a : Int) ((0x7 : Nat) : Int) = _
  rw [andI_nat h (by omega)]
  exact congrArg Int.ofNat (and_mask a 3)

theorem andI_x8 {a : Nat} (h : a < 2 ^ 31) : andI 32 (a : Int) 0x8 = ((a / 8 % 2 * 8 : Nat) : Int) := by
  show andI 32 (a : Int) ((0x8 : Nat) : Int) = _
  rw [andI_nat h (by omega)]
  exact congrArg Int.ofNat (and_mask_shift a 1 3)

theorem andI_xc {a : Nat} (h : a < 2 ^ 31) : andI 32 (a : Int) 0xc = ((a / 4 % 4 * 4 : Nat) : Int) := by
  show andI 32 (a : Int) ((0xc : Nat) : Int) = _
  rw [andI_nat h (by omega)]
  exact congrArg Int.ofNat (and_mask_shift a 2 2)

theorem andI_xf {a : Nat} (h : a < 2 ^ 31) : andI 32 (a : Int) 0xf = ((a % 16 : Nat) : Int) := by
  show andI 32 (a : Int) ((0xf : Nat) : Int) = _
  rw [andI_nat h (by omega)]
  exact congrArg Int.ofNat (and_mask a 4)

theorem andI_x10 {a : Nat} (h : a < 2 ^ 31) : andI 32 (a : Int) 0x10 = ((a / 16 % 2 * 16 : Nat) : Int) := by
  show andI 32 (a : Int) ((0x10 : Nat) : Int) = _
  rw [andI_nat h (by omega)]
  exact congrArg Int.ofNat (and_mask_shift a 1 4)

theorem andI_x1f {a : Nat} (h : a < 2 ^ 31) : andI 32 (a : Int) 0x1f = ((a % 32 : Nat) : Int) := by
  show andI 32 (a : Int) ((0x1f : Nat) : Int) = _
  rw [andI_nat h (by omega)]
  exact congrArg Int.ofNat (and_mask a 5)

theorem andI_x20 {a : Nat} (h : a < 2 ^ 31) : andI 32 (a : Int) 0x20 = ((a / 32 % 2 * 32 : Nat) : Int) := by
  show andI 32 (a : Int) ((0x20 : Nat) : Int) = _
  rw [andI_nat h (by omega)]
  exact congrArg Int.ofNat (and_mask_shift a 1 5)

theorem andI_x3f {a : Nat} (h : a < 2 ^ 31) : andI 32 (a : Int) 0x3f = ((a % 64 : Nat) : Int) := by
  show andI 32 (a : Int) ((0x3f : Nat) : Int) = _
  rw [andI_nat h (by omega)]
  exact congrArg Int.ofNat (and_mask a 6)

theorem andI_x40 {a : Nat} (h : a < 2 ^ 31) : andI 32 (a : Int) 0x40 = ((a / 64 % 2 * 64 : Nat) : Int) := by
  show andI 32 (a : Int) ((0x40 : Nat) : Int) = _
  rw [andI_nat h (by omega)]
  exact congrArg Int.ofNat (and_mask_shift a 1 6)

theorem andI_x60 {a : Nat} (h : a < 2 ^ 31) : andI 32 (a : Int) 0x60 = ((a / 32 % 4 * 32 : Nat) : Int) := by
  show andI 32 (a : Int) ((0x60 : Nat) : Int) = _
  rw [andI_nat h (by omega)]
  exact congrArg Int.ofNat (and_mask_shift a 2 5)

theorem andI_x7f {a : Nat} (h : a < 2 ^ 31) : andI 32 (a : Int) 0x7f = ((a % 128 : Nat) : Int) := by
  show andI 32 (a : Int) ((0x7f : Nat) : Int) = _
  rw [andI_nat h (by omega)]
  exact congrArg Int.ofNat (and_mask a 7)

theorem andI_x80 {a : Nat} (h : a < 2 ^ 31) : andI 32 (a : Int) 0x80 = ((a / 128 % 2 * 128 : Nat) : Int) := by
  show andI 32 (a : Int) ((0x80 : Nat) : Int) = _
  rw [andI_nat h (by omega)]
  exact congrArg Int.ofNat (and_mask_shift a 1 7)

theorem andI_xc0 {a : Nat} (h : a < 2 ^ 31) : andI 32 (a : Int) 0xc0 = ((a / 64 % 4 * 64 : Nat) : Int) := by
  show andI 32 (a : Int) ((0xc0 : Nat) : Int) = _
  rw [andI_nat h (by omega)]
  exact congrArg Int.ofNat (and_mask_shift a 2 6)

theorem andI_xe0 {a : Nat} (h : a < 2 ^ 31) : andI 32 (a : Int) 0xe0 = ((a / 32 % 8 * 32 : Nat) : Int) := by
  show andI 32 (a : Int) ((0xe0 : Nat) : Int) = _
  rw [andI_nat h (by omega)]
  exact congrArg Int.ofNat (and_mask_shift a 3 5)

theorem andI_xf0 {a : Nat} (h : a < 2 ^ 31) : andI 32 (a : Int) 0xf0 = ((a / 16 % 16 * 16 : Nat) : Int) := by
  show andI 32 (a : Int) ((0xf0 : Nat) : Int) = _
  rw [andI_nat h (by omega)]
  exact congrArg Int.ofNat (and_mask_shift a 4 4)

theorem andI_x100 {a : Nat} (h : a < 2 ^ 31) : andI 32 (a : Int) 0x100 = ((a / 256 % 2 * 256 : Nat) : Int) := by
  show andI 32 (a : Int) ((0x100 : Nat) : Int) = _
  rw [andI_nat h (by omega)]
  exact congrArg Int.ofNat (and_mask_shift a 1 8)

theorem andI_x200 {a : Nat} (h : a < 2 ^ 31) : andI 32 (a : Int) 0x200 = ((a / 512 % 2 * 512 : Nat) : Int) := by
  show andI 32 (a : Int) ((0x200 : Nat) : Int) = _
  rw [andI_nat h (by omega)]
  exact congrArg Int.ofNat (and_mask_shift a 1 9)

theorem andI_x300 {a : Nat} (h : a < 2 ^ 31) : andI 32 (a : Int) 0x300 = ((a / 256 % 4 * 256 : Nat) : Int) := by
  show andI 32 (a : Int) ((0x300 : Nat) : Int) = _
  rw [andI_nat h (by omega)]
  exact congrArg Int.ofNat (and_mask_shift a 2 8)

theorem andI_x400 {a : Nat} (h : a < 2 ^ 31) : andI 32 (a : Int) 0x400 = ((a / 1024 % 2 * 1024 : Nat) : Int) := by
  show andI 32 (a : Int) ((0x400 : Nat) : Int) = _
  rw [andI_nat h (by omega)]
  exact congrArg Int.ofNat (and_mask_shift a 1 10)

theorem andI_x600 {a : Nat} (h : a < 2 ^ 31) : andI 32 (a : Int) 0x600 = ((a / 512 % 4 * 512 : Nat) : Int) := by
  show andI 32 (a : Int) ((0x600 : Nat) : Int) = _
  rw [andI_nat h (by omega)]
  exact congrArg Int.ofNat (and_mask_shift a 2 9)

theorem andI_x780 {a : Nat} (h : a < 2 ^ 31) : andI 32 (a : Int) 0x780 = ((a / 128 % 16 * 128 : Nat) : Int) := by
  show andI 32 (a : Int) ((0x780 : Nat) : Int) = _
  rw [andI_nat h (by omega)]
  exact congrArg Int.ofNat (and_mask_shift a 4 7)

theorem andI_x800 {a : Nat} (h : a < 2 ^ 31) : andI 32 (a : Int) 0x800 = ((a / 2048 % 2 * 2048 : Nat) : Int) := by
  show andI 32 (a : Int) ((0x800 : Nat) : Int) = _
  rw [andI_nat h (by omega)]
  exact congrArg Int.ofNat (and_mask_shift a 1 11)

theorem andI_xfe0 {a : Nat} (h : a < 2 ^ 31) : andI 32 (a : Int) 0xfe0 = ((a / 32 % 128 * 32 : Nat) : Int) := by
  show andI 32 (a : Int) ((0xfe0 : Nat) : Int) = _
  rw [andI_nat h (by omega)]
  exact congrArg Int.ofNat (and_mask_shift a 7 5)

/-- A bound on a combination of small numbers. -/
macro "orb" : tactic =>
  `(tactic| repeat' first | omega | refine Nat.or_lt_two_pow ?_ ?_)

theorem shl32_small {a : Nat} (k : Nat) (hk : k ≤ 10) (h : a < 2 ^ 20) :
    shl32 (a : Int) k = ((a * 2 ^ k : Nat) : Int) := by
  apply shl32_nat
  have h1 : 2 ^ k ≤ 2 ^ 10 := Nat.pow_le_pow_right (by omega) hk
  have h2 : a * 2 ^ k < 2 ^ 20 * 2 ^ 10 := Nat.mul_lt_mul_of_lt_of_le h h1 (by omega)
  omega

theorem shr32_lit (a k : Nat) : shr32 (a : Int) k = ((a / 2 ^ k : Nat) : Int) := shr32_nat a k

/-- Rewrites the operations on small natural numbers. -/
macro "smallints" : tactic => `(tactic|
  simp (disch := orb) only [shr32_lit, shl32_small, orI_nat, andI_x1, andI_x2, andI_x3, andI_x4, andI_x7, andI_x8, andI_xc, andI_xf, andI_x10, andI_x1f, andI_x20, andI_x3f, andI_x40, andI_x60, andI_x7f, andI_x80, andI_xc0, andI_xe0, andI_xf0, andI_x100, andI_x200, andI_x300, andI_x400, andI_x600, andI_x780, andI_x800, andI_xfe0])

variable [Build]

/-! ## Unquantisation -/

theorem unquantColour_ok {i : Nat} (hi : i < 17) {q : Quant} (hq : colourQuants[i]? = some q)
    {x y : Nat} (hx : x < 2 ^ q.bits) (hy : y < q.base) :
    unquantColour (if q.base = 1 then 0 else q.base) q.bits ⟨x, y⟩ =
      .ok ((Spec.Astc.unquantColour q (x, y) : Nat) : Int) ∧ Spec.Astc.unquantColour q (x, y) < 256 := by
  have key : ∀ ck : Bool, ∀ i : Fin 17, ∀ x : Fin 256,
      x.val < 2 ^ ((colourQuants[i.val]?).getD ⟨0, 0⟩).bits →
      ∀ y : Fin 5, y.val < ((colourQuants[i.val]?).getD ⟨0, 0⟩).base →
      @unquantColour ⟨ck⟩ (if ((colourQuants[i.val]?).getD ⟨0, 0⟩).base = 1 then 0
        else ((colourQuants[i.val]?).getD ⟨0, 0⟩).base) ((colourQuants[i.val]?).getD ⟨0, 0⟩).bits
        ⟨x.val, y.val⟩ =
      .ok ((Spec.Astc.unquantColour ((colourQuants[i.val]?).getD ⟨0, 0⟩) (x.val, y.val) : Nat) : Int) ∧
      Spec.Astc.unquantColour ((colourQuants[i.val]?).getD ⟨0, 0⟩) (x.val, y.val) < 256 := by
    decide +kernel
  obtain ⟨q', hq', hok, _⟩ := cemTables hi
  rw [hq] at hq'
  cases hq'
  have hb : q.bits ≤ 8 ∧ q.base ≤ 5 := by unfold QuantOk at hok; omega
  have hp : 2 ^ q.bits ≤ 2 ^ 8 := Nat.pow_le_pow_right (by omega) hb.1
  have := key Build.overflowChecks ⟨i, hi⟩ ⟨x, by omega⟩ (by simpa only [hq, Option.getD_some] using hx)
    ⟨y, by omega⟩ (by simpa only [hq, Option.getD_some] using hy)
  simpa only [hq, Option.getD_some] using this

/-! ## The endpoint modes -/

/-- The components as the signed numbers the code keeps. -/
def ints (l : List Nat) : List Int := l.map fun n : Nat => (n : Int)

omit [Build] in
theorem clampI_255 (x : Int) : clampI 0 255 x = ((Spec.Astc.clamp 255 x : Nat) : Int) := clampI_eq 255 x
omit [Build] in
theorem clampI_fff (x : Int) : clampI 0 0xfff x = ((Spec.Astc.clamp 0xfff x : Nat) : Int) :=
  clampI_eq 0xfff x
omit [Build] in
theorem clamp_min (hi x : Nat) : Spec.Astc.clamp hi (x : Int) = min hi x := by
  unfold Spec.Astc.clamp
  omega

theorem lumaDelta_ok {v0 v1 : Nat} (h0 : v0 < 256) (h1 : v1 < 256) :
    endpointsLumaDelta v0 v1 = .ok (ints
      (let l0 := v0 / 4 + v1 / 64 * 64
       let l1 := min 255 (l0 + v1 % 64)
       [l0, l0, l0, 255, l1, l1, l1, 255])) := by
  unfold endpointsLumaDelta
  smallints
  have e : v0 / 2 ^ 2 ||| v1 / 64 % 4 * 64 = v0 / 4 + v1 / 64 * 64 := by
    rw [show v1 / 64 % 4 * 64 = v1 / 64 % 4 * 2 ^ 6 from rfl, or_mul (k := 6) _ (by omega)]
    omega
  simp only [e]
  rw [addI_nat (by omega), Out.ok_bind, clampI_255, clamp_min]
  rfl

theorem hdrLuma_ok {v0 v1 : Nat} (h0 : v0 < 256) (h1 : v1 < 256) :
    endpointsHdrLuma v0 v1 = .ok (ints
      (let (y0, y1) := if v0 ≤ v1 then (v0 * 16, v1 * 16) else (v1 * 16 + 8, v0 * 16 - 8)
       [y0, y0, y0, 0x780, y1, y1, y1, 0x780])) := by
  unfold endpointsHdrLuma
  smallints
  by_cases h : v0 ≤ v1
  · rw [if_pos (by omega), if_pos (by omega), if_pos h]
    rfl
  · rw [if_neg (by omega), if_neg (by omega), if_neg h]
    rw [show (8 : Int) = ((8 : Nat) : Int) from rfl, addI_nat (by omega), Out.ok_bind,
      subI_nat (by omega) (by omega), Out.ok_bind]
    rfl

theorem hdrLumaDelta_ok {v0 v1 : Nat} (h0 : v0 < 256) (h1 : v1 < 256) :
    endpointsHdrLumaDelta v0 v1 = .ok (ints
      (let (y0, d) := if 128 ≤ v0 then (v1 / 32 * 512 + v0 % 128 * 4, v1 % 32 * 4)
        else (v1 / 16 * 256 + v0 % 128 * 2, v1 % 16 * 2)
       let y1 := min 0xfff (y0 + d)
       [y0, y0, y0, 0x780, y1, y1, y1, 0x780])) := by
  unfold endpointsHdrLumaDelta
  smallints
  by_cases h : 128 ≤ v0
  · rw [if_pos (show ((v0 / 128 % 2 * 128 : Nat) : Int) ≠ 0 by omega),
      if_pos (show ((v0 / 128 % 2 * 128 : Nat) : Int) ≠ 0 by omega), if_pos h]
    have e : v1 / 32 % 8 * 32 * 2 ^ 4 ||| v0 % 128 * 2 ^ 2 = v1 / 32 * 512 + v0 % 128 * 4 := by
      rw [show v1 / 32 % 8 * 32 * 2 ^ 4 = (v1 / 32) * 2 ^ 9 by omega, mul_or _ (by omega)]
    simp only [e]
    rw [addI_nat (by omega), Out.ok_bind, clampI_fff, clamp_min]
    rfl
  · rw [if_neg (show ¬ ((v0 / 128 % 2 * 128 : Nat) : Int) ≠ 0 by omega),
      if_neg (show ¬ ((v0 / 128 % 2 * 128 : Nat) : Int) ≠ 0 by omega), if_neg h]
    have e : v1 / 16 % 16 * 16 * 2 ^ 4 ||| v0 % 128 * 2 ^ 1 = v1 / 16 * 256 + v0 % 128 * 2 := by
      rw [show v1 / 16 % 16 * 16 * 2 ^ 4 = (v1 / 16) * 2 ^ 8 by omega, mul_or _ (by omega)]
    simp only [e]
    rw [addI_nat (by omega), Out.ok_bind, clampI_fff, clamp_min]
    rfl

theorem bitTransfer_ok {a b : Nat} (ha : a < 256) (hb : b < 256) :
    bitTransferSigned a b = .ok (Spec.Astc.offsetOf a, ((Spec.Astc.baseOf a b : Nat) : Int)) := by
  unfold bitTransferSigned Spec.Astc.offsetOf Spec.Astc.baseOf
  smallints
  have e : b / 2 ^ 1 ||| a / 128 % 2 * 128 = b / 2 + a / 128 * 128 := by
    rw [show a / 128 % 2 * 128 = a / 128 * 2 ^ 7 by omega, or_mul (k := 7) _ (by omega)]
  rw [e]
  by_cases h : a / 2 % 64 < 32
  · rw [if_neg (by omega), if_pos h]
    rfl
  · rw [if_pos (by omega), if_neg h, subI32_ok (by omega) (by omega), Out.ok_bind]
    rfl

omit [Build] in
theorem offsetOf_bounds (a : Nat) : -32 ≤ Spec.Astc.offsetOf a ∧ Spec.Astc.offsetOf a ≤ 31 := by
  unfold Spec.Astc.offsetOf
  split <;> omega

omit [Build] in
theorem baseOf_lt {a b : Nat} (ha : a < 256) (hb : b < 256) : Spec.Astc.baseOf a b < 256 := by
  unfold Spec.Astc.baseOf
  omega

omit [Build] in
theorem clamp_nat {hi x : Nat} (h : x ≤ hi) : Spec.Astc.clamp hi (x : Int) = x := by
  unfold Spec.Astc.clamp
  omega

theorem lumaAlphaDelta_ok {v0 v1 v2 v3 : Nat} (h0 : v0 < 256) (h1 : v1 < 256) (h2 : v2 < 256)
    (h3 : v3 < 256) :
    endpointsLumaAlphaDelta v0 v1 v2 v3 = .ok (ints
      (let l0 := Spec.Astc.baseOf v1 v0
       let l1 := Spec.Astc.clamp 255 (l0 + Spec.Astc.offsetOf v1)
       let a0 := Spec.Astc.baseOf v3 v2
       [l0, l0, l0, a0, l1, l1, l1, Spec.Astc.clamp 255 (a0 + Spec.Astc.offsetOf v3)])) := by
  unfold endpointsLumaAlphaDelta
  have o1 := offsetOf_bounds v1
  have o3 := offsetOf_bounds v3
  have b1 := baseOf_lt h1 h0
  have b3 := baseOf_lt h3 h2
  rw [bitTransfer_ok h1 h0, Out.ok_bind]
  simp only
  rw [bitTransfer_ok h3 h2, Out.ok_bind]
  simp only
  rw [addI32_ok (by omega) (by omega), Out.ok_bind, addI32_ok (by omega) (by omega), Out.ok_bind]
  show Out.ok _ = Out.ok _
  simp only [ints, clampAll, List.map, clampI_255]
  rw [clamp_nat (by omega), clamp_nat (by omega), Int.add_comm (Spec.Astc.offsetOf v1)]

theorem scale_ok {v0 v1 v2 v3 a1 a2 : Nat} (h0 : v0 < 256) (h1 : v1 < 256) (h2 : v2 < 256)
    (h3 : v3 < 256) :
    endpointsScale v0 v1 v2 v3 a1 a2 = .ok (ints
      [v0 * v3 / 256, v1 * v3 / 256, v2 * v3 / 256, a1, v0, v1, v2, a2]) := by
  unfold endpointsScale
  have m0 : v0 * v3 ≤ 255 * 255 := Nat.mul_le_mul (by omega) (by omega)
  have m1 : v1 * v3 ≤ 255 * 255 := Nat.mul_le_mul (by omega) (by omega)
  have m2 : v2 * v3 ≤ 255 * 255 := Nat.mul_le_mul (by omega) (by omega)
  rw [mulI_nat (by omega), Out.ok_bind, mulI_nat (by omega), Out.ok_bind, mulI_nat (by omega),
    Out.ok_bind]
  simp only [shr32_lit]
  rfl

theorem direct_ok {v0 v1 v2 v3 v4 v5 a1 a2 : Nat} (h0 : v0 < 256) (h1 : v1 < 256) (h2 : v2 < 256)
    (h3 : v3 < 256) (h4 : v4 < 256) (h5 : v5 < 256) :
    endpointsDirect v0 v1 v2 v3 v4 v5 a1 a2 =
      .ok (ints (Spec.Astc.direct v0 v1 v2 v3 v4 v5 a1 a2)) := by
  unfold endpointsDirect Spec.Astc.direct
  rw [addI_nat (by omega), Out.ok_bind, addI_nat (by omega), Out.ok_bind, addI_nat (by omega),
    Out.ok_bind, addI_nat (by omega), Out.ok_bind]
  by_cases h : v0 + v2 + v4 ≤ v1 + v3 + v5
  · rw [if_pos (by omega), if_pos h]; rfl
  · rw [if_neg (by omega), if_neg h]
    unfold setEndpointBlue
    rw [addI_nat (by omega), Out.ok_bind, addI_nat (by omega), Out.ok_bind, addI_nat (by omega),
      Out.ok_bind, addI_nat (by omega), Out.ok_bind]
    simp only [shr32_lit]
    rfl

omit [Build] in
theorem shr32_one (x : Int) : shr32 x 1 = x / 2 := by
  unfold shr32
  rfl

theorem offset_ok {b0 b1 b2 a1 : Nat} {o0 o1 o2 a2 : Int} (h0 : b0 < 256) (h1 : b1 < 256)
    (h2 : b2 < 256) (k0 : -32 ≤ o0 ∧ o0 ≤ 31) (k1 : -32 ≤ o1 ∧ o1 ≤ 31) (k2 : -32 ≤ o2 ∧ o2 ≤ 31) :
    endpointsOffset b0 b1 b2 o0 o1 o2 a1 a2 =
      .ok (ints (Spec.Astc.baseOffset b0 b1 b2 o0 o1 o2 a1 a2)) := by
  unfold endpointsOffset Spec.Astc.baseOffset
  rw [addI32_ok (by omega) (by omega), Out.ok_bind, addI32_ok (by omega) (by omega), Out.ok_bind,
    addI32_ok (by omega) (by omega), Out.ok_bind, addI32_ok (by omega) (by omega), Out.ok_bind,
    addI32_ok (by omega) (by omega), Out.ok_bind]
  by_cases h : 0 ≤ o0 + o1 + o2
  · rw [if_pos (by omega), if_pos h]
    show Out.ok _ = Out.ok _
    simp only [ints, clampAll, List.map, clampI_255]
  · rw [if_neg (by omega), if_neg h]
    unfold setEndpointBlue
    rw [addI32_ok (by omega) (by omega), Out.ok_bind, addI32_ok (by omega) (by omega), Out.ok_bind,
      addI32_ok (by omega) (by omega), Out.ok_bind, addI32_ok (by omega) (by omega), Out.ok_bind]
    show Out.ok _ = Out.ok _
    simp only [ints, clampAll, List.map, clampI_255,
      Spec.Astc.blueContract, shr32_one]

theorem rgbDelta_ok {v0 v1 v2 v3 v4 v5 : Nat} (h0 : v0 < 256) (h1 : v1 < 256) (h2 : v2 < 256)
    (h3 : v3 < 256) (h4 : v4 < 256) (h5 : v5 < 256) :
    endpointsRgbDelta v0 v1 v2 v3 v4 v5 = .ok (ints
      (Spec.Astc.baseOffset (Spec.Astc.baseOf v1 v0) (Spec.Astc.baseOf v3 v2) (Spec.Astc.baseOf v5 v4)
        (Spec.Astc.offsetOf v1) (Spec.Astc.offsetOf v3) (Spec.Astc.offsetOf v5) 255 255)) := by
  unfold endpointsRgbDelta
  rw [bitTransfer_ok h1 h0, Out.ok_bind]
  simp only
  rw [bitTransfer_ok h3 h2, Out.ok_bind]
  simp only
  rw [bitTransfer_ok h5 h4, Out.ok_bind]
  simp only
  exact offset_ok (a1 := 255) (baseOf_lt h1 h0) (baseOf_lt h3 h2) (baseOf_lt h5 h4) (offsetOf_bounds _)
    (offsetOf_bounds _) (offsetOf_bounds _)

theorem rgbaDelta_ok {v0 v1 v2 v3 v4 v5 v6 v7 : Nat} (h0 : v0 < 256) (h1 : v1 < 256) (h2 : v2 < 256)
    (h3 : v3 < 256) (h4 : v4 < 256) (h5 : v5 < 256) (h6 : v6 < 256) (h7 : v7 < 256) :
    endpointsRgbaDelta v0 v1 v2 v3 v4 v5 v6 v7 = .ok (ints
      (Spec.Astc.baseOffset (Spec.Astc.baseOf v1 v0) (Spec.Astc.baseOf v3 v2) (Spec.Astc.baseOf v5 v4)
        (Spec.Astc.offsetOf v1) (Spec.Astc.offsetOf v3) (Spec.Astc.offsetOf v5)
        (Spec.Astc.baseOf v7 v6) (Spec.Astc.baseOf v7 v6 + Spec.Astc.offsetOf v7))) := by
  unfold endpointsRgbaDelta
  have o7 := offsetOf_bounds v7
  have b7 := baseOf_lt h7 h6
  rw [bitTransfer_ok h1 h0, Out.ok_bind]
  simp only
  rw [bitTransfer_ok h3 h2, Out.ok_bind]
  simp only
  rw [bitTransfer_ok h5 h4, Out.ok_bind]
  simp only
  rw [bitTransfer_ok h7 h6, Out.ok_bind]
  simp only
  rw [addI32_ok (by omega) (by omega), Out.ok_bind]
  exact offset_ok (baseOf_lt h1 h0) (baseOf_lt h3 h2) (baseOf_lt h5 h4) (offsetOf_bounds _)
    (offsetOf_bounds _) (offsetOf_bounds _)

/-! ## HDR alpha -/

theorem hdrAlpha_off {m y : Nat} (hm : m < 3) (hy : y < 128) :
    (do
      let a ← shrS 0x3f (m : Int)
      let b ← shrS 0x20 (m : Int)
      let v ← subI 32 (xorI 32 (andI 32 (y : Int) a) b) b
      let k ← subI 32 4 (m : Int)
      shlS v k) =
    .ok ((if y % 2 ^ (6 - m) < 2 ^ (6 - m - 1) then ((y % 2 ^ (6 - m) : Nat) : Int)
      else ((y % 2 ^ (6 - m) : Nat) : Int) - 2 ^ (6 - m)) * 2 ^ (4 - m)) := by
  have key : ∀ ck : Bool, ∀ m : Fin 3, ∀ y : Fin 128,
    (do
      let a ← @shrS ⟨ck⟩ 0x3f (m.val : Int)
      let b ← @shrS ⟨ck⟩ 0x20 (m.val : Int)
      let v ← @subI ⟨ck⟩ 32 (xorI 32 (andI 32 (y.val : Int) a) b) b
      let k ← @subI ⟨ck⟩ 32 4 (m.val : Int)
      @shlS ⟨ck⟩ v k) =
    .ok ((if y.val % 2 ^ (6 - m.val) < 2 ^ (6 - m.val - 1) then ((y.val % 2 ^ (6 - m.val) : Nat) : Int)
      else ((y.val % 2 ^ (6 - m.val) : Nat) : Int) - 2 ^ (6 - m.val)) * 2 ^ (4 - m.val)) := by
    decide +kernel
  exact key Build.overflowChecks ⟨m, hm⟩ ⟨y, hy⟩

end Verif.Proofs.Astc
