import Verif.Model.Pvrtc
import Verif.Spec.Pvrtc
import Verif.Proofs.Bits

/-! # The twiddled block order of PVRTC -/

namespace Verif.Proofs.Pvrtc

open Verif Verif.Model Verif.Proofs
open Verif.Spec.Pvrtc (twiddle IsPow2)

/-! ## Powers of two -/

theorem and_pred_two_pow (p : Nat) : 2 ^ p &&& (2 ^ p - 1) = 0 := by
  rw [and_mask, Nat.mod_self]

theorem pow2_of_and_pred : ∀ n, 0 < n → n &&& (n - 1) = 0 → IsPow2 n := by
  intro n
  induction n using Nat.strongRecOn with
  | ind n ih =>
    intro hn h
    by_cases h1 : n = 1
    · exact ⟨0, h1⟩
    · have hd : n / 2 &&& (n - 1) / 2 = 0 := by rw [← Nat.and_div_two, h]
      by_cases ho : n % 2 = 0
      · rw [show (n - 1) / 2 = n / 2 - 1 by omega] at hd
        obtain ⟨p, hp⟩ := ih (n / 2) (by omega) (by omega) hd
        exact ⟨p + 1, by rw [Nat.pow_succ]; omega⟩
      · rw [show (n - 1) / 2 = n / 2 by omega, Nat.and_self] at hd
        omega

theorem and_pred_iff {n : Nat} (hn : 0 < n) : n &&& (n - 1) = 0 ↔ IsPow2 n := by
  constructor
  · exact pow2_of_and_pred n hn
  · rintro ⟨p, rfl⟩; exact and_pred_two_pow p

/-! ## The order is a bijection -/

theorem twiddle_lt : ∀ m x y a b, x < 2 ^ (m + a) → y < 2 ^ (m + b) → a = 0 ∨ b = 0 →
    twiddle m x y < 2 ^ (2 * m + a + b) := by
  intro m
  induction m with
  | zero =>
    intro x y a b hx hy h
    simp only [Nat.zero_add, Nat.mul_zero] at *
    unfold twiddle
    rcases h with rfl | rfl
    · have : x = 0 := by omega
      subst this; rw [Nat.zero_add, Nat.zero_add]; exact hy
    · have : y = 0 := by omega
      subst this; exact hx
  | succ m ih =>
    intro x y a b hx hy h
    have e1 : 2 ^ (m + 1 + a) = 2 * 2 ^ (m + a) := by
      rw [show m + 1 + a = m + a + 1 by omega, Nat.pow_succ, Nat.mul_comm]
    have e2 : 2 ^ (m + 1 + b) = 2 * 2 ^ (m + b) := by
      rw [show m + 1 + b = m + b + 1 by omega, Nat.pow_succ, Nat.mul_comm]
    have e3 : 2 ^ (2 * (m + 1) + a + b) = 4 * 2 ^ (2 * m + a + b) := by
      rw [show 2 * (m + 1) + a + b = 2 * m + a + b + 2 by omega, Nat.pow_add, Nat.mul_comm]
    have := ih (x / 2) (y / 2) a b (by omega) (by omega) h
    rw [e3]
    unfold twiddle
    omega

theorem twiddle_inj : ∀ m x y x' y' a b, x < 2 ^ (m + a) → y < 2 ^ (m + b) → x' < 2 ^ (m + a) →
    y' < 2 ^ (m + b) → a = 0 ∨ b = 0 → twiddle m x y = twiddle m x' y' → x = x' ∧ y = y' := by
  intro m
  induction m with
  | zero =>
    intro x y x' y' a b hx hy hx' hy' h he
    simp only [Nat.zero_add, twiddle] at *
    rcases h with rfl | rfl
    · omega
    · omega
  | succ m ih =>
    intro x y x' y' a b hx hy hx' hy' h he
    have e1 : 2 ^ (m + 1 + a) = 2 * 2 ^ (m + a) := by
      rw [show m + 1 + a = m + a + 1 by omega, Nat.pow_succ, Nat.mul_comm]
    have e2 : 2 ^ (m + 1 + b) = 2 * 2 ^ (m + b) := by
      rw [show m + 1 + b = m + b + 1 by omega, Nat.pow_succ, Nat.mul_comm]
    unfold twiddle at he
    have := ih (x / 2) (y / 2) (x' / 2) (y' / 2) a b (by omega) (by omega) (by omega) (by omega) h
      (by omega)
    omega

theorem twiddle_surj : ∀ m a b k, a = 0 ∨ b = 0 → k < 2 ^ (2 * m + a + b) →
    ∃ x y, x < 2 ^ (m + a) ∧ y < 2 ^ (m + b) ∧ twiddle m x y = k := by
  intro m
  induction m with
  | zero =>
    intro a b k h hk
    simp only [Nat.zero_add, Nat.mul_zero, twiddle] at *
    rcases h with rfl | rfl
    · rw [Nat.zero_add] at hk
      exact ⟨0, k, by omega, hk, by omega⟩
    · exact ⟨k, 0, hk, by omega, by omega⟩
  | succ m ih =>
    intro a b k h hk
    have e1 : 2 ^ (m + 1 + a) = 2 * 2 ^ (m + a) := by
      rw [show m + 1 + a = m + a + 1 by omega, Nat.pow_succ, Nat.mul_comm]
    have e2 : 2 ^ (m + 1 + b) = 2 * 2 ^ (m + b) := by
      rw [show m + 1 + b = m + b + 1 by omega, Nat.pow_succ, Nat.mul_comm]
    have e3 : 2 ^ (2 * (m + 1) + a + b) = 4 * 2 ^ (2 * m + a + b) := by
      rw [show 2 * (m + 1) + a + b = 2 * m + a + b + 2 by omega, Nat.pow_add, Nat.mul_comm]
    obtain ⟨x, y, hx, hy, e⟩ := ih a b (k / 4) h (by omega)
    refine ⟨2 * x + k / 2 % 2, 2 * y + k % 2, by omega, by omega, ?_⟩
    unfold twiddle
    rw [show (2 * x + k / 2 % 2) / 2 = x by omega, show (2 * y + k % 2) / 2 = y by omega, e]
    omega

/-! ## The code computes it -/

/-- The `2 m` low bits. -/
def twLow : Nat → Nat → Nat → Nat
  | 0, _, _ => 0
  | m + 1, x, y => twLow m x y + 4 ^ m * (y / 2 ^ m % 2 + 2 * (x / 2 ^ m % 2))

theorem twLow_lt : ∀ m x y, twLow m x y < 4 ^ m := by
  intro m
  induction m with
  | zero => intro x y; unfold twLow; decide
  | succ m ih =>
    intro x y
    have := ih x y
    unfold twLow
    have h2 : 4 ^ m * (y / 2 ^ m % 2 + 2 * (x / 2 ^ m % 2)) ≤ 4 ^ m * 3 :=
      Nat.mul_le_mul_left _ (by omega)
    rw [Nat.pow_succ]
    omega

theorem twLow_succ' : ∀ m x y,
    twLow (m + 1) x y = y % 2 + 2 * (x % 2) + 4 * twLow m (x / 2) (y / 2) := by
  intro m
  induction m with
  | zero => intro x y; simp [twLow]
  | succ m ih =>
    intro x y
    rw [twLow, ih, twLow]
    rw [Nat.div_div_eq_div_mul, Nat.div_div_eq_div_mul, show 2 * 2 ^ m = 2 ^ (m + 1) by
      rw [Nat.pow_succ, Nat.mul_comm], Nat.pow_succ 4 m]
    generalize (y / 2 ^ (m + 1) % 2 + 2 * (x / 2 ^ (m + 1) % 2)) = c
    rw [Nat.mul_right_comm]
    omega

theorem twiddle_eq_low : ∀ m x y, twiddle m x y = twLow m x y + 4 ^ m * (x / 2 ^ m + y / 2 ^ m) := by
  intro m
  induction m with
  | zero => intro x y; simp [twiddle, twLow]
  | succ m ih =>
    intro x y
    rw [twiddle, ih, twLow_succ', Nat.div_div_eq_div_mul, Nat.div_div_eq_div_mul,
      show 2 * 2 ^ m = 2 ^ (m + 1) by rw [Nat.pow_succ, Nat.mul_comm], Nat.pow_succ 4 m]
    generalize (x / 2 ^ (m + 1) + y / 2 ^ (m + 1)) = c
    rw [Nat.mul_right_comm]
    omega

theorem and_two_pow_eq (x j : Nat) : x &&& 2 ^ j = x / 2 ^ j % 2 * 2 ^ j := by
  have := and_mask_shift x 1 j
  simpa using this

variable [Build]

theorem mortonLoop_step {x y m j fuel : Nat} (hj : j < m) (hm : m ≤ 30) :
    mortonLoop x y (2 ^ m) (fuel + 1) (twLow j x y, j, 2 ^ j) =
      mortonLoop x y (2 ^ m) fuel (twLow (j + 1) x y, j + 1, 2 ^ (j + 1)) := by
  have hlt : 2 ^ j < 2 ^ m := Nat.pow_lt_pow_right (by omega) hj
  have h30 : 2 ^ j ≤ 2 ^ 30 := Nat.pow_le_pow_right (by omega) (by omega)
  have h60 : 4 ^ j ≤ 4 ^ 30 := Nat.pow_le_pow_right (by omega) (by omega)
  have e4 : (4 : Nat) ^ j = 2 ^ j * 2 ^ j := by rw [← Nat.mul_pow]
  have key : ((y &&& 2 ^ j) ||| (x &&& 2 ^ j) <<< 1 % 2 ^ 64) =
      2 ^ j * (y / 2 ^ j % 2 + 2 * (x / 2 ^ j % 2)) := by
    rw [and_two_pow_eq, and_two_pow_eq, shl_eq]
    have hx : x / 2 ^ j % 2 < 2 := Nat.mod_lt _ (by omega)
    have hy : y / 2 ^ j % 2 < 2 := Nat.mod_lt _ (by omega)
    generalize x / 2 ^ j % 2 = xb at *
    generalize y / 2 ^ j % 2 = yb at *
    have hxb : xb * 2 ^ j * 2 ^ 1 < 2 ^ 64 := by
      have : xb * 2 ^ j ≤ 1 * 2 ^ 30 := Nat.mul_le_mul (by omega) h30
      omega
    rw [Nat.mod_eq_of_lt hxb, Nat.mul_assoc, ← Nat.pow_add,
      or_mul xb (by
        have : yb * 2 ^ j ≤ 1 * 2 ^ j := Nat.mul_le_mul_right _ (by omega)
        have h0 := Nat.two_pow_pos j
        rw [Nat.pow_add]; omega), Nat.pow_add]
    rw [Nat.mul_add, Nat.mul_comm yb, Nat.pow_one,
      show xb * (2 ^ j * 2) = 2 ^ j * (2 * xb) by ac_rfl]
  conv => lhs; unfold mortonLoop
  rw [if_pos hlt, shlU_ok (by omega), Out.ok_bind, shlU_ok (by omega), Out.ok_bind,
    shlU_ok (by omega), Out.ok_bind, addU_ok (by omega), Out.ok_bind, key]
  have hc : y / 2 ^ j % 2 + 2 * (x / 2 ^ j % 2) ≤ 3 := by omega
  have e1 : (2 ^ j * (y / 2 ^ j % 2 + 2 * (x / 2 ^ j % 2))) <<< j % 2 ^ 64 =
      4 ^ j * (y / 2 ^ j % 2 + 2 * (x / 2 ^ j % 2)) := by
    rw [shl_eq, Nat.mul_right_comm, ← e4, Nat.mod_eq_of_lt]
    have := Nat.mul_le_mul h60 hc
    omega
  have e2 : 2 ^ j <<< 1 % 2 ^ 64 = 2 ^ (j + 1) := by
    rw [shl_eq, Nat.pow_one, Nat.mod_eq_of_lt (by omega), Nat.pow_succ]
  rw [e1, e2]
  have e3 : (twLow j x y ||| 4 ^ j * (y / 2 ^ j % 2 + 2 * (x / 2 ^ j % 2))) =
      twLow (j + 1) x y := by
    have := twLow_lt j x y
    rw [show (4 : Nat) ^ j = 2 ^ (2 * j) by rw [Nat.pow_mul]] at *
    rw [Nat.mul_comm, or_mul _ this, twLow, Nat.mul_comm, show (4 : Nat) ^ j = 2 ^ (2 * j) by
      rw [Nat.pow_mul]]
  rw [e3]

theorem mortonLoop_eq {x y m : Nat} (hm : m ≤ 30) : ∀ d j fuel, j + d = m → d < fuel →
    mortonLoop x y (2 ^ m) fuel (twLow j x y, j, 2 ^ j) = .ok (twLow m x y, m, 2 ^ m) := by
  intro d
  induction d with
  | zero =>
    intro j fuel hj hf
    obtain ⟨f, rfl⟩ : ∃ f, fuel = f + 1 := ⟨fuel - 1, by omega⟩
    have : j = m := by omega
    subst this
    unfold mortonLoop
    rw [if_neg (Nat.lt_irrefl _)]; rfl
  | succ d ih =>
    intro j fuel hj hf
    obtain ⟨f, rfl⟩ : ∃ f, fuel = f + 1 := ⟨fuel - 1, by omega⟩
    rw [mortonLoop_step (by omega) hm]
    exact ih (j + 1) f (by omega) (by omega)

theorem mortonIndex_eq {x y m : Nat} (hm : m ≤ 30) (h : x < 2 ^ m ∨ y < 2 ^ m)
    (hlt : twiddle m x y < 2 ^ 64) :
    mortonIndex x y (2 ^ m) = .ok (twiddle m x y) := by
  unfold mortonIndex
  have hl := mortonLoop_eq (x := x) (y := y) hm m 0 64 (by omega) (by omega)
  have hz : twLow 0 x y = 0 := rfl
  rw [hz, Nat.pow_zero] at hl
  rw [hl, Out.ok_bind]
  simp only
  rw [shrU_ok (by omega), Out.ok_bind, mulU_ok (by omega), Out.ok_bind, shlU_ok (by omega),
    Out.ok_bind]
  rw [twiddle_eq_low] at *
  have e4 : (4 : Nat) ^ m = 2 ^ (m * 2) := by rw [Nat.mul_comm, Nat.pow_mul]
  have e : (x ||| y) >>> m = x / 2 ^ m + y / 2 ^ m := by
    rw [Nat.shiftRight_or_distrib, shr_eq, shr_eq]
    rcases h with h | h
    · rw [Nat.div_eq_of_lt h, Nat.zero_or, Nat.zero_add]
    · rw [Nat.div_eq_of_lt h, Nat.or_zero, Nat.add_zero]
  have hlow := twLow_lt m x y
  rw [e, shl_eq]
  generalize twLow m x y = L at *
  generalize (x / 2 ^ m + y / 2 ^ m) = c at *
  rw [e4] at hlow hlt ⊢
  rw [Nat.mul_comm _ c] at hlt ⊢
  rw [Nat.mod_eq_of_lt (by omega), Out.pure_eq, or_mul _ hlow]

end Verif.Proofs.Pvrtc
