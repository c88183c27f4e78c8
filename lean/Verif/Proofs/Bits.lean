import Verif.Rust

/-! # Bit-field arithmetic and the stepping machinery used by the proofs -/

namespace Verif

/-- Congruence rule for stepping through a computation: simplify the first action only. -/
theorem Out.bind_congr_left {α β : Type} {x y : Out α} (h : x = y) (f : α → Out β) :
    (x >>= f) = (y >>= f) := by rw [h]

namespace Proofs

theorem and_mask (x n : Nat) : x &&& (2 ^ n - 1) = x % 2 ^ n := Nat.and_two_pow_sub_one_eq_mod x n

theorem and_mask_shift (x n k : Nat) :
    x &&& ((2 ^ n - 1) * 2 ^ k) = x / 2 ^ k % 2 ^ n * 2 ^ k := by
  rw [← Nat.shiftLeft_eq, ← Nat.shiftLeft_eq, ← Nat.shiftRight_eq_div_pow]
  apply Nat.eq_of_testBit_eq
  intro i
  simp only [Nat.testBit_and, Nat.testBit_shiftLeft, Nat.testBit_mod_two_pow,
    Nat.testBit_two_pow_sub_one, Nat.testBit_shiftRight]
  by_cases h : k ≤ i
  · simp [h, Nat.add_sub_cancel' h, Bool.and_comm]
  · simp [h]

theorem mul_or {b k : Nat} (a : Nat) (h : b < 2 ^ k) : a * 2 ^ k ||| b = a * 2 ^ k + b := by
  rw [Nat.mul_comm, Nat.two_pow_add_eq_or_of_lt h]

theorem or_mul {b k : Nat} (a : Nat) (h : b < 2 ^ k) : b ||| a * 2 ^ k = b + a * 2 ^ k := by
  rw [Nat.or_comm, mul_or a h, Nat.add_comm]

theorem and_1 (x : Nat) : x &&& 1 = x % 2 := and_mask x 1
theorem and_3 (x : Nat) : x &&& 3 = x % 4 := and_mask x 2
theorem and_7 (x : Nat) : x &&& 7 = x % 8 := and_mask x 3
theorem and_15 (x : Nat) : x &&& 15 = x % 16 := and_mask x 4
theorem and_31 (x : Nat) : x &&& 31 = x % 32 := and_mask x 5
theorem and_63 (x : Nat) : x &&& 63 = x % 64 := and_mask x 6
theorem and_127 (x : Nat) : x &&& 127 = x % 128 := and_mask x 7
theorem and_255 (x : Nat) : x &&& 255 = x % 256 := and_mask x 8

theorem shr_eq (x k : Nat) : x >>> k = x / 2 ^ k := Nat.shiftRight_eq_div_pow x k
theorem shl_eq (x k : Nat) : x <<< k = x * 2 ^ k := Nat.shiftLeft_eq x k

theorem and_f8 (x : Nat) : x &&& 0xf8 = x / 8 % 32 * 8 := and_mask_shift x 5 3
theorem and_fc (x : Nat) : x &&& 0xfc = x / 4 % 64 * 4 := and_mask_shift x 6 2

end Proofs
end Verif
