import Verif.Model.Astc
import Verif.Proofs.Bits
import Verif.Proofs.BitReader
import Verif.Proofs.Etc

/-! # `i32` operations on small non-negative values -/

namespace Verif.Proofs.Astc

open Verif Verif.Model Verif.Proofs

theorem asUI_nat {w a : Nat} (h : a < 2 ^ w) : asUI w (a : Int) = a := by
  unfold asUI
  rw [show ((2 : Int) ^ w) = ((2 ^ w : Nat) : Int) by simp, ← Int.natCast_emod,
    Nat.mod_eq_of_lt h, Int.toNat_natCast]

theorem asI_nat {a : Nat} (h : a < 2 ^ 31) : asI 32 a = (a : Int) := by
  rw [asI_32 (by omega), if_pos h]

theorem andI_nat {a b : Nat} (ha : a < 2 ^ 31) (hb : b < 2 ^ 31) :
    andI 32 (a : Int) (b : Int) = ((a &&& b : Nat) : Int) := by
  unfold andI
  rw [asUI_nat (by omega), asUI_nat (by omega), asI_nat]
  exact Nat.and_lt_two_pow a hb

theorem orI_nat {a b : Nat} (ha : a < 2 ^ 31) (hb : b < 2 ^ 31) :
    orI 32 (a : Int) (b : Int) = ((a ||| b : Nat) : Int) := by
  unfold orI
  rw [asUI_nat (by omega), asUI_nat (by omega), asI_nat (Nat.or_lt_two_pow ha hb)]

theorem xorI_nat {a b : Nat} (ha : a < 2 ^ 31) (hb : b < 2 ^ 31) :
    xorI 32 (a : Int) (b : Int) = ((a ^^^ b : Nat) : Int) := by
  unfold xorI
  rw [asUI_nat (by omega), asUI_nat (by omega), asI_nat (Nat.xor_lt_two_pow ha hb)]

theorem shr32_nat (a k : Nat) : shr32 (a : Int) k = ((a / 2 ^ k : Nat) : Int) := by
  unfold shr32
  simp

theorem bmod_small {v : Int} (h : -2 ^ 31 ≤ v) (h' : v < 2 ^ 31) : v.bmod (2 ^ 32) = v := by
  rw [Int.bmod_def]
  split <;> omega

theorem shl32_eq {a : Int} {k : Nat} (h : -2 ^ 31 ≤ a * 2 ^ k) (h' : a * 2 ^ k < 2 ^ 31) :
    shl32 a k = a * 2 ^ k := bmod_small h h'

theorem shl32_nat {a k : Nat} (h : a * 2 ^ k < 2 ^ 31) :
    shl32 (a : Int) k = ((a * 2 ^ k : Nat) : Int) := by
  have e : (a : Int) * 2 ^ k = ((a * 2 ^ k : Nat) : Int) := by simp
  rw [shl32_eq (by rw [e]; omega) (by rw [e]; omega), e]

variable [Build]

theorem shlS_nat {a k : Nat} (hk : k < 32) (h : a * 2 ^ k < 2 ^ 31) :
    shlS (a : Int) (k : Int) = .ok ((a * 2 ^ k : Nat) : Int) := by
  unfold shlS
  rw [if_pos (by omega), Int.toNat_natCast, shl32_nat h]

theorem shrS_nat {a k : Nat} (hk : k < 32) : shrS (a : Int) (k : Int) = .ok ((a / 2 ^ k : Nat) : Int) := by
  unfold shrS
  rw [if_pos (by omega), Int.toNat_natCast, shr32_nat]

theorem addI_nat {a b : Nat} (h : a + b < 2 ^ 31) : addI 32 (a : Int) (b : Int) = .ok ((a + b : Nat) : Int) := by
  rw [addI32_ok (by omega) (by omega)]; simp

theorem mulI_nat {a b : Nat} (h : a * b < 2 ^ 31) : mulI 32 (a : Int) (b : Int) = .ok ((a * b : Nat) : Int) := by
  have e : (a : Int) * b = ((a * b : Nat) : Int) := by simp
  rw [mulI32_ok (by rw [e]; omega) (by rw [e]; omega), e]

theorem subI_nat {a b : Nat} (ha : a < 2 ^ 31) (h : b ≤ a) :
    subI 32 (a : Int) (b : Int) = .ok ((a - b : Nat) : Int) := by
  rw [subI32_ok (by omega) (by omega), Int.natCast_sub h]

omit [Build] in
theorem clampI_eq (hi : Nat) (x : Int) : clampI 0 hi x = ((min x.toNat hi : Nat) : Int) := by
  unfold clampI
  split
  · omega
  · split <;> omega

end Verif.Proofs.Astc
