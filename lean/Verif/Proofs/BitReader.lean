import Verif.Model.BitReader
import Verif.Proofs.Blocks

/-! # The bit readers return slices of the little-endian bit stream -/

namespace Verif.Proofs

open Verif Verif.Model

theorem mod_div_mod {S p n m : Nat} (h : p + n ≤ m) :
    S % 2 ^ m / 2 ^ p % 2 ^ n = S / 2 ^ p % 2 ^ n := by
  rw [show m = p + (m - p) by omega, Nat.pow_add, Nat.mod_mul_right_div_self,
    Nat.mod_mod_of_dvd _ (Nat.pow_dvd_pow 2 (by omega))]

theorem leNat_append (a b : List UInt8) :
    Spec.leNat (a ++ b) = Spec.leNat a + 2 ^ (8 * a.length) * Spec.leNat b := by
  induction a with
  | nil => simp [Spec.leNat]
  | cons x xs ih =>
    simp only [List.cons_append, Spec.leNat, ih, List.length_cons]
    rw [show 8 * (xs.length + 1) = 8 + 8 * xs.length by omega, Nat.pow_add, Nat.mul_assoc]
    omega

variable [Build]

/-- The four bytes fetched for a field contain it at its bit offset within the first byte. -/
theorem getbitsRaw_ok {data : List UInt8} {pos n : Nat} (h : pos + n ≤ 8 * data.length)
    (hn : pos % 8 + n ≤ 32) (h64 : pos + n < 2 ^ 64) :
    ∃ raw, getbitsRaw data pos n [0, 0, 0, 0] = .ok raw ∧ Spec.leNat raw < 2 ^ 32 ∧
      Spec.leNat raw / 2 ^ (pos % 8) % 2 ^ n = Spec.leNat data / 2 ^ pos % 2 ^ n ∧
      (n = 0 ∧ pos % 8 = 0 → Spec.leNat raw = 0) ∧ raw.length = 4 := by
  have hsub : (pos + n + 8 - 1) / 8 - pos / 8 ≤ 4 := by omega
  generalize hA : pos / 8 = A at *
  generalize hE : (pos + n + 8 - 1) / 8 = E at *
  have hAE : A ≤ E := by omega
  have hlen : ((data.drop A).take (E - A)).length = E - A := by simp; omega
  have hz : Spec.leNat ([0, 0, 0, 0].drop (E - A) : List UInt8) = 0 := by
    rw [leNat_drop]; simp [Spec.leNat]
  refine ⟨[].take 0 ++ (data.drop A).take (E - A) ++ [0, 0, 0, 0].drop (E - A), ?_, ?_, ?_, ?_, ?_⟩
  · unfold getbitsRaw
    rw [addU_ok h64, Out.ok_bind, divCeil_ok (by omega), Out.ok_bind, hE, hA, subU_ok hAE,
      Out.ok_bind, slice_ok hAE (by omega), Out.ok_bind,
      copyFromSlice_ok (by omega) (by simp; omega) (by rw [hlen]; rfl)]
    rfl
  all_goals simp only [List.take_nil, List.nil_append]
  · have := leNat_lt ((data.drop A).take (E - A) ++ [0, 0, 0, 0].drop (E - A))
    have hl : ((data.drop A).take (E - A) ++ [0, 0, 0, 0].drop (E - A)).length = 4 := by
      rw [List.length_append, hlen]; simp; omega
    rw [hl] at this; exact this
  · rw [leNat_append, hz, Nat.mul_zero, Nat.add_zero, leNat_take, leNat_drop,
      mod_div_mod (by omega), Nat.div_div_eq_div_mul, ← Nat.pow_add]
    congr 3; omega
  · intro ⟨h1, h2⟩
    rw [leNat_append, hz, leNat_take, show E - A = 0 by omega]
    simp [Nat.mod_one]
  · rw [List.length_append, hlen]; simp; omega

theorem peek_ok {data : List UInt8} {pos off n : Nat} (h : pos + off + n ≤ 8 * data.length)
    (hn : n ≤ 15) (h64 : pos + off + n < 2 ^ 64) :
    peek data pos off n = .ok (Spec.leNat data / 2 ^ (pos + off) % 2 ^ n) := by
  obtain ⟨raw, e, hlt, hv, _⟩ := getbitsRaw_ok (data := data) (pos := pos + off) (n := n) h
    (by omega) h64
  have h2n : 2 ^ n ≤ 2 ^ 15 := Nat.pow_le_pow_right (by omega) hn
  have h1 : 1 ≤ 2 ^ n := Nat.two_pow_pos n
  unfold peek
  rw [addU_ok (by omega), Out.ok_bind]
  simp only [and_7]
  rw [e, Out.ok_bind, shrU_ok (by omega), Out.ok_bind]
  rw [show asU 16 n = n from Nat.mod_eq_of_lt (by omega), shlU_ok (by omega), Out.ok_bind,
    shl_eq, Nat.one_mul, Nat.mod_eq_of_lt (a := 2 ^ n) (by omega), subU_ok h1, Out.ok_bind,
    Out.pure_eq, and_mask, fromLE_bytesOf, shr_eq]
  unfold asU
  rw [Nat.mod_mod_of_dvd _ (Nat.pow_dvd_pow 2 (by omega)), hv]

theorem readBits_ok {data : List UInt8} {pos n : Nat} (h : pos + n ≤ 8 * data.length)
    (hn : n ≤ 15) (h64 : pos + n < 2 ^ 64) :
    readBits data pos n = .ok (Spec.leNat data / 2 ^ pos % 2 ^ n, pos + n) := by
  unfold readBits
  rw [peek_ok (by omega) hn (by omega), Out.ok_bind, addU_ok h64, Out.ok_bind]
  rfl

/-- Reads within a 16-byte block, as fields of that block. -/
theorem peek16 {data : List UInt8} {pos off n : Nat} (hd : 16 ≤ data.length)
    (h : pos + off + n ≤ 128) (hn : n ≤ 15) :
    peek data pos off n = .ok (Spec.field (data.take 16) (pos + off) n) := by
  rw [peek_ok (by omega) hn (by omega), field_take (by omega)]

theorem readBits16 {data : List UInt8} {pos n : Nat} (hd : 16 ≤ data.length)
    (h : pos + n ≤ 128) (hn : n ≤ 15) :
    readBits data pos n = .ok (Spec.field (data.take 16) pos n, pos + n) := by
  rw [readBits_ok (by omega) hn (by omega), field_take (by omega)]

omit [Build] in
theorem asI_32 {v : Nat} (h : v < 2 ^ 32) :
    asI 32 v = if v < 2 ^ 31 then (v : Int) else (v : Int) - 2 ^ 32 := by
  unfold asI
  rw [Int.bmod_def]
  split <;> split <;> omega

omit [Build] in
/-- Masking after an arithmetic shift ignores the sign. -/
theorem andI_shift {v s n : Nat} (h : v < 2 ^ 32) (hs : s + n ≤ 32) (hn : n ≤ 30) :
    andI 32 (asI 32 v / 2 ^ s) (2 ^ n - 1) = ((v / 2 ^ s % 2 ^ n : Nat) : Int) := by
  have h2n : 2 ^ n ≤ 2 ^ 30 := Nat.pow_le_pow_right (by omega) hn
  have hpos := Nat.two_pow_pos n
  have em : asUI 32 ((2 : Int) ^ n - 1) = 2 ^ n - 1 := by
    unfold asUI
    have : ((2 : Int) ^ n - 1) = ((2 ^ n - 1 : Nat) : Int) := by
      rw [Int.natCast_sub hpos]; simp
    rw [this]
    omega
  have ex : asUI 32 (asI 32 v / 2 ^ s) % 2 ^ n = v / 2 ^ s % 2 ^ n := by
    have hc : ∃ c : Int, asI 32 v = (v : Int) + (c * 2 ^ (32 - s)) * 2 ^ s := by
      rw [asI_32 h]
      have : (2 : Int) ^ (32 - s) * 2 ^ s = 2 ^ 32 := by
        rw [← Int.pow_add]; congr 1; omega
      split
      · exact ⟨0, by simp⟩
      · exact ⟨-1, by rw [Int.mul_assoc, this]; omega⟩
    obtain ⟨c, hc⟩ := hc
    have hs0 : (2 : Int) ^ s ≠ 0 := by
      have := Nat.two_pow_pos s
      have e : (2 : Int) ^ s = ((2 ^ s : Nat) : Int) := by simp
      rw [e]; omega
    apply Int.ofNat_inj.mp
    unfold asUI
    have hnn : 0 ≤ (asI 32 v / 2 ^ s) % 2 ^ 32 := Int.emod_nonneg _ (by decide)
    rw [Int.natCast_emod, Int.toNat_of_nonneg hnn, Int.natCast_emod, Int.natCast_ediv]
    simp only [Int.natCast_pow, Int.cast_ofNat_Int]
    rw [Int.emod_emod_of_dvd _ (show (2 : Int) ^ n ∣ 2 ^ 32 from
      ⟨2 ^ (32 - n), by rw [← Int.pow_add, show n + (32 - n) = 32 by omega]⟩), hc, Int.add_mul_ediv_right _ _ hs0,
      show (c * 2 ^ (32 - s) : Int) = (c * 2 ^ (32 - s - n)) * 2 ^ n by
        rw [Int.mul_assoc, ← Int.pow_add, show 32 - s - n + n = 32 - s by omega], Int.add_mul_emod_self_right]
  unfold andI
  rw [em, and_mask, ex]
  have hlt := Nat.mod_lt (v / 2 ^ s) hpos
  rw [asI_32 (by omega), if_pos (by omega)]

theorem getbits_ok {data : List UInt8} {pos n : Nat} (h : pos + n ≤ 8 * data.length)
    (hn : pos % 8 + n ≤ 32) (hn30 : n ≤ 30) (h64 : pos + n < 2 ^ 64) :
    getbits data pos n = .ok ((Spec.leNat data / 2 ^ pos % 2 ^ n : Nat) : Int) := by
  obtain ⟨raw, e, hlt, hv, _⟩ := getbitsRaw_ok h hn h64
  have h2n : 2 ^ n ≤ 2 ^ 30 := Nat.pow_le_pow_right (by omega) hn30
  have hpos := Nat.two_pow_pos n
  unfold getbits
  simp only
  rw [e, Out.ok_bind]
  unfold shrI
  rw [if_pos (by omega), Out.ok_bind]
  unfold shlI
  have e1 : (1 * (2 : Int) ^ n).bmod (2 ^ 32) = 2 ^ n := by
    have : (1 * (2 : Int) ^ n) = ((2 ^ n : Nat) : Int) := by simp
    rw [this, Int.bmod_def]
    simp only [Int.natCast_pow, Int.cast_ofNat_Int]
    have e : (2 : Int) ^ n = ((2 ^ n : Nat) : Int) := by simp
    rw [e]
    split <;> omega
  rw [if_pos (by omega), Out.ok_bind, e1]
  unfold subI
  rw [fitI_ok, Out.ok_bind, Out.pure_eq, fromLE_bytesOf, andI_shift hlt (by omega) hn30, hv]
  have e : (2 : Int) ^ n = ((2 ^ n : Nat) : Int) := by simp
  unfold InI
  rw [e]
  constructor <;> omega

omit [Build] in
theorem leNat_slice (data : List UInt8) (a b : Nat) :
    Spec.leNat ((data.drop a).take b) = Spec.leNat data / 2 ^ (8 * a) % 2 ^ (8 * b) := by
  rw [leNat_take, leNat_drop]

/-- Wide reads inside a 16-byte block (bits beyond the block read as 0). -/
theorem getbits64_ok {data : List UInt8} (hd : 16 ≤ data.length) {pos n : Nat} (hp : pos < 128)
    (hn : n ≤ 64) :
    getbits64 data (pos : Int) n = .ok (Spec.field (data.take 16) pos n) := by
  unfold getbits64 Spec.field
  have hmask : (if n = 64 then pure 0xffffffffffffffff else do
      let one ← shlU 64 1 n
      subU 64 one 1) = Out.ok (2 ^ n - 1) := by
    split
    · next h => subst h; rfl
    · next h =>
      have h2n : 2 ^ n ≤ 2 ^ 63 := Nat.pow_le_pow_right (by omega) (by omega)
      have hpos := Nat.two_pow_pos n
      rw [shlU_ok (by omega), Out.ok_bind, shl_eq, Nat.one_mul, Nat.mod_eq_of_lt (by omega),
        subU_ok hpos]
  rw [hmask, Out.ok_bind, leNat_take]
  generalize hS : Spec.leNat data = S
  by_cases h0 : n = 0
  · subst h0; simp [Nat.mod_one]
  rw [if_neg h0]
  have hlo : Spec.leNat ((data.drop 0).take (8 - 0)) = S % 2 ^ 64 := by
    rw [leNat_slice, hS]; simp
  have hhi : Spec.leNat ((data.drop 8).take (16 - 8)) = S / 2 ^ 64 % 2 ^ 64 := by
    rw [leNat_slice, hS]
  by_cases h64 : (pos : Int) ≥ 64
  · rw [if_pos h64, slice_ok (by omega) (by omega), Out.ok_bind]
    unfold subI
    rw [fitI_ok (by unfold InI; constructor <;> omega), Out.ok_bind, shrU_ok (by omega), Out.ok_bind,
      Out.pure_eq, and_mask, fromLE_bytesOf, hhi, shr_eq]
    congr 1
    have hk : ((pos : Int) - 64).toNat = pos - 64 := by omega
    rw [hk]
    have : S / 2 ^ 64 % 2 ^ 64 = S % 2 ^ (8 * 16) / 2 ^ 64 := by
      rw [show 2 ^ (8 * 16) = 2 ^ 64 * 2 ^ 64 by decide, Nat.mod_mul_right_div_self]
    rw [this, Nat.div_div_eq_div_mul, ← Nat.pow_add, show 64 + (pos - 64) = pos by omega]
  · rw [if_neg h64]
    by_cases hz : (pos : Int) ≤ 0
    · have : pos = 0 := by omega
      subst this
      rw [if_pos hz, slice_ok (by omega) (by omega), Out.ok_bind]
      have e : ((2 ^ 64 - asUI 64 (((0 : Nat) : Int))) % 2 ^ 64) = 0 := by decide
      rw [e, shlU_ok (by omega), Out.ok_bind, Out.pure_eq, and_mask, fromLE_bytesOf, hlo, shl_eq]
      congr 1
      simp only [Nat.pow_zero, Nat.mul_one, Nat.div_one]
      rw [Nat.mod_mod, Nat.mod_mod_of_dvd _ (Nat.pow_dvd_pow 2 hn),
        Nat.mod_mod_of_dvd _ (Nat.pow_dvd_pow 2 (by omega))]
    · rw [if_neg hz]
      have hpu : asUI 64 (pos : Int) = pos := by unfold asUI; omega
      rw [hpu, addU_ok (by omega), Out.ok_bind]
      by_cases hle : pos + n ≤ 64
      · rw [if_pos hle, slice_ok (by omega) (by omega), Out.ok_bind, shrU_ok (by omega), Out.ok_bind,
          Out.pure_eq, and_mask, fromLE_bytesOf, hlo, shr_eq, Int.toNat_natCast,
          mod_div_mod hle, mod_div_mod (by omega)]
      · rw [if_neg hle, slice_ok (by omega) (by omega), Out.ok_bind, shrU_ok (by omega), Out.ok_bind,
          slice_ok (by omega) (by omega), Out.ok_bind]
        unfold subI
        have hk : ((64 : Int) - pos).toNat = 64 - pos := by omega
        rw [fitI_ok (by unfold InI; constructor <;> omega), Out.ok_bind, shlU_ok (by omega),
          Out.ok_bind, Out.pure_eq, and_mask, fromLE_bytesOf, fromLE_bytesOf, hlo, hhi, shr_eq,
          shl_eq, Int.toNat_natCast, hk]
        congr 1
        -- both sides as sums
        have hdiv : S % 2 ^ (8 * 16) = S % 2 ^ 64 + 2 ^ 64 * (S / 2 ^ 64 % 2 ^ 64) := by
          rw [show 2 ^ (8 * 16) = 2 ^ 64 * 2 ^ 64 by decide, Nat.mod_mul]
        have hlolt : S % 2 ^ 64 < 2 ^ 64 := Nat.mod_lt _ (Nat.two_pow_pos 64)
        rw [hdiv]
        generalize S % 2 ^ 64 = lo at *
        generalize S / 2 ^ 64 % 2 ^ 64 = hi at *
        obtain ⟨k, hk64⟩ : ∃ k, pos + k = 64 := ⟨64 - pos, by omega⟩
        obtain ⟨j, hj⟩ : ∃ j, n = k + j := ⟨n - k, by omega⟩
        have e64 : 2 ^ 64 = 2 ^ pos * 2 ^ k := by rw [← Nat.pow_add, hk64]
        have hl : lo / 2 ^ pos < 2 ^ k := by
          rw [e64] at hlolt; exact Nat.div_lt_of_lt_mul hlolt
        rw [show 64 - pos = k by omega, Nat.mod_mod_of_dvd _ (Nat.pow_dvd_pow 2 hn), hj, Nat.pow_add,
          Nat.mul_comm hi, Nat.mul_mod_mul_left, Nat.mul_comm (2 ^ k) (hi % 2 ^ j), or_mul _ hl,
          e64, Nat.mul_assoc, Nat.add_mul_div_left _ _ (Nat.two_pow_pos pos), Nat.mod_mul,
          Nat.add_mul_mod_self_left, Nat.mod_eq_of_lt hl, Nat.add_mul_div_left _ _ (Nat.two_pow_pos k),
          Nat.div_eq_of_lt hl, Nat.zero_add, Nat.mul_comm (2 ^ k)]

end Verif.Proofs
