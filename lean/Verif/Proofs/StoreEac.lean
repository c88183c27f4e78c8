import Verif.Proofs.StoreEacTable

/-! # Proofs: flat EAC blocks -/

namespace Verif.Proofs.Store.Eac

open Verif Verif.Spec

theorem mul_mult11 (blk : List UInt8) : mul (Etc.bits blk 55 52) = Etc.mult11 blk := by
  unfold mul Etc.mult11
  by_cases h : Etc.bits blk 55 52 = 0
  · rw [if_pos h, h]; rfl
  · rw [if_neg h]
    cases hb : Nat.beq (Etc.bits blk 55 52) 0
    · rfl
    · exact absurd (Nat.eq_of_beq_eq_true hb) h

theorem cap_eq (n : Nat) : cap n = min 2047 n / 8 := by
  unfold cap
  by_cases h : n ≤ 2047
  · rw [Nat.ble_eq_true_of_le h, Nat.min_eq_right h]; rfl
  · have e : Nat.ble n 2047 = false := by
      cases hb : Nat.ble n 2047
      · rfl
      · exact absurd (Nat.le_of_ble_eq_true hb) h
    rw [e, Nat.min_eq_left (by omega)]; rfl

theorem eac8_level (signed : Bool) (blk : List UInt8) {k : Nat} (hk : k < 8) :
    Etc.eac8 signed blk k =
      level signed (Etc.bits blk 63 56) (mul (Etc.bits blk 55 52)) (shifted (Etc.bits blk 51 48) k) := by
  have ht : Etc.bits blk 51 48 < 16 := Nat.mod_lt _ (by decide)
  have hb : Etc.bits blk 63 56 < 256 := Nat.mod_lt _ (by decide)
  obtain ⟨h1, h2⟩ := shifted_table ⟨_, ht⟩ ⟨k, hk⟩
  simp only at h1 h2
  rw [mul_mult11]
  unfold Etc.eac8 level Etc.eac11 Etc.eac11s
  rw [h1, Int.mul_sub]
  generalize Etc.mult11 blk = m
  generalize shifted _ k = s at *
  generalize Etc.bits blk 63 56 = b at *
  have hp : (m : Int) * (s : Int) = ((m * s : Nat) : Int) := by simp
  rw [hp]
  generalize m * s = q
  cases signed
  · simp only [cond_false, cap_eq, Bool.false_eq_true, if_false]
    omega
  · simp only [cond_true, cap_eq, if_true]
    unfold Etc.signed8
    split <;> omega

theorem eac8_lt (signed : Bool) (blk : List UInt8) (k : Nat) : Etc.eac8 signed blk k < 256 := by
  unfold Etc.eac8 Etc.eac11 Etc.eac11s
  split <;> omega

theorem eacIndexLE_lt (blk : List UInt8) (i : Nat) : Etc.eacIndexLE blk i < 8 := Nat.mod_lt _ (by decide)

attribute [local irreducible] shifted level mul

theorem fineFor_spec {signed : Bool} {base mult t m v : Nat} (h : fineFor signed base mult t m v = true)
    (h1 : level signed base m (shifted t (base / 8 % 8)) = v)
    (h2 : level signed base m (shifted t (base / 64 + 4 * (t % 2))) = v)
    (h3 : level signed base m (shifted t (t / 2)) = v)
    (h4 : level signed base m (shifted t (mult % 8)) = v)
    {f : Nat} (hf : f < 4) (h5 : level signed base m (shifted t (mult / 8 + 2 * f)) = v) :
    v ∈ Etc.levels signed := by
  unfold fineFor at h
  have hr : Nat.beq v v = true := Nat.beq_refl v
  rw [h1, h2, h3, h4, hr] at h
  simp only [cond_true] at h
  have : (Nat.beq (level signed base m (shifted t (mult / 8))) v ||
            Nat.beq (level signed base m (shifted t (mult / 8 + 2))) v ||
            Nat.beq (level signed base m (shifted t (mult / 8 + 4))) v ||
            Nat.beq (level signed base m (shifted t (mult / 8 + 6))) v) = true := by
    rcases (by omega : f = 0 ∨ f = 1 ∨ f = 2 ∨ f = 3) with rfl | rfl | rfl | rfl
    · rw [Nat.mul_zero, Nat.add_zero] at h5
      rw [h5, hr, Bool.true_or, Bool.true_or, Bool.true_or]
    · rw [Nat.mul_one] at h5
      rw [h5, hr, Bool.or_true, Bool.true_or, Bool.true_or]
    · rw [h5, hr, Bool.or_true, Bool.true_or]
    · rw [h5, hr, Bool.or_true]
  rw [this, cond_true] at h
  exact List.contains_iff_mem.mp h

section
variable (b0 b1 b2 b3 b4 b5 b6 b7 : UInt8)

theorem byte0 : Etc.bits [b0, b1, b2, b3, b4, b5, b6, b7] 63 56 = b0.toNat := by
  have r0 := b0.toNat_lt
  have r1 := b1.toNat_lt
  have r2 := b2.toNat_lt
  have r3 := b3.toNat_lt
  have r4 := b4.toNat_lt
  have r5 := b5.toNat_lt
  have r6 := b6.toNat_lt
  have r7 := b7.toNat_lt
  simp only [Etc.bits, beNat, List.reverse_cons, List.reverse_nil, List.nil_append, List.cons_append, leNat]
  omega

theorem nibble1 : Etc.bits [b0, b1, b2, b3, b4, b5, b6, b7] 55 52 = b1.toNat / 16 := by
  have r0 := b0.toNat_lt
  have r1 := b1.toNat_lt
  have r2 := b2.toNat_lt
  have r3 := b3.toNat_lt
  have r4 := b4.toNat_lt
  have r5 := b5.toNat_lt
  have r6 := b6.toNat_lt
  have r7 := b7.toNat_lt
  simp only [Etc.bits, beNat, List.reverse_cons, List.reverse_nil, List.nil_append, List.cons_append, leNat]
  omega

theorem nibble2 : Etc.bits [b0, b1, b2, b3, b4, b5, b6, b7] 51 48 = b1.toNat % 16 := by
  have r0 := b0.toNat_lt
  have r1 := b1.toNat_lt
  have r2 := b2.toNat_lt
  have r3 := b3.toNat_lt
  have r4 := b4.toNat_lt
  have r5 := b5.toNat_lt
  have r6 := b6.toNat_lt
  have r7 := b7.toNat_lt
  simp only [Etc.bits, beNat, List.reverse_cons, List.reverse_nil, List.nil_append, List.cons_append, leNat]
  omega

theorem index15 : Etc.eacIndexLE [b0, b1, b2, b3, b4, b5, b6, b7] 15 = b0.toNat % 8 := by
  have r0 := b0.toNat_lt
  have r1 := b1.toNat_lt
  have r2 := b2.toNat_lt
  have r3 := b3.toNat_lt
  have r4 := b4.toNat_lt
  have r5 := b5.toNat_lt
  have r6 := b6.toNat_lt
  have r7 := b7.toNat_lt
  unfold Etc.eacIndexLE field
  rw [show 45 - 3 * Etc.order 15 = 0 from rfl]
  simp only [leNat]
  omega

theorem index14 : Etc.eacIndexLE [b0, b1, b2, b3, b4, b5, b6, b7] 11 = b0.toNat / 8 % 8 := by
  have r0 := b0.toNat_lt
  have r1 := b1.toNat_lt
  have r2 := b2.toNat_lt
  have r3 := b3.toNat_lt
  have r4 := b4.toNat_lt
  have r5 := b5.toNat_lt
  have r6 := b6.toNat_lt
  have r7 := b7.toNat_lt
  unfold Etc.eacIndexLE field
  rw [show 45 - 3 * Etc.order 11 = 3 from rfl]
  simp only [leNat]
  omega

theorem index13 : Etc.eacIndexLE [b0, b1, b2, b3, b4, b5, b6, b7] 7 = b0.toNat / 64 + 4 * (b1.toNat % 16 % 2) := by
  have r0 := b0.toNat_lt
  have r1 := b1.toNat_lt
  have r2 := b2.toNat_lt
  have r3 := b3.toNat_lt
  have r4 := b4.toNat_lt
  have r5 := b5.toNat_lt
  have r6 := b6.toNat_lt
  have r7 := b7.toNat_lt
  unfold Etc.eacIndexLE field
  rw [show 45 - 3 * Etc.order 7 = 6 from rfl]
  simp only [leNat]
  omega

theorem index12 : Etc.eacIndexLE [b0, b1, b2, b3, b4, b5, b6, b7] 3 = b1.toNat % 16 / 2 := by
  have r0 := b0.toNat_lt
  have r1 := b1.toNat_lt
  have r2 := b2.toNat_lt
  have r3 := b3.toNat_lt
  have r4 := b4.toNat_lt
  have r5 := b5.toNat_lt
  have r6 := b6.toNat_lt
  have r7 := b7.toNat_lt
  unfold Etc.eacIndexLE field
  rw [show 45 - 3 * Etc.order 3 = 9 from rfl]
  simp only [leNat]
  omega

theorem index11 : Etc.eacIndexLE [b0, b1, b2, b3, b4, b5, b6, b7] 14 = b1.toNat / 16 % 8 := by
  have r0 := b0.toNat_lt
  have r1 := b1.toNat_lt
  have r2 := b2.toNat_lt
  have r3 := b3.toNat_lt
  have r4 := b4.toNat_lt
  have r5 := b5.toNat_lt
  have r6 := b6.toNat_lt
  have r7 := b7.toNat_lt
  unfold Etc.eacIndexLE field
  rw [show 45 - 3 * Etc.order 14 = 12 from rfl]
  simp only [leNat]
  omega

theorem index10 : Etc.eacIndexLE [b0, b1, b2, b3, b4, b5, b6, b7] 10 = b1.toNat / 16 / 8 + 2 * (b2.toNat % 4) := by
  have r0 := b0.toNat_lt
  have r1 := b1.toNat_lt
  have r2 := b2.toNat_lt
  have r3 := b3.toNat_lt
  have r4 := b4.toNat_lt
  have r5 := b5.toNat_lt
  have r6 := b6.toNat_lt
  have r7 := b7.toNat_lt
  unfold Etc.eacIndexLE field
  rw [show 45 - 3 * Etc.order 10 = 15 from rfl]
  simp only [leNat]
  omega

theorem levelOf_mem {signed : Bool} {v : Nat}
    (h : ∀ i, i < 16 → Etc.eac8 signed [b0, b1, b2, b3, b4, b5, b6, b7] (Etc.eacIndexLE [b0, b1, b2, b3, b4, b5, b6, b7] i) = v) : v ∈ Etc.levels signed := by
  have hh : ∀ i, i < 16 → level signed b0.toNat (mul (b1.toNat / 16))
      (shifted (b1.toNat % 16) (Etc.eacIndexLE [b0, b1, b2, b3, b4, b5, b6, b7] i)) = v := by
    intro i hi
    have e := eac8_level signed [b0, b1, b2, b3, b4, b5, b6, b7] (eacIndexLE_lt [b0, b1, b2, b3, b4, b5, b6, b7] i)
    rw [byte0, nibble1, nibble2] at e
    rw [← e]
    exact h i hi
  have r0 := b0.toNat_lt
  have r1 := b1.toNat_lt
  have f0 : fineFor signed b0.toNat (b1.toNat / 16) (b1.toNat % 16) (mul (b1.toNat / 16))
      (level signed b0.toNat (mul (b1.toNat / 16)) (shifted (b1.toNat % 16) (b0.toNat % 8))) = true :=
    fine_all signed r0 (mult := b1.toNat / 16) (by omega) (t := b1.toNat % 16) (by omega)
  have g15 := hh 15 (by omega)
  have g14 := hh 11 (by omega)
  have g13 := hh 7 (by omega)
  have g12 := hh 3 (by omega)
  have g11 := hh 14 (by omega)
  have g10 := hh 10 (by omega)
  rw [index15] at g15
  rw [index14] at g14
  rw [index13] at g13
  rw [index12] at g12
  rw [index11] at g11
  rw [index10] at g10
  rw [g15] at f0
  exact fineFor_spec f0 g14 g13 g12 g11 (Nat.mod_lt _ (by omega)) g10

end

/-- A block with the same level everywhere has one of the levels in the list. -/
theorem level_mem {signed : Bool} {blk : List UInt8} (hl : blk.length = 8) {v : Nat}
    (h : ∀ i, i < 16 → Etc.eac8 signed blk (Etc.eacIndexLE blk i) = v) : v ∈ Etc.levels signed := by
  have hb : ∃ b0 b1 b2 b3 b4 b5 b6 b7, blk = [b0, b1, b2, b3, b4, b5, b6, b7] := by
    clear h
    match blk, hl with
    | [b0, b1, b2, b3, b4, b5, b6, b7], _ => exact ⟨b0, b1, b2, b3, b4, b5, b6, b7, rfl⟩
  obtain ⟨b0, b1, b2, b3, b4, b5, b6, b7, rfl⟩ := hb
  exact levelOf_mem b0 b1 b2 b3 b4 b5 b6 b7 h

/-- The block for a level. -/
def flatBlock (signed : Bool) (v : Nat) : List UInt8 :=
  bytesLe 8 ((if signed then blocksS else blocksU).getD ((Etc.levels signed).idxOf v) 0)

theorem flatBlock_table (signed : Bool) : ∀ v ∈ Etc.levels signed, ∀ i : Fin 16,
    Etc.eac8 signed (flatBlock signed v) (Etc.eacIndexLE (flatBlock signed v) i) = v := by
  cases signed <;> decide +kernel

theorem flatBlock_level {signed : Bool} {v : Nat} (hv : v ∈ Etc.levels signed) {i : Nat} (hi : i < 16) :
    Etc.eac8 signed (flatBlock signed v) (Etc.eacIndexLE (flatBlock signed v) i) = v :=
  flatBlock_table signed v hv ⟨i, hi⟩

theorem flatBlock_length (signed : Bool) (v : Nat) : (flatBlock signed v).length = 8 := bytesLe_length _ _

/-- The standard has blocks for all levels. -/
def standardBlock (signed : Bool) (v : Nat) : List UInt8 :=
  if signed then
    if v = 255 then [127, 13, 255, 255, 255, 255, 255, 255] else [UInt8.ofNat (v + 129), 13, 0, 0, 0, 0, 0, 0]
  else [UInt8.ofNat v, 13, 0, 0, 0, 0, 0, 0]

theorem standardBlock_table (signed : Bool) : ∀ v : Fin 256, ∀ i : Fin 16,
    Etc.eacrTexel signed (standardBlock signed v) i = px v 0 0 255 := by
  cases signed <;> decide +kernel

end Verif.Proofs.Store.Eac
