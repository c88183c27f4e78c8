import Verif.Proofs.Store

/-! # Proofs: BC1 to BC5 blocks that hold given gradients -/

namespace Verif.Proofs.Store

open Verif Verif.Spec

/-! ## Values in steps of a seventh -/

theorem bc3Value_half {a b : Nat} {f : Nat → Nat} (ha : a < 2 ^ 8) (hb : b < 2 ^ 8) (hf : ∀ i, f i < 2 ^ 3)
    {blk : List UInt8} {rest : Nat} (hblk : leNat blk = half 8 3 a b f + 2 ^ 64 * rest) {i : Nat} (hi : i < 16) :
    bc3Value blk i = bc3Entry a b (f i) := by
  have low : ∀ pos n, pos + n ≤ 64 → field blk pos n = half 8 3 a b f / 2 ^ pos % 2 ^ n := by
    intro pos n h
    unfold field
    rw [hblk, show (2 : Nat) ^ 64 = 2 ^ pos * (2 ^ n * 2 ^ (64 - n - pos)) by
      rw [← Nat.pow_add, ← Nat.pow_add]; congr 1; omega, Nat.mul_assoc,
      Nat.add_mul_div_left _ _ (Nat.two_pow_pos _), Nat.mul_assoc, Nat.add_mul_mod_self_left]
  have e0 : byteAt blk 0 = a := by
    unfold byteAt; rw [low _ _ (by omega), Nat.mul_zero, Nat.pow_zero, Nat.div_one]
    exact half_first ha
  have e1 : byteAt blk 1 = b := by
    unfold byteAt; rw [low _ _ (by omega)]; exact half_second ha hb
  have e2 : field blk (16 + 3 * i) 3 = f i := by
    rw [low _ _ (by omega)]; exact half_index ha hb hf hi
  unfold bc3Value
  rw [e0, e1, e2]

/-- The index of step `s` of 7 in a block with the larger value first. -/
def seventh (s : Nat) : Nat := if s = 0 then 0 else if s = 7 then 1 else s + 1

/-- The index for the values `v`, which are stored with the larger one first. -/
def seventhIndex (v : Bool → Nat) (s : Nat) : Nat :=
  if v true < v false then seventh s else if v false < v true then seventh (7 - s) else 0

/-- A block of values between `v false` and `v true`. -/
def gradValues (v : Bool → Nat) (step : Nat → Nat) : Nat :=
  half 8 3 (max (v false) (v true)) (min (v false) (v true)) fun i => seventhIndex v (step i)

theorem seventh_entry {a b s : Nat} (hs : s < 8) (h : b < a) :
    bc3Entry a b (seventh s) = (a * (7 - s) + b * s) / 7 := by
  unfold bc3Entry seventh
  rcases (by omega : s = 0 ∨ s = 1 ∨ s = 2 ∨ s = 3 ∨ s = 4 ∨ s = 5 ∨ s = 6 ∨ s = 7) with
    rfl | rfl | rfl | rfl | rfl | rfl | rfl | rfl <;> simp [h] <;> omega

theorem seventhIndex_entry {v : Bool → Nat} {s : Nat} (hs : s < 8) :
    bc3Entry (max (v false) (v true)) (min (v false) (v true)) (seventhIndex v s) =
      (v false * (7 - s) + v true * s) / 7 := by
  unfold seventhIndex
  by_cases h1 : v true < v false
  · rw [if_pos h1, Nat.max_eq_left (by omega), Nat.min_eq_right (by omega), seventh_entry hs h1]
  · rw [if_neg h1]
    by_cases h2 : v false < v true
    · rw [if_pos h2, Nat.max_eq_right (by omega), Nat.min_eq_left (by omega), seventh_entry (by omega) h2,
        show 7 - (7 - s) = s by omega, Nat.add_comm]
    · have e : v true = v false := by omega
      have m : v false * (7 - s) + v false * s = v false * 7 := by
        rw [← Nat.mul_add, show 7 - s + s = 7 by omega]
      rw [if_neg h2, e, Nat.max_self, Nat.min_self, m, Nat.mul_div_cancel _ (by decide)]
      rfl

theorem seventhIndex_lt (v : Bool → Nat) {s : Nat} (hs : s < 8) : seventhIndex v s < 2 ^ 3 := by
  unfold seventhIndex seventh
  split
  · split
    · omega
    · split <;> omega
  · split
    · split
      · omega
      · split <;> omega
    · omega

section
variable {v : Bool → Nat} (hv : ∀ b, v b < 2 ^ 8) {step : Nat → Nat} (hs : ∀ i, step i < 8)
include hv hs

theorem gradValues_lt : gradValues v step < 2 ^ 64 :=
  half_lt (Nat.max_lt.2 ⟨hv _, hv _⟩) (Nat.lt_of_le_of_lt (Nat.min_le_left _ _) (hv _))
    (fun i => seventhIndex_lt v (hs i))

theorem gradValues_value {blk : List UInt8} {rest : Nat} (hblk : leNat blk = gradValues v step + 2 ^ 64 * rest)
    {i : Nat} (hi : i < 16) : bc3Value blk i = (v false * (7 - step i) + v true * step i) / 7 :=
  (bc3Value_half (Nat.max_lt.2 ⟨hv _, hv _⟩) (Nat.lt_of_le_of_lt (Nat.min_le_left _ _) (hv _))
    (fun i => seventhIndex_lt v (hs i)) hblk hi).trans (seventhIndex_entry (hs i))

theorem gradValues_single {i : Nat} (hi : i < 16) :
    bc3Value (bytesLe 8 (gradValues v step)) i = (v false * (7 - step i) + v true * step i) / 7 :=
  gradValues_value hv hs (rest := 0) (leNat_bytesLe _ _ (gradValues_lt hv hs)) hi

end

/-! ## Colours in steps of a third -/

/-- The index of step `s` of 3 in a block with the larger colour word first. -/
def third (s : Nat) : Nat := if s = 0 then 0 else if s = 3 then 1 else s + 1

/-- The index for the colours `c`, which are stored with the larger word first. -/
def thirdIndex (c : Bool → Nat) (s : Nat) : Nat :=
  if c true < c false then third s else if c false < c true then third (3 - s) else 0

/-- A BC1 block of colours between `c false` and `c true`. -/
def gradColours (c : Bool → Nat) (step : Nat → Nat) : Nat :=
  half 16 2 (max (c false) (c true)) (min (c false) (c true)) fun i => thirdIndex c (step i)

theorem thirdIndex_lt (c : Bool → Nat) {s : Nat} (hs : s < 4) : thirdIndex c s < 2 ^ 2 := by
  unfold thirdIndex third
  split
  · split
    · omega
    · split <;> omega
  · split
    · split
      · omega
      · split <;> omega
    · omega

theorem third_channel {a b s : Nat} (hs : s < 4) :
    bc1Channel true a b (third s) = (a * (3 - s) + b * s) / 3 := by
  unfold bc1Channel third
  rcases (by omega : s = 0 ∨ s = 1 ∨ s = 2 ∨ s = 3) with rfl | rfl | rfl | rfl <;> simp <;> omega

/-- The channel `ch` of the words is interpolated. -/
theorem thirdIndex_channel {c : Bool → Nat} (ch : Nat → Nat) {s : Nat} (hs : s < 4) :
    bc1Channel (decide (max (c false) (c true) > min (c false) (c true))) (ch (max (c false) (c true)))
      (ch (min (c false) (c true))) (thirdIndex c s) = (ch (c false) * (3 - s) + ch (c true) * s) / 3 := by
  unfold thirdIndex
  by_cases h1 : c true < c false
  · rw [if_pos h1, Nat.max_eq_left (by omega), Nat.min_eq_right (by omega), decide_eq_true h1, third_channel hs]
  · rw [if_neg h1]
    by_cases h2 : c false < c true
    · rw [if_pos h2, Nat.max_eq_right (by omega), Nat.min_eq_left (by omega), decide_eq_true h2,
        third_channel (by omega), show 3 - (3 - s) = s by omega, Nat.add_comm]
    · have e : c true = c false := by omega
      have m : ch (c false) * (3 - s) + ch (c false) * s = ch (c false) * 3 := by
        rw [← Nat.mul_add, show 3 - s + s = 3 by omega]
      rw [if_neg h2, e, Nat.max_self, Nat.min_self, m, Nat.mul_div_cancel _ (by decide)]
      rfl

section
variable {c : Bool → Nat} (hc : ∀ b, c b < 2 ^ 16) {step : Nat → Nat} (hs : ∀ i, step i < 4)
include hc hs

theorem gradColours_lt : gradColours c step < 2 ^ 64 :=
  half_lt (Nat.max_lt.2 ⟨hc _, hc _⟩) (Nat.lt_of_le_of_lt (Nat.min_le_left _ _) (hc _))
    (fun i => thirdIndex_lt c (hs i))

theorem gradColours_texel {blk : List UInt8} (hblk : leNat blk = gradColours c step) {i : Nat} (hi : i < 16) :
    bc1Texel false blk i =
      px ((red565 (c false) * (3 - step i) + red565 (c true) * step i) / 3)
        ((green565 (c false) * (3 - step i) + green565 (c true) * step i) / 3)
        ((blue565 (c false) * (3 - step i) + blue565 (c true) * step i) / 3) 255 := by
  have ha : max (c false) (c true) < 2 ^ 16 := Nat.max_lt.2 ⟨hc _, hc _⟩
  have hb : min (c false) (c true) < 2 ^ 16 := Nat.lt_of_le_of_lt (Nat.min_le_left _ _) (hc _)
  have hf := fun i => thirdIndex_lt c (hs i)
  have e0 : field blk 0 16 = max (c false) (c true) := by
    unfold field; rw [hblk, Nat.pow_zero, Nat.div_one]; exact half_first ha
  have e1 : field blk 16 16 = min (c false) (c true) := by
    unfold field; rw [hblk]; exact half_second ha hb
  have e2 : field blk (32 + 2 * i) 2 = thirdIndex c (step i) := by
    unfold field; rw [hblk]; exact half_index ha hb hf hi
  unfold bc1Texel
  simp only [e0, e1, e2]
  rw [thirdIndex_channel red565 (hs i), thirdIndex_channel green565 (hs i), thirdIndex_channel blue565 (hs i)]
  simp

end

/-- A value between two bytes is a byte. -/
theorem third_lt {a b s : Nat} (hs : s < 4) (ha : a < 256) (hb : b < 256) : (a * (3 - s) + b * s) / 3 < 256 := by
  rcases (by omega : s = 0 ∨ s = 1 ∨ s = 2 ∨ s = 3) with rfl | rfl | rfl | rfl <;> omega

end Verif.Proofs.Store
