import Verif.Proofs.AstcIse

/-! # The parameters of an ASTC block -/

namespace Verif.Proofs.Astc

open Verif Verif.Model Verif.Proofs
open Verif.Spec.Astc (bit grid noDH dual weightNum Quant seqBits rangeCode weightQuant weightBits parts
  cemSel extraBits cemBit cem planeSel configBits cemValues valuesBefore valueNum colourQuants
  colourQuant isReserved)

/-- The first 16 bits of a block as numbers. -/
theorem mode_fields (D : Nat) :
    let b0 := D / 2 ^ (8 * 0) % 256
    let b1 := D / 2 ^ (8 * 1) % 256
    let u := fromLE [b0, b1]
    b0 &&& 3 = D % 4 ∧ b0 &&& 0xc = D / 4 % 4 * 4 ∧ b0 >>> 5 &&& 3 = D / 32 % 4 ∧
    u >>> 7 &&& 3 = D / 128 % 4 ∧ b1 &&& 1 = D / 256 % 2 ∧ b0 >>> 7 &&& 1 = D / 128 % 2 ∧
    u &&& 0x180 = D / 128 % 4 * 128 ∧ b0 &&& 0x20 = D / 32 % 2 * 32 ∧ b1 >>> 1 &&& 3 = D / 512 % 4 ∧
    b1 &&& 4 = D / 1024 % 2 * 4 ∧ b0 >>> 4 &&& 1 = D / 16 % 2 ∧ b1 <<< 2 &&& 8 = D / 512 % 2 * 8 ∧
    b0 <<< 1 &&& 6 = D % 4 * 2 ∧ b0 >>> 1 &&& 6 = D / 4 % 4 * 2 ∧ b1 >>> 3 &&& 3 = D / 2048 % 4 := by
  simp only [fromLE, shr_eq, shl_eq, and_3, and_1]
  rw [show (0xc : Nat) = (2 ^ 2 - 1) * 2 ^ 2 from rfl, show (0x180 : Nat) = (2 ^ 2 - 1) * 2 ^ 7 from rfl,
    show (0x20 : Nat) = (2 ^ 1 - 1) * 2 ^ 5 from rfl, show (4 : Nat) = (2 ^ 1 - 1) * 2 ^ 2 from rfl,
    show (8 : Nat) = (2 ^ 1 - 1) * 2 ^ 3 from rfl, show (6 : Nat) = (2 ^ 2 - 1) * 2 ^ 1 from rfl]
  simp only [and_mask_shift]
  refine ⟨?_, ?_, ?_, ?_, ?_, ?_, ?_, ?_, ?_, ?_, ?_, ?_, ?_, ?_, ?_⟩ <;> omega

/-- The number of the weight range as the code computes it. -/
def rangeIndex (blk : List UInt8) : Nat :=
  rangeCode blk + if bit blk 9 = 1 ∧ ¬ noDH blk then 8 else 0

theorem range_or (x y z : Nat) (hx : x < 2) (hz : z < 4) :
    x ||| y % 2 * 8 ||| z * 2 = x + z * 2 + y % 2 * 8 := by
  have key : ∀ x, x < 2 → ∀ y, y < 2 → ∀ z, z < 4 → x ||| y * 8 ||| z * 2 = x + z * 2 + y * 8 := by
    decide
  exact key x hx _ (Nat.mod_lt _ (by omega)) z hz

theorem blockMode_ok {blk : List UInt8} (D : Nat)
    (F : ∀ p n, p + n ≤ 128 → Spec.field blk p n = D / 2 ^ p % 2 ^ n) :
    astcBlockMode (D / 2 ^ (8 * 0) % 256) (D / 2 ^ (8 * 1) % 256) =
      ((grid blk).1, (grid blk).2, decide (dual blk), rangeIndex blk) := by
  obtain ⟨e1, e2, e3, e4, e5, e6, e7, e8, e9, e10, e11, e12, e13, e14, _⟩ := mode_fields D
  have f0 := F 0 2 (by omega)
  have f2 := F 2 2 (by omega)
  have f5 := F 5 2 (by omega)
  have f7 := F 7 2 (by omega)
  have f9 := F 9 2 (by omega)
  have b0 := F 0 1 (by omega)
  have b1 := F 1 1 (by omega)
  have b2 := F 2 1 (by omega)
  have b3 := F 3 1 (by omega)
  have b4 := F 4 1 (by omega)
  have b5 := F 5 1 (by omega)
  have b7 := F 7 1 (by omega)
  have b8 := F 8 1 (by omega)
  have b9 := F 9 1 (by omega)
  have b10 := F 10 1 (by omega)
  simp only [Nat.reducePow, Nat.div_one] at f0 f2 f5 f7 f9 b0 b1 b2 b3 b4 b5 b7 b8 b9 b10
  unfold astcBlockMode
  simp only [e1, e2, e3, e4, e5, e6, e7, e8, e9, e10, e11, e12, e13, e14]
  unfold grid rangeIndex rangeCode dual noDH bit
  simp only [f0, f2, f5, f7, f9, b0, b1, b2, b3, b4, b5, b7, b8, b9, b10]
  have hd10 : (D / 1024 % 2 * 4 != 0) = decide (D / 1024 % 2 = 1) := by
    have : D / 1024 % 2 = 0 ∨ D / 1024 % 2 = 1 := by omega
    rcases this with h | h <;> rw [h] <;> rfl
  rw [hd10]
  by_cases h0 : D % 4 = 0
  · simp only [h0, ne_eq, not_true_eq_false, if_false, true_and]
    rw [range_or _ _ _ (by omega) (by omega)]
    have : D / 128 % 4 = 0 ∨ D / 128 % 4 = 1 ∨ D / 128 % 4 = 2 ∨ D / 128 % 4 = 3 := by omega
    rcases this with h | h | h | h
    · simp [h]; split <;> omega
    · simp [h]; split <;> omega
    · simp [h]
      rw [and_7]; omega
    · simp [h]
      have h5 : D / 32 % 2 = 0 ∨ D / 32 % 2 = 1 := by omega
      rcases h5 with h5 | h5 <;> simp [h5] <;> split <;> omega
  · simp only [h0, ne_eq, not_false_eq_true, if_true, false_and, and_true]
    rw [range_or _ _ _ (by omega) (by omega)]
    have : D / 4 % 4 = 0 ∨ D / 4 % 4 = 1 ∨ D / 4 % 4 = 2 ∨ D / 4 % 4 = 3 := by omega
    rcases this with h | h | h | h
    · simp [h]; split <;> omega
    · simp [h]; split <;> omega
    · simp [h]; split <;> omega
    · simp [h]
      have h5 : D / 256 % 2 = 0 ∨ D / 256 % 2 = 1 := by omega
      rcases h5 with h5 | h5 <;> simp [h5] <;> split <;> omega

/-- A block that is neither reserved nor void has a range code of at least 2. -/
theorem rangeCode_ge {blk : List UInt8} (h : ¬ isReserved blk) : 2 ≤ rangeCode blk ∧ rangeCode blk < 8 := by
  unfold isReserved at h
  unfold rangeCode bit
  unfold Spec.field at *
  simp only [Nat.reducePow, Nat.div_one] at *
  split <;> omega

theorem weightTable {blk : List UInt8} (h : ¬ isReserved blk) :
    weightPrecTableA[rangeIndex blk]? = some (if (weightQuant blk).base = 1 then 0 else (weightQuant blk).base) ∧
    weightPrecTableB[rangeIndex blk]? = some (weightQuant blk).bits ∧ QuantOk (weightQuant blk) ∧
    (weightQuant blk).bits ≤ 5 ∧ rangeIndex blk < 16 := by
  obtain ⟨h1, h2⟩ := rangeCode_ge h
  unfold rangeIndex weightQuant QuantOk
  generalize rangeCode blk = r at *
  by_cases hb : bit blk 9 = 1 ∧ ¬ noDH blk
  · simp only [if_pos hb]
    match r, h1, h2 with
    | 2, _, _ => decide
    | 3, _, _ => decide
    | 4, _, _ => decide
    | 5, _, _ => decide
    | 6, _, _ => decide
    | 7, _, _ => decide
  · simp only [if_neg hb]
    match r, h1, h2 with
    | 2, _, _ => decide
    | 3, _, _ => decide
    | 4, _, _ => decide
    | 5, _, _ => decide
    | 6, _, _ => decide
    | 7, _, _ => decide

theorem grid_le (blk : List UInt8) : 2 ≤ (grid blk).1 ∧ (grid blk).1 ≤ 12 ∧ 2 ≤ (grid blk).2 ∧
    (grid blk).2 ≤ 12 := by
  unfold grid bit
  have h1 := field_lt blk 5 2
  have h2 := field_lt blk 7 2
  have h3 := field_lt blk 9 2
  have h4 := field_lt blk 7 1
  simp only
  repeat' split
  all_goals simp only; omega

theorem weightNum_le (blk : List UInt8) : weightNum blk ≤ 288 := by
  obtain ⟨_, h1, _, h2⟩ := grid_le blk
  unfold weightNum
  have : (grid blk).1 * (grid blk).2 ≤ 12 * 12 := Nat.mul_le_mul h1 h2
  split <;> omega

variable [Build]

theorem weightBits_ok {q : Quant} {n r : Nat} (hn : n ≤ 288) (hb : q.bits ≤ 5) (hq : QuantOk q)
    (ha : weightPrecTableA[r]? = some (if q.base = 1 then 0 else q.base))
    (hbt : weightPrecTableB[r]? = some q.bits) : astcWeightBits n r = .ok (seqBits q n) := by
  have hm : n * q.bits ≤ 288 * 5 := Nat.mul_le_mul hn hb
  unfold astcWeightBits seqBits Spec.ceilDiv
  rw [idx_of_some ha, Out.ok_bind, idx_of_some hbt, Out.ok_bind, mulU_ok (by omega), Out.ok_bind]
  rcases hq with ⟨h, _⟩ | ⟨h, _⟩ | ⟨h, _⟩
  · simp [h]
  · simp only [h, show ¬ (3 : Nat) = 1 by omega, if_false, if_true]
    rw [mulU_ok (by omega), Out.ok_bind, addU_ok (by omega), Out.ok_bind, addU_ok (by omega)]
    congr 2; omega
  · simp only [h, show ¬ (5 : Nat) = 1 by omega, show ¬ (5 : Nat) = 3 by omega, if_false, if_true]
    rw [mulU_ok (by omega), Out.ok_bind, addU_ok (by omega), Out.ok_bind, addU_ok (by omega)]
    congr 2; omega

omit [Build] in
theorem u16_ok {ptr : List UInt8} (h : 2 ≤ ptr.length) :
    u8ptrToU16 ptr = .ok (Spec.leNat ptr % 65536) := by
  unfold u8ptrToU16
  rw [byte_eq (by omega), Out.ok_bind, byte_eq (by omega), Out.ok_bind]
  show Out.ok _ = _
  congr 1
  simp only [fromLE]
  omega

theorem cemOr_ok {buf : List UInt8} (hd : 16 ≤ buf.length) {c : List Nat} {i pos mask x : Nat}
    (hp : pos + 2 ≤ 128) (hx : c[i]? = some x) :
    astcCemOr buf c i pos mask =
      .ok (c.set i (x ||| (Spec.field (buf.take 16) pos 2 &&& mask))) := by
  have hi : i < c.length := by
    rcases Nat.lt_or_ge i c.length with h | h
    · exact h
    · rw [List.getElem?_eq_none h] at hx; cases hx
  unfold astcCemOr
  have hlt : Spec.leNat buf / 2 ^ pos % 2 ^ 2 < 4 := Nat.mod_lt _ (by omega)
  rw [getbits_ok (by omega) (by omega) (by omega) (by omega), Out.ok_bind, idx_of_some hx,
    Out.ok_bind, setIdx_ok hi, asUI_nat (by omega), field_take (by omega)]

/-- The four modes as a list. -/
def cemList (blk : List UInt8) : List Nat :=
  (List.range 4).map fun p => if p < parts blk then cem blk p else 0

theorem cemBase_ok {b3 S : Nat} (h1 : 1 ≤ S) (h2 : S < 4) {n : Nat} (hn : n ≤ 4) :
    forRange n (fun i cem => do
      let s ← shrU 8 b3 (i + 1)
      let t ← addU 64 (s &&& 1) S
      let t ← subU 64 t 1
      setIdx cem i (asU 64 (t <<< 2))) [0, 0, 0, 0] =
    .ok ((List.range 4).map fun i => if i < n then (S - 1 + b3 / 2 ^ (i + 1) % 2) * 4 else 0) := by
  obtain ⟨s', e, h⟩ := forRange_inv (n := n) (s := [0, 0, 0, 0])
    (f := fun i cem => do
      let s ← shrU 8 b3 (i + 1)
      let t ← addU 64 (s &&& 1) S
      let t ← subU 64 t 1
      setIdx cem i (asU 64 (t <<< 2)))
    (fun k s => s = (List.range 4).map fun i => if i < k then (S - 1 + b3 / 2 ^ (i + 1) % 2) * 4 else 0)
    rfl
    (by
      intro i hi s hs
      have hlt : b3 / 2 ^ (i + 1) % 2 < 2 := Nat.mod_lt _ (by omega)
      rw [shrU_ok (by omega), Out.ok_bind, and_1, shr_eq, addU_ok (by omega), Out.ok_bind,
        subU_ok (by omega), Out.ok_bind, setIdx_ok (by rw [hs]; simp; omega)]
      refine ⟨_, rfl, ?_⟩
      rw [hs]
      apply List.ext_getElem?
      intro k
      rw [List.getElem?_set]
      by_cases hk : i = k
      · subst hk
        rw [if_pos rfl, if_pos (by simp; omega), List.getElem?_map, List.getElem?_range (by omega),
          Option.map_some, if_pos (by omega), shl_eq]
        unfold asU
        congr 1
        omega
      · rw [if_neg hk, List.getElem?_map, List.getElem?_map]
        by_cases hk4 : k < 4
        · rw [List.getElem?_range hk4, Option.map_some, Option.map_some]
          congr 1
          by_cases h3 : k < i
          · rw [if_pos h3, if_pos (by omega)]
          · rw [if_neg h3, if_neg (by omega)]
        · rw [List.getElem?_eq_none (by simp; omega)]; rfl)
  rw [e, h]

omit [Build] in
theorem or3 (a x : Nat) (h : x < 4) : a * 4 ||| x = a * 4 + x := mul_or (k := 2) a h

/-- The three ways in which the code combines mode bits. -/
theorem cemMulti_ok {buf : List UInt8} (hd : 16 ≤ buf.length) {wb : Nat}
    (hwb : wb = weightBits (buf.take 16))
    (h120 : wb ≤ 126 ∧ (3 ≤ parts (buf.take 16) → wb ≤ 122) ∧ (4 ≤ parts (buf.take 16) → wb ≤ 120))
    (h1 : parts (buf.take 16) ≠ 1)
    (hS : cemSel (buf.take 16) ≠ 0) :
    astcCemMulti buf (parts (buf.take 16)) (cemSel (buf.take 16)) wb = .ok (cemList (buf.take 16)) := by
  have F : ∀ p n, p + n ≤ 128 → Spec.field (buf.take 16) p n = Spec.leNat buf / 2 ^ p % 2 ^ n :=
    fun p n h => field_take (by omega)
  unfold astcCemMulti
  have hS4 : cemSel (buf.take 16) < 4 := field_lt _ _ 2
  have hP4 : parts (buf.take 16) ≤ 4 := by
    have : Spec.field (buf.take 16) 11 2 < 4 := field_lt _ _ 2
    unfold parts; omega
  have hP1 : 1 ≤ parts (buf.take 16) := by unfold parts; omega
  rw [byte_eq (by omega), Out.ok_bind, cemBase_ok (by omega) hS4 hP4, Out.ok_bind]
  unfold cemList cem cemBit extraBits
  simp only [if_neg h1, if_neg hS, h1, hS, or_self, if_false]
  rw [← hwb]
  generalize cemSel (buf.take 16) = S at *
  generalize hP : parts (buf.take 16) = P at *
  clear hwb
  generalize hD : Spec.leNat buf = D at *
  have f25 := F 25 1 (by omega)
  have f26 := F 26 1 (by omega)
  have f27 := F 27 1 (by omega)
  have f28 := F 28 1 (by omega)
  have two : ∀ p, p + 2 ≤ 128 → Spec.field (buf.take 16) p 2 =
      Spec.field (buf.take 16) p 1 + 2 * Spec.field (buf.take 16) (p + 1) 1 := by
    intro p hp
    rw [F p 2 (by omega), F p 1 (by omega), F (p + 1) 1 (by omega), show 2 ^ (p + 1) = 2 ^ p * 2 from Nat.pow_succ ..,
      ← Nat.div_div_eq_div_mul]
    omega
  have small : ∀ p, Spec.field (buf.take 16) p 1 < 2 := fun p => field_lt _ _ 1
  have c2 : P = 2 ∨ P = 3 ∨ P = 4 := by omega
  simp only [Nat.reducePow, Nat.reduceMul] at f25 f26 f27 f28
  rcases c2 with h | h | h
  · subst h
    simp only [List.range, List.range.loop, List.map, if_true, Nat.reduceLT, Nat.reduceAdd, if_false,
      Nat.reduceMul, Nat.reducePow, bit, Nat.reduceSub, Nat.add_zero, f25, f26, f27, f28]
    rw [idx_of_some (a := (S - 1 + D / 16777216 % 256 / 2 % 2) * 4) rfl, Out.ok_bind,
      setIdx_ok (by simp), Out.ok_bind, subU_ok (by omega), Out.ok_bind,
      cemOr_ok hd (x := (S - 1 + D / 16777216 % 256 / 4 % 2) * 4) (by omega) rfl]
    congr 1
    rw [and_3, and_3, shr_eq, or3 _ _ (by omega), or3 _ _ (by omega), two _ (by omega)]
    have s1 := small (126 - wb)
    have s2 := small (126 - wb + 1)
    rw [show 128 - wb - 2 = 126 - wb by omega]
    simp only [List.set]
    generalize Spec.field (buf.take 16) (126 - wb) 1 = v1 at *
    generalize Spec.field (buf.take 16) (126 - wb + 1) 1 = v2 at *
    simp only [List.cons.injEq, and_true]
    exact ⟨by omega, by omega⟩
  · subst h
    simp only [List.range, List.range.loop, List.map, if_true, Nat.reduceLT, Nat.reduceAdd, if_false,
      Nat.reduceMul, Nat.reducePow, bit, Nat.reduceSub, Nat.add_zero, f25, f26, f27, f28, Nat.reduceEqDiff]
    rw [idx_of_some (a := (S - 1 + D / 16777216 % 256 / 2 % 2) * 4) rfl, Out.ok_bind,
      setIdx_ok (by simp), Out.ok_bind, subU_ok (by omega), Out.ok_bind]
    simp only [List.set]
    rw [cemOr_ok hd (i := 0) (by omega) rfl, Out.ok_bind, subU_ok (by omega), Out.ok_bind,
      cemOr_ok hd (i := 1) (x := (S - 1 + D / 16777216 % 256 / 4 % 2) * 4) (by omega) rfl, Out.ok_bind,
      subU_ok (by omega), Out.ok_bind,
      cemOr_ok hd (i := 2) (x := (S - 1 + D / 16777216 % 256 / 8 % 2) * 4) (by omega) rfl]
    congr 1
    rw [and_3, and_3, and_1, shr_eq, show (2 : Nat) = (2 ^ 1 - 1) * 2 ^ 1 from rfl, and_mask_shift]
    simp only [Nat.reducePow, Nat.reduceSub, Nat.reduceMul]
    rw [two _ (by omega), two _ (by omega), two _ (by omega), or3 _ _ (by omega)]
    have s1 := small (126 - wb)
    have s2 := small (126 - wb + 1)
    have s3 := small (124 - wb)
    have s4 := small (124 - wb + 1)
    have s5 := small (122 - wb)
    have s6 := small (122 - wb + 1)
    rw [show 128 - wb - 5 = 122 - wb + 1 by omega, show 122 - wb + 1 + 1 = 124 - wb by omega,
      show 122 - wb + 1 + 2 = 124 - wb + 1 by omega, show 122 - wb + 1 + 3 = 126 - wb by omega,
      show 122 - wb + 1 + 4 = 126 - wb + 1 by omega]
    simp only [List.set]
    generalize Spec.field (buf.take 16) (126 - wb) 1 = v1 at *
    generalize Spec.field (buf.take 16) (126 - wb + 1) 1 = v2 at *
    generalize Spec.field (buf.take 16) (124 - wb) 1 = v3 at *
    generalize Spec.field (buf.take 16) (124 - wb + 1) 1 = v4 at *
    generalize Spec.field (buf.take 16) (122 - wb) 1 = v5 at *
    generalize Spec.field (buf.take 16) (122 - wb + 1) 1 = v6 at *
    rw [or3 _ _ (by omega), or3 _ _ (by omega)]
    simp only [List.cons.injEq, and_true]
    refine ⟨?_, by omega, by omega⟩
    · have hor : ∀ a x y : Nat, x < 2 → y < 2 → (a * 4 + x) ||| y * 2 = a * 4 + (x + 2 * y) := by
        intro a x y hx hy
        rw [← or3 a x (by omega), Nat.or_assoc, or3 a _ (Nat.or_lt_two_pow (n := 2) (by omega) (by omega)),
          or_mul (k := 1) y (by omega)]
        omega
      rw [hor _ _ _ (by omega) (by omega)]
      omega
  · subst h
    simp only [List.range, List.range.loop, List.map, if_true, Nat.reduceLT, Nat.reduceAdd, if_false,
      Nat.reduceMul, Nat.reducePow, bit, Nat.reduceSub, Nat.add_zero, f25, f26, f27, f28, Nat.reduceEqDiff]
    simp only [forRange, Out.ok_bind, Nat.reduceMul, Nat.reduceAdd]
    rw [subU_ok (by omega), Out.ok_bind,
      cemOr_ok hd (i := 0) (x := (S - 1 + D / 16777216 % 256 / 2 % 2) * 4) (by omega) rfl, Out.ok_bind,
      subU_ok (by omega), Out.ok_bind,
      cemOr_ok hd (i := 1) (x := (S - 1 + D / 16777216 % 256 / 4 % 2) * 4) (by omega) rfl, Out.ok_bind,
      subU_ok (by omega), Out.ok_bind,
      cemOr_ok hd (i := 2) (x := (S - 1 + D / 16777216 % 256 / 8 % 2) * 4) (by omega) rfl, Out.ok_bind,
      subU_ok (by omega), Out.ok_bind,
      cemOr_ok hd (i := 3) (x := (S - 1 + D / 16777216 % 256 / 16 % 2) * 4) (by omega) rfl]
    congr 1
    simp only [and_3, List.set]
    rw [two _ (by omega), two _ (by omega), two _ (by omega), two _ (by omega)]
    have s1 := small (126 - wb)
    have s2 := small (126 - wb + 1)
    have s3 := small (124 - wb)
    have s4 := small (124 - wb + 1)
    have s5 := small (122 - wb)
    have s6 := small (122 - wb + 1)
    have s7 := small (120 - wb)
    have s8 := small (120 - wb + 1)
    rw [show 128 - wb - 8 = 120 - wb by omega, show 120 - wb + 2 = 122 - wb by omega,
      show 120 - wb + 3 = 122 - wb + 1 by omega, show 120 - wb + 4 = 124 - wb by omega,
      show 120 - wb + 5 = 124 - wb + 1 by omega, show 120 - wb + 6 = 126 - wb by omega,
      show 120 - wb + 7 = 126 - wb + 1 by omega]
    generalize Spec.field (buf.take 16) (126 - wb) 1 = v1 at *
    generalize Spec.field (buf.take 16) (126 - wb + 1) 1 = v2 at *
    generalize Spec.field (buf.take 16) (124 - wb) 1 = v3 at *
    generalize Spec.field (buf.take 16) (124 - wb + 1) 1 = v4 at *
    generalize Spec.field (buf.take 16) (122 - wb) 1 = v5 at *
    generalize Spec.field (buf.take 16) (122 - wb + 1) 1 = v6 at *
    generalize Spec.field (buf.take 16) (120 - wb) 1 = v7 at *
    generalize Spec.field (buf.take 16) (120 - wb + 1) 1 = v8 at *
    rw [or3 _ _ (by omega), or3 _ _ (by omega), or3 _ _ (by omega), or3 _ _ (by omega)]
    simp only [List.cons.injEq, and_true]
    exact ⟨by omega, by omega, by omega, by omega⟩

theorem cems_ok {buf : List UInt8} (hd : 16 ≤ buf.length) {wb : Nat}
    (hwb : wb = weightBits (buf.take 16))
    (h120 : parts (buf.take 16) ≠ 1 → cemSel (buf.take 16) ≠ 0 →
      wb ≤ 126 ∧ (3 ≤ parts (buf.take 16) → wb ≤ 122) ∧ (4 ≤ parts (buf.take 16) → wb ≤ 120)) :
    astcCems buf (parts (buf.take 16)) wb = .ok (cemList (buf.take 16),
      (if parts (buf.take 16) = 1 then 0 else cemSel (buf.take 16)),
      configBits (buf.take 16) - if dual (buf.take 16) then 2 else 0) := by
  have F : ∀ p n, p + n ≤ 128 → Spec.field (buf.take 16) p n = Spec.leNat buf / 2 ^ p % 2 ^ n :=
    fun p n h => field_take (by omega)
  have hP4 : parts (buf.take 16) ≤ 4 := by
    have : Spec.field (buf.take 16) 11 2 < 4 := field_lt _ _ 2
    unfold parts; omega
  have hP1 : 1 ≤ parts (buf.take 16) := by unfold parts; omega
  have hcfg : configBits (buf.take 16) - (if dual (buf.take 16) then 2 else 0) =
      (if parts (buf.take 16) = 1 then 17 else 29) + extraBits (buf.take 16) := by
    unfold configBits; omega
  rw [hcfg]
  unfold astcCems
  by_cases h1 : parts (buf.take 16) = 1
  · simp only [if_pos h1]
    rw [sliceFrom_ok (by omega), Out.ok_bind, u16_ok (by rw [List.length_drop]; omega), Out.ok_bind]
    show Out.ok _ = _
    congr 2
    · unfold cemList cem
      simp only [if_pos h1]
      rw [leNat_drop, and_15, shr_eq, F 13 4 (by omega), h1]
      generalize Spec.leNat buf = D
      simp only [List.range, List.range.loop, List.map, Nat.reduceLT, if_true, if_false,
        Nat.reducePow, List.cons.injEq, and_true]
      omega
    · unfold extraBits
      simp [h1]
  · simp only [if_neg h1]
    rw [sliceFrom_ok (by omega), Out.ok_bind, u16_ok (by rw [List.length_drop]; omega), Out.ok_bind]
    have hsel : (Spec.leNat (buf.drop 2) % 65536) >>> 7 &&& 3 = cemSel (buf.take 16) := by
      unfold cemSel
      rw [leNat_drop, and_3, shr_eq, F 23 2 (by omega)]
      generalize Spec.leNat buf = D
      omega
    simp only [hsel]
    by_cases hS : cemSel (buf.take 16) = 0
    · rw [if_pos hS, byte_eq (by omega), Out.ok_bind]
      have hb : (Spec.leNat buf / 2 ^ (8 * 3) % 256) >>> 1 &&& 0xf = Spec.field (buf.take 16) 25 4 := by
        rw [and_15, shr_eq, F 25 4 (by omega)]
        generalize Spec.leNat buf = D
        omega
      rw [hb]
      have hfill : fillRange [0, 0, 0, 0] 0 (parts (buf.take 16)) (Spec.field (buf.take 16) 25 4) =
          .ok (cemList (buf.take 16)) := by
        unfold cemList cem
        simp only [if_neg h1, if_pos hS]
        generalize parts (buf.take 16) = P at *
        have : P = 2 ∨ P = 3 ∨ P = 4 := by omega
        rcases this with rfl | rfl | rfl <;> rfl
      rw [hfill, Out.ok_bind]
      show Out.ok _ = _
      congr 2
      unfold extraBits
      simp [hS]
    · rw [if_neg hS, cemMulti_ok hd hwb (h120 h1 hS) h1 hS, Out.ok_bind]
      show Out.ok _ = _
      congr 2
      unfold extraBits
      simp only [h1, hS, or_self, if_false]
      congr 1
      omega

/-! ## The colour range -/

theorem cemTables {i : Nat} (h : i < 17) : ∃ q, colourQuants[i]? = some q ∧ QuantOk q ∧
    cemTableA[i]? = some (if q.base = 1 then 0 else q.base) ∧ cemTableB[i]? = some q.bits := by
  have key : ∀ i : Fin 17, (colourQuants[i.val]?).isSome ∧
      QuantOk ((colourQuants[i.val]?).getD ⟨0, 0⟩) ∧
      cemTableA[i.val]? = some (if ((colourQuants[i.val]?).getD ⟨0, 0⟩).base = 1 then 0
        else ((colourQuants[i.val]?).getD ⟨0, 0⟩).base) ∧
      cemTableB[i.val]? = some ((colourQuants[i.val]?).getD ⟨0, 0⟩).bits := by
    unfold QuantOk
    decide
  obtain ⟨h1, h2, h3, h4⟩ := key ⟨i, h⟩
  obtain ⟨q, hq⟩ := Option.isSome_iff_exists.mp h1
  simp only [hq, Option.getD_some] at h2 h3 h4
  exact ⟨q, hq, h2, h3, h4⟩

theorem endpointBits_ok {i n : Nat} {q : Quant} (hq : QuantOk q)
    (h3 : cemTableA[i]? = some (if q.base = 1 then 0 else q.base))
    (h4 : cemTableB[i]? = some q.bits) : astcEndpointBits n i = .ok (seqBits q n) := by
  unfold astcEndpointBits seqBits Spec.ceilDiv
  rw [idx_of_some h3, Out.ok_bind, idx_of_some h4, Out.ok_bind]
  rcases hq with ⟨h, _⟩ | ⟨h, _⟩ | ⟨h, _⟩
  · simp [h]
  · simp only [h, show ¬ (3 : Nat) = 1 by omega, if_false, if_true]
    rw [divCeil_ok (by omega), Out.ok_bind, Nat.mul_comm n 8]
    rfl
  · simp only [h, show ¬ (5 : Nat) = 1 by omega, show ¬ (5 : Nat) = 3 by omega, if_false, if_true]
    rw [divCeil_ok (by omega), Out.ok_bind, Nat.mul_comm n 7]
    rfl

theorem cemRange_ok {n remain : Nat} (hfit : seqBits ⟨3, 1⟩ n ≤ remain) (fuel i : Nat) (hi : i ≤ 16)
    (hf : 17 ≤ i + fuel) : ∃ r, astcCemRange n remain i fuel = .ok r ∧ r < 17 ∧
      (colourQuants.drop i).find? (fun q => seqBits q n ≤ remain) = colourQuants[r]? := by
  induction fuel generalizing i with
  | zero => omega
  | succ fuel ih =>
    obtain ⟨q, hq, hok, h3, h4⟩ := cemTables (show i < 17 by omega)
    unfold astcCemRange
    rw [endpointBits_ok hok h3 h4, Out.ok_bind]
    have hlt : i < colourQuants.length := by
      rcases Nat.lt_or_ge i colourQuants.length with h | h
      · exact h
      · rw [List.getElem?_eq_none h] at hq; cases hq
    have hdrop : colourQuants.drop i = q :: colourQuants.drop (i + 1) := by
      rw [List.drop_eq_getElem_cons hlt]
      congr 1
      rw [List.getElem?_eq_getElem hlt] at hq
      exact Option.some.inj hq
    rw [hdrop, List.find?_cons]
    by_cases h : seqBits q n ≤ remain
    · simp only [if_pos h, h, decide_true]
      exact ⟨i, rfl, by omega, hq.symm⟩
    · simp only [if_neg h, h, decide_false]
      by_cases h16 : i = 16
      · subst h16
        have : q = ⟨3, 1⟩ := by
          have e : colourQuants[16]? = some ⟨3, 1⟩ := rfl
          rw [e] at hq
          exact (Option.some.inj hq).symm
        rw [this] at h
        omega
      · exact ih (i + 1) (by omega) (by omega)

omit [Build] in
theorem cem_lt16 (blk : List UInt8) (p : Nat) : cem blk p < 16 := by
  unfold cem
  have h1 : Spec.field blk 13 4 < 16 := field_lt _ _ 4
  have h2 : Spec.field blk 25 4 < 16 := field_lt _ _ 4
  have h3 : cemSel blk < 4 := field_lt _ _ 2
  have hb : ∀ i, cemBit blk i < 2 := by
    intro i
    unfold cemBit bit
    split <;> exact field_lt _ _ 1
  have b1 := hb p
  have b2 := hb (parts blk + 2 * p)
  have b3 := hb (parts blk + 2 * p + 1)
  split
  · omega
  · split <;> omega

omit [Build] in
theorem cemList_get {blk : List UInt8} {p : Nat} (h : p < parts blk) (h4 : p < 4) :
    (cemList blk)[p]? = some (cem blk p) := by
  unfold cemList
  rw [List.getElem?_map, List.getElem?_range h4, Option.map_some, if_pos h]

theorem valueNum_ok {blk : List UInt8} (k : Nat) (hk : k ≤ parts blk) (hp : parts blk ≤ 4) :
    forRange k (fun i n => do
      let c ← idx (cemList blk) i
      pure (n + (c >>> 1 &&& 6) + 2)) 0 = .ok (valuesBefore blk k) := by
  induction k with
  | zero => rfl
  | succ k ih =>
    show (forRange k _ 0 >>= _) = _
    rw [ih (by omega), Out.ok_bind]
    simp only
    rw [idx_of_some (cemList_get (by omega) (by omega)), Out.ok_bind]
    show Out.ok _ = Out.ok (valuesBefore blk k + cemValues (cem blk k))
    congr 1
    have h := cem_lt16 blk k
    unfold cemValues
    rw [shr_eq, show (6 : Nat) = (2 ^ 2 - 1) * 2 ^ 1 from rfl, and_mask_shift]
    omega

omit [Build] in
theorem parts_bounds (blk : List UInt8) : 1 ≤ parts blk ∧ parts blk ≤ 4 := by
  have : Spec.field blk 11 2 < 4 := field_lt _ _ 2
  unfold parts
  omega

/-- For a block that is not reserved and whose configuration and weights fit, the parameters are those
of the specification; `r` is the colour range that is found. -/
theorem params_range {buf : List UInt8} (hd : 16 ≤ buf.length) (hr : ¬ isReserved (buf.take 16))
    (hroom : configBits (buf.take 16) + weightBits (buf.take 16) ≤ 128) {r : Nat}
    (er : astcCemRange (valueNum (buf.take 16))
      (128 - configBits (buf.take 16) - weightBits (buf.take 16)) 0 19 = .ok r) :
    decodeBlockParams buf = .ok
      { width := (grid (buf.take 16)).1, height := (grid (buf.take 16)).2,
        partNum := parts (buf.take 16), dualPlane := decide (dual (buf.take 16)),
        planeSelector := if dual (buf.take 16) then planeSel (buf.take 16) else 0,
        weightRange := rangeIndex (buf.take 16), weightNum := weightNum (buf.take 16),
        cem := cemList (buf.take 16), cemRange := r,
        endpointValueNum := valueNum (buf.take 16) } := by
  have F : ∀ p n, p + n ≤ 128 → Spec.field (buf.take 16) p n = Spec.leNat buf / 2 ^ p % 2 ^ n :=
    fun p n h => field_take (by omega)
  obtain ⟨hP1, hP4⟩ := parts_bounds (buf.take 16)
  obtain ⟨ha, hb, hq, hq5, h16⟩ := weightTable hr
  unfold decodeBlockParams
  rw [byte_eq (by omega), Out.ok_bind, byte_eq (by omega), Out.ok_bind, blockMode_ok _ F]
  have hpart : (Spec.leNat buf / 2 ^ (8 * 1) % 256) >>> 3 &&& 3 = Spec.field (buf.take 16) 11 2 := by
    rw [F 11 2 (by omega), and_3, shr_eq]
    generalize Spec.leNat buf = D
    omega
  have hnum : (if decide (dual (buf.take 16)) = true then (grid (buf.take 16)).1 * (grid (buf.take 16)).2 * 2
      else (grid (buf.take 16)).1 * (grid (buf.take 16)).2) = weightNum (buf.take 16) := by
    unfold weightNum
    by_cases h : dual (buf.take 16) <;> simp [h]
  have hp : Spec.field (buf.take 16) 11 2 + 1 = parts (buf.take 16) := rfl
  simp only [hpart, hnum, hp]
  rw [weightBits_ok (weightNum_le _) hq5 hq ha hb, Out.ok_bind]
  rw [show seqBits (weightQuant (buf.take 16)) (weightNum (buf.take 16)) = weightBits (buf.take 16) from rfl]
  have hcfg : 29 ≤ configBits (buf.take 16) ∨ parts (buf.take 16) = 1 := by
    unfold configBits
    by_cases h1 : parts (buf.take 16) = 1
    · exact Or.inr h1
    · left; rw [if_neg h1]; omega
  rw [cems_ok hd rfl (by intro h1 _; omega), Out.ok_bind]
  simp only
  have hcfg2 : (if decide (dual (buf.take 16)) = true then
      configBits (buf.take 16) - (if dual (buf.take 16) then 2 else 0) + 2
      else configBits (buf.take 16) - (if dual (buf.take 16) then 2 else 0)) = configBits (buf.take 16) := by
    by_cases h : dual (buf.take 16)
    · have : 2 ≤ configBits (buf.take 16) := by unfold configBits; split <;> omega
      simp only [h, decide_true, if_true]
      omega
    · simp [h]
  have hsel : (if decide (dual (buf.take 16)) = true then do
        let pos ← (if (if parts (buf.take 16) = 1 then 0 else cemSel (buf.take 16)) ≠ 0 then do
            let t ← subU 64 130 (weightBits (buf.take 16))
            subU 64 t (parts (buf.take 16) * 3)
          else subU 64 126 (weightBits (buf.take 16)))
        let g ← getbits buf pos 2
        pure (asUI 64 g)
      else pure 0) = .ok (if dual (buf.take 16) then planeSel (buf.take 16) else 0) := by
    by_cases h : dual (buf.take 16)
    · simp only [h, decide_true, if_true]
      have hpos : (if (if parts (buf.take 16) = 1 then 0 else cemSel (buf.take 16)) ≠ 0 then do
            let t ← subU 64 130 (weightBits (buf.take 16))
            subU 64 t (parts (buf.take 16) * 3)
          else subU 64 126 (weightBits (buf.take 16))) =
          .ok (126 - weightBits (buf.take 16) - extraBits (buf.take 16)) := by
        have hcb : 17 + extraBits (buf.take 16) + 2 ≤ configBits (buf.take 16) := by
          unfold configBits
          rw [if_pos h]
          split <;> omega
        have hex : extraBits (buf.take 16) =
          if parts (buf.take 16) = 1 ∨ cemSel (buf.take 16) = 0 then 0 else 3 * parts (buf.take 16) - 4 := rfl
        by_cases h1 : parts (buf.take 16) = 1
        · simp only [h1, true_or, if_true] at hex
          simp only [h1, if_true, ne_eq, not_true_eq_false, if_false]
          rw [subU_ok (by omega)]
          congr 1; omega
        · by_cases hS : cemSel (buf.take 16) = 0
          · simp only [hS, or_true, if_true] at hex
            simp only [hS, ite_self, ne_eq, not_true_eq_false, if_false]
            rw [subU_ok (by omega)]
            congr 1; omega
          · simp only [h1, hS, or_self, if_false] at hex
            simp only [h1, hS, if_false, ne_eq, not_false_eq_true, if_true]
            rw [subU_ok (by omega), Out.ok_bind, subU_ok (by omega)]
            congr 1; omega
      rw [hpos, Out.ok_bind, getbits_ok (by omega) (by omega) (by omega) (by omega), Out.ok_bind]
      have hlt : Spec.leNat buf / 2 ^ (126 - weightBits (buf.take 16) - extraBits (buf.take 16)) % 2 ^ 2 < 4 :=
        Nat.mod_lt _ (by omega)
      rw [asUI_nat (by omega), ← F _ 2 (by omega)]
      rfl
    · simp [h]
  rw [hsel, Out.ok_bind, hcfg2, subU_ok (by omega), Out.ok_bind, subU_ok (by omega), Out.ok_bind,
    valueNum_ok _ (Nat.le_refl _) hP4, Out.ok_bind]
  rw [show valuesBefore (buf.take 16) (parts (buf.take 16)) = valueNum (buf.take 16) from rfl, er, Out.ok_bind]
  rfl

/-- If there is room for the colour values, the colour range that is found is the one of the
specification. -/
theorem range_ok {blk : List UInt8}
    (hfit : configBits blk + weightBits blk + seqBits ⟨3, 1⟩ (valueNum blk) ≤ 128) :
    ∃ r, astcCemRange (valueNum blk) (128 - configBits blk - weightBits blk) 0 19 = .ok r ∧ r < 17 ∧
      colourQuants[r]? = some (colourQuant blk) := by
  obtain ⟨r, er, hr17, hfind⟩ := cemRange_ok (n := valueNum blk)
    (remain := 128 - configBits blk - weightBits blk) (by omega) 19 0 (by omega) (by omega)
  refine ⟨r, er, hr17, ?_⟩
  obtain ⟨q, hq', _⟩ := cemTables hr17
  rw [List.drop_zero] at hfind
  unfold colourQuant
  rw [hfind, hq']
  rfl

end Verif.Proofs.Astc
