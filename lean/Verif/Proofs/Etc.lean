import Verif.Model.Etc
import Verif.Spec.Etc
import Verif.Proofs.Bcn
import Verif.Proofs.Loops

set_option linter.unusedSimpArgs false
set_option linter.unusedSectionVars false

/-! # ETC: pixel loops and colours -/

namespace Verif.Proofs

open Verif Verif.Model

/-! ## Loops that write the pixels in another order -/

theorem permLoop {σ : Type} {n : Nat} {f : Nat → σ × List UInt32 → Out (σ × List UInt32)}
    (π : Nat → Nat) (hπ : ∀ i, i < n → π i < n) (hinj : ∀ i j, i < n → j < n → π i = π j → i = j)
    (hsurj : ∀ q, q < n → ∃ i, i < n ∧ π i = q)
    (st : Nat → σ) (v : Nat → UInt32 → UInt32) (out : List UInt32) (hn : n ≤ out.length)
    (h : ∀ i, i < n → ∀ o p, o.length = out.length → o[π i]? = some p →
      f i (st i, o) = .ok (st (i + 1), o.set (π i) (v (π i) p))) :
    ∃ o, forRange n f (st 0, out) = .ok (st n, o) ∧ o.length = out.length ∧
      (∀ i, i < n → o[i]? = (out[i]?).map (v i)) ∧ ∀ i, n ≤ i → o[i]? = out[i]? := by
  obtain ⟨⟨s, o⟩, e, hs, hl, h1, h2⟩ := forRange_inv (n := n) (f := f) (s := (st 0, out))
    (P := fun i s => s.1 = st i ∧ s.2.length = out.length ∧
      (∀ j, j < i → s.2[π j]? = (out[π j]?).map (v (π j))) ∧
      ∀ q, (∀ j, j < i → π j ≠ q) → s.2[q]? = out[q]?)
    ⟨rfl, rfl, fun _ hj => absurd hj (Nat.not_lt_zero _), fun _ _ => rfl⟩
    (by
      rintro i hi ⟨s, o⟩ ⟨hs, hl, h1, h2⟩
      simp only at hs hl h1 h2
      subst hs
      have hb := hπ i hi
      have hget : o[π i]? = some (o[π i]'(by omega)) := List.getElem?_eq_getElem _
      refine ⟨_, h i hi o _ hl hget, rfl, by simp [hl], ?_, ?_⟩
      · intro j hj
        simp only [List.getElem?_set]
        split
        · next e =>
          rw [if_pos (by omega)]
          rw [← e, ← h2 (π i) (fun j hj e => absurd (hinj _ _ (by omega) hi e) (by omega)), hget]
          rfl
        · next e =>
          have : j ≠ i := fun h => e (by rw [h])
          exact h1 j (by omega)
      · intro q hq
        simp only [List.getElem?_set]
        rw [if_neg (hq i (by omega))]
        exact h2 q (fun j hj => hq j (by omega)))
  simp only at hs hl h1 h2
  subst hs
  refine ⟨o, e, hl, ?_, ?_⟩
  · intro q hq
    obtain ⟨i, hi, rfl⟩ := hsurj q hq
    exact h1 i hi
  · intro q hq
    exact h2 q (fun j hj => by have := hπ j hj; omega)

/-- The position of the `i`-th written pixel. -/
def colPos (i : Nat) : Nat := 4 * (i % 4) + i / 4

theorem colPos_lt : ∀ i, i < 16 → colPos i < 16 := by decide
theorem colPos_inj : ∀ i j, i < 16 → j < 16 → colPos i = colPos j → i = j := by
  unfold colPos; omega
theorem colPos_surj : ∀ q, q < 16 → ∃ i, i < 16 ∧ colPos i = q := by
  intro q hq
  exact ⟨colPos q, colPos_lt q hq, by unfold colPos; omega⟩
theorem order_colPos : ∀ i, i < 16 → Spec.Etc.order (colPos i) = i := by decide
theorem writeOrder_some : ∀ i, i < 16 → writeOrderTable[i]? = some (colPos i) := by decide
theorem writeOrderRev_some : ∀ i, i < 16 → writeOrderTableRev[i]? = some (colPos (15 - i)) := by
  decide

/-! ## Small operations -/

theorem etcClamp_eq (n : Int) : etcClamp n = Spec.Etc.clamp255 n := by
  unfold etcClamp Spec.Etc.clamp255 asUI
  split
  · rfl
  · split
    · rfl
    · next h1 h2 =>
      congr 1
      exact Int.emod_eq_of_lt (by omega) (by omega)

theorem clamp255_lt (n : Int) : Spec.Etc.clamp255 n < 256 := by
  unfold Spec.Etc.clamp255
  split
  · omega
  · split <;> omega

theorem clamp255_self {n : Nat} (h : n < 256) : Spec.Etc.clamp255 (n : Int) = n := by
  unfold Spec.Etc.clamp255
  rw [if_neg (by omega), if_neg (by omega)]; rfl

/-- A model colour as a function from channels. -/
def fn (c : Rgb) (ch : Nat) : Nat := if ch = 0 then c.1 else if ch = 1 then c.2.1 else c.2.2

/-- All channels are bytes. -/
def RgbOk (c : Rgb) : Prop := c.1 < 256 ∧ c.2.1 < 256 ∧ c.2.2 < 256

theorem shade_congr {c c' : Nat → Nat} (m : Int) (a : Nat) (h : ∀ ch, ch < 3 → c ch = c' ch) :
    Spec.Etc.shade c m a = Spec.Etc.shade c' m a := by
  unfold Spec.Etc.shade
  rw [h 0 (by omega), h 1 (by omega), h 2 (by omega)]

variable [Build]

theorem addI32_ok {a b : Int} (h : -2 ^ 31 ≤ a + b) (h' : a + b < 2 ^ 31) :
    addI 32 a b = .ok (a + b) := fitI_ok ⟨h, h'⟩
theorem subI32_ok {a b : Int} (h : -2 ^ 31 ≤ a - b) (h' : a - b < 2 ^ 31) :
    subI 32 a b = .ok (a - b) := fitI_ok ⟨h, h'⟩
theorem mulI32_ok {a b : Int} (h : -2 ^ 31 ≤ a * b) (h' : a * b < 2 ^ 31) :
    mulI 32 a b = .ok (a * b) := fitI_ok ⟨h, h'⟩
theorem negI16_ok {a : Int} (h : -2 ^ 15 ≤ -a) (h' : -a < 2 ^ 15) :
    negI 16 a = .ok (-a) := fitI_ok ⟨h, h'⟩

theorem applicateColorAlpha_ok {c : Rgb} {m : Int} {t : Bool} (hc : RgbOk c) (h : -300 ≤ m)
    (h' : m ≤ 300) : applicateColorAlpha c m t =
      .ok (Spec.Etc.shade (fn c) m (if t then 0 else 255)) := by
  obtain ⟨h1, h2, h3⟩ := hc
  unfold applicateColorAlpha
  rw [addI32_ok (by omega) (by omega), Out.ok_bind, addI32_ok (by omega) (by omega), Out.ok_bind,
    addI32_ok (by omega) (by omega), Out.ok_bind, color_eq]
  simp only [etcClamp_eq]
  rfl

theorem applicateColor_ok {c : Rgb} {m : Int} (hc : RgbOk c) (h : -300 ≤ m)
    (h' : m ≤ 300) : applicateColor c m = .ok (Spec.Etc.shade (fn c) m 255) :=
  applicateColorAlpha_ok (t := false) hc h h'

theorem applicateColorRaw_eq {c : Rgb} (hc : RgbOk c) :
    applicateColorRaw c = Spec.Etc.shade (fn c) 0 255 := by
  obtain ⟨h1, h2, h3⟩ := hc
  unfold applicateColorRaw Spec.Etc.shade
  rw [color_eq]
  simp only [Int.add_zero]
  rw [clamp255_self, clamp255_self, clamp255_self]
  · rfl
  all_goals assumption

/-! ## The modifier tables -/

theorem modifier_some : ∀ cw, cw < 8 → ∀ j, j < 2 →
    ∃ row m, etc1ModifierTable[cw]? = some row ∧ row[j]? = some m ∧
      m = Spec.Etc.modifier cw j ∧ -m = Spec.Etc.modifier cw (2 + j) ∧ 0 ≤ m ∧ m ≤ 183 := by
  intro cw hcw j hj
  have key : ∀ cw, cw < 8 → ∀ j, j < 2 → ((etc1ModifierTable[cw]?.bind (·[j]?)).any fun m =>
      m == Spec.Etc.modifier cw j && -m == Spec.Etc.modifier cw (2 + j) && decide (0 ≤ m) &&
        decide (m ≤ 183)) = true := by decide
  have := key cw hcw j hj
  cases hr : etc1ModifierTable[cw]? with
  | none => rw [hr] at this; exact absurd this Bool.false_ne_true
  | some row =>
    rw [hr] at this
    simp only [Option.bind_some] at this
    cases hm : row[j]? with
    | none => rw [hm] at this; exact absurd this Bool.false_ne_true
    | some m =>
      rw [hm] at this
      simp only [Option.any_some, Bool.and_eq_true, beq_iff_eq, decide_eq_true_eq] at this
      exact ⟨row, m, rfl, hm, this.1.1.1, this.1.1.2, this.1.2, this.2⟩

theorem modifierA_some : ∀ b : Bool, ∀ cw, cw < 8 → ∀ j, j < 2 →
    ∃ mods row m, etc2aModifierTable[if b then 1 else 0]? = some mods ∧ mods[cw]? = some row ∧
      row[j]? = some m ∧ m = Spec.Etc.modifierA b cw j ∧
      -m = Spec.Etc.modifierA b cw (2 + j) ∧ 0 ≤ m ∧ m ≤ 183 := by
  intro b cw hcw j hj
  have key : ∀ b : Bool, ∀ cw, cw < 8 → ∀ j, j < 2 →
      (((etc2aModifierTable[if b then 1 else 0]?.bind (·[cw]?)).bind (·[j]?)).any fun m =>
      m == Spec.Etc.modifierA b cw j && -m == Spec.Etc.modifierA b cw (2 + j) && decide (0 ≤ m) &&
        decide (m ≤ 183)) = true := by decide
  have := key b cw hcw j hj
  cases hs : etc2aModifierTable[if b then 1 else 0]? with
  | none => rw [hs] at this; exact absurd this Bool.false_ne_true
  | some mods =>
  rw [hs] at this
  simp only [Option.bind_some] at this
  cases hr : mods[cw]? with
  | none => rw [hr] at this; exact absurd this Bool.false_ne_true
  | some row =>
    rw [hr] at this
    simp only [Option.bind_some] at this
    cases hm : row[j]? with
    | none => rw [hm] at this; exact absurd this Bool.false_ne_true
    | some m =>
      rw [hm] at this
      simp only [Option.any_some, Bool.and_eq_true, beq_iff_eq, decide_eq_true_eq] at this
      exact ⟨mods, row, m, rfl, hr, hm, this.1.1.1, this.1.1.2, this.1.2, this.2⟩

theorem distance_some : ∀ k, k < 8 → etc2DistanceTable[k]? = some (Spec.Etc.distance k) ∧
    0 ≤ Spec.Etc.distance k ∧ Spec.Etc.distance k ≤ 64 := by decide

/-! ## Individual and differential modes -/

/-- The sub-block test on the byte that holds the flip bit. -/
def secondOf (d3 q : Nat) : Bool :=
  if d3 % 2 = 1 then decide (2 ≤ q / 4) else decide (2 ≤ q % 4)

def codewordOf (d3 : Nat) (snd : Bool) : Nat := if snd then d3 / 4 % 8 else d3 / 32

def indexOf (j k q : Nat) : Nat :=
  2 * (k / 2 ^ Spec.Etc.order q % 2) + j / 2 ^ Spec.Etc.order q % 2

theorem subblock_some : ∀ f, f < 2 → ∃ t, etc1SubblockTable[f]? = some t ∧
    ∀ i, i < 16 → t[i]? = some (if secondOf f (colPos i) then 1 else 0) := by
  intro f hf
  have hf : f = 0 ∨ f = 1 := by omega
  rcases hf with rfl | rfl
  · exact ⟨_, rfl, by decide⟩
  · exact ⟨_, rfl, by decide⟩

theorem secondOf_mod (d3 q : Nat) : secondOf (d3 % 2) q = secondOf d3 q := by
  unfold secondOf; rw [Nat.mod_mod]

theorem div_pow_succ (j i : Nat) : (j / 2 ^ i) >>> 1 = j / 2 ^ (i + 1) := by
  rw [shr_eq, Nat.div_div_eq_div_mul, ← Nat.pow_add]

theorem etc1Paint_spec {d3 j k : Nat} {c : Rgb × Rgb} {out : List UInt32} (hd3 : d3 < 256)
    (hc1 : RgbOk c.1) (hc2 : RgbOk c.2) (ho : 16 ≤ out.length) :
    ∃ o, etc1Paint d3 c j k out = .ok o ∧ o.length = out.length ∧
      (∀ q, q < 16 → o[q]? = some (Spec.Etc.shade (fn (if secondOf d3 q then c.2 else c.1))
        (Spec.Etc.modifier (codewordOf d3 (secondOf d3 q)) (indexOf j k q)) 255)) ∧
      ∀ q, 16 ≤ q → o[q]? = out[q]? := by
  unfold etc1Paint
  rw [and_1]
  obtain ⟨table, ht, htab⟩ := subblock_some (d3 % 2) (by omega)
  simp only
  rw [idx_of_some ht, Out.ok_bind]
  obtain ⟨o, e, hl, h1, h2⟩ := permLoop (n := 16) (f := fun i (s : (Nat × Nat) × List UInt32) => do
      let ((j, k), outbuf) := s
      let s ← idx table i
      let cw ← idx [d3 >>> 5, d3 >>> 2 &&& 7] s
      let row ← idx etc1ModifierTable cw
      let m ← idx row (j &&& 1)
      let cs ← idx [c.1, c.2] s
      let m ← (if k &&& 1 > 0 then negI 16 m else pure m)
      let v ← applicateColor cs m
      let pos ← idx writeOrderTable i
      let outbuf ← setIdx outbuf pos v
      pure ((j >>> 1, k >>> 1), outbuf)) colPos colPos_lt colPos_inj colPos_surj
    (fun i => (j / 2 ^ i, k / 2 ^ i))
    (fun q _ => Spec.Etc.shade (fn (if secondOf d3 q then c.2 else c.1))
        (Spec.Etc.modifier (codewordOf d3 (secondOf d3 q)) (indexOf j k q)) 255) out ho
    (by
      intro i hi o p hol hp
      have hpos := colPos_lt i hi
      simp only
      rw [idx_of_some (htab i hi), Out.ok_bind, secondOf_mod]
      have hcw : [d3 >>> 5, d3 >>> 2 &&& 7][if secondOf d3 (colPos i) then 1 else 0]? =
          some (codewordOf d3 (secondOf d3 (colPos i))) := by
        cases secondOf d3 (colPos i)
        · simp [codewordOf, shr_eq]
        · simp [codewordOf, shr_eq, and_7]
      have hcwlt : codewordOf d3 (secondOf d3 (colPos i)) < 8 := by
        unfold codewordOf; split <;> omega
      have hcs : [c.1, c.2][if secondOf d3 (colPos i) then 1 else 0]? =
          some (if secondOf d3 (colPos i) then c.2 else c.1) := by
        cases secondOf d3 (colPos i) <;> rfl
      have hcok : RgbOk (if secondOf d3 (colPos i) then c.2 else c.1) := by split <;> assumption
      have hidx : indexOf j k (colPos i) = 2 * (k / 2 ^ i % 2) + j / 2 ^ i % 2 := by
        unfold indexOf; rw [order_colPos i hi]
      obtain ⟨row, m, hr, hm, e1, e2, hm0, hm1⟩ := modifier_some _ hcwlt (j / 2 ^ i % 2) (by omega)
      rw [idx_of_some hcw, Out.ok_bind, idx_of_some hr, Out.ok_bind, and_1, idx_of_some hm,
        Out.ok_bind, idx_of_some hcs, Out.ok_bind, and_1]
      have hmm : (if k / 2 ^ i % 2 > 0 then negI 16 m else pure m) =
          Out.ok (Spec.Etc.modifier (codewordOf d3 (secondOf d3 (colPos i)))
            (indexOf j k (colPos i))) := by
        rw [hidx]
        by_cases h : k / 2 ^ i % 2 > 0
        · rw [if_pos h, negI16_ok (by omega) (by omega), e2, show k / 2 ^ i % 2 = 1 by omega]
        · rw [if_neg h, e1, show k / 2 ^ i % 2 = 0 by omega, Nat.mul_zero, Nat.zero_add]; rfl
      rw [hmm, Out.ok_bind]
      have hbound : -300 ≤ Spec.Etc.modifier (codewordOf d3 (secondOf d3 (colPos i)))
            (indexOf j k (colPos i)) ∧ Spec.Etc.modifier (codewordOf d3 (secondOf d3 (colPos i)))
            (indexOf j k (colPos i)) ≤ 300 := by
        rw [hidx]
        by_cases h : k / 2 ^ i % 2 = 1
        · rw [h, ← e2]; omega
        · rw [show k / 2 ^ i % 2 = 0 by omega, Nat.mul_zero, Nat.zero_add, ← e1]; omega
      rw [applicateColor_ok hcok hbound.1 hbound.2, Out.ok_bind,
        idx_of_some (writeOrder_some i hi), Out.ok_bind, setIdx_ok (by omega), Out.ok_bind,
        div_pow_succ, div_pow_succ]
      rfl)
  simp only [Nat.pow_zero, Nat.div_one] at e
  refine ⟨o, by rw [e]; rfl, hl, ?_, h2⟩
  intro q hq
  rw [h1 q hq, List.getElem?_eq_getElem (by omega)]
  rfl

theorem etc2aPaint_spec {opaq : Bool} {d3 j k : Nat} {c : Rgb × Rgb} {out : List UInt32}
    (hd3 : d3 < 256) (hc1 : RgbOk c.1) (hc2 : RgbOk c.2) (ho : 16 ≤ out.length) :
    ∃ o, etc2aPaint opaq d3 c j k out = .ok o ∧ o.length = out.length ∧
      (∀ q, q < 16 → o[q]? = some (Spec.Etc.shade (fn (if secondOf d3 q then c.2 else c.1))
        (Spec.Etc.modifierA opaq (codewordOf d3 (secondOf d3 q)) (indexOf j k q))
          (if opaq = false ∧ indexOf j k q = 2 then 0 else 255))) ∧
      ∀ q, 16 ≤ q → o[q]? = out[q]? := by
  unfold etc2aPaint
  rw [and_1]
  obtain ⟨table, ht, htab⟩ := subblock_some (d3 % 2) (by omega)
  simp only
  rw [idx_of_some ht, Out.ok_bind]
  obtain ⟨o, e, hl, h1, h2⟩ := permLoop (n := 16) (f := fun i (s : (Nat × Nat) × List UInt32) => do
      let ((j, k), outbuf) := s
      let s ← idx table i
      let cw ← idx [d3 >>> 5, d3 >>> 2 &&& 7] s
      let mods ← idx etc2aModifierTable (if opaq then 1 else 0)
      let row ← idx mods cw
      let m ← idx row (j &&& 1)
      let cs ← idx [c.1, c.2] s
      let m ← (if k &&& 1 > 0 then negI 16 m else pure m)
      let v ← applicateColorAlpha cs m (!opaq && k &&& 1 != 0 && j &&& 1 == 0)
      let pos ← idx writeOrderTable i
      let outbuf ← setIdx outbuf pos v
      pure ((j >>> 1, k >>> 1), outbuf)) colPos colPos_lt colPos_inj colPos_surj
    (fun i => (j / 2 ^ i, k / 2 ^ i))
    (fun q _ => Spec.Etc.shade (fn (if secondOf d3 q then c.2 else c.1))
        (Spec.Etc.modifierA opaq (codewordOf d3 (secondOf d3 q)) (indexOf j k q))
          (if opaq = false ∧ indexOf j k q = 2 then 0 else 255)) out ho
    (by
      intro i hi o p hol hp
      have hpos := colPos_lt i hi
      simp only
      rw [idx_of_some (htab i hi), Out.ok_bind, secondOf_mod]
      have hcw : [d3 >>> 5, d3 >>> 2 &&& 7][if secondOf d3 (colPos i) then 1 else 0]? =
          some (codewordOf d3 (secondOf d3 (colPos i))) := by
        cases secondOf d3 (colPos i)
        · simp [codewordOf, shr_eq]
        · simp [codewordOf, shr_eq, and_7]
      have hcwlt : codewordOf d3 (secondOf d3 (colPos i)) < 8 := by
        unfold codewordOf; split <;> omega
      have hcs : [c.1, c.2][if secondOf d3 (colPos i) then 1 else 0]? =
          some (if secondOf d3 (colPos i) then c.2 else c.1) := by
        cases secondOf d3 (colPos i) <;> rfl
      have hcok : RgbOk (if secondOf d3 (colPos i) then c.2 else c.1) := by split <;> assumption
      have hidx : indexOf j k (colPos i) = 2 * (k / 2 ^ i % 2) + j / 2 ^ i % 2 := by
        unfold indexOf; rw [order_colPos i hi]
      obtain ⟨mods, row, m, hs, hr, hm, e1, e2, hm0, hm1⟩ :=
        modifierA_some opaq _ hcwlt (j / 2 ^ i % 2) (by omega)
      rw [idx_of_some hcw, Out.ok_bind, idx_of_some hs, Out.ok_bind, idx_of_some hr, Out.ok_bind,
        and_1, idx_of_some hm, Out.ok_bind, idx_of_some hcs, Out.ok_bind, and_1]
      have hmm : (if k / 2 ^ i % 2 > 0 then negI 16 m else pure m) =
          Out.ok (Spec.Etc.modifierA opaq (codewordOf d3 (secondOf d3 (colPos i)))
            (indexOf j k (colPos i))) := by
        rw [hidx]
        by_cases h : k / 2 ^ i % 2 > 0
        · rw [if_pos h, negI16_ok (by omega) (by omega), e2, show k / 2 ^ i % 2 = 1 by omega]
        · rw [if_neg h, e1, show k / 2 ^ i % 2 = 0 by omega, Nat.mul_zero, Nat.zero_add]; rfl
      rw [hmm, Out.ok_bind]
      have hbound : -300 ≤ Spec.Etc.modifierA opaq (codewordOf d3 (secondOf d3 (colPos i)))
            (indexOf j k (colPos i)) ∧
            Spec.Etc.modifierA opaq (codewordOf d3 (secondOf d3 (colPos i)))
            (indexOf j k (colPos i)) ≤ 300 := by
        rw [hidx]
        by_cases h : k / 2 ^ i % 2 = 1
        · rw [h, ← e2]; omega
        · rw [show k / 2 ^ i % 2 = 0 by omega, Nat.mul_zero, Nat.zero_add, ← e1]; omega
      have hal : (if (!opaq && k / 2 ^ i % 2 != 0 && j / 2 ^ i % 2 == 0) then 0 else 255) =
          (if opaq = false ∧ indexOf j k (colPos i) = 2 then 0 else 255) := by
        rw [hidx]
        have h1 : k / 2 ^ i % 2 = 0 ∨ k / 2 ^ i % 2 = 1 := by omega
        have h2 : j / 2 ^ i % 2 = 0 ∨ j / 2 ^ i % 2 = 1 := by omega
        rcases h1 with h1 | h1 <;> rcases h2 with h2 | h2 <;> rw [h1, h2] <;> cases opaq <;> decide
      rw [applicateColorAlpha_ok hcok hbound.1 hbound.2, Out.ok_bind, hal,
        idx_of_some (writeOrder_some i hi), Out.ok_bind, setIdx_ok (by omega), Out.ok_bind,
        div_pow_succ, div_pow_succ]
      rfl)
  simp only [Nat.pow_zero, Nat.div_one] at e
  refine ⟨o, by rw [e]; rfl, hl, ?_, h2⟩
  intro q hq
  rw [h1 q hq, List.getElem?_eq_getElem (by omega)]
  rfl

/-! ## T and H modes -/

theorem paintIndex (j k i : Nat) (hk : k < 65536) :
    (asU 64 (k <<< 1) / 2 ^ i &&& 2) ||| (j / 2 ^ i &&& 1) =
      2 * (k / 2 ^ i % 2) + j / 2 ^ i % 2 := by
  unfold asU
  rw [shl_eq, Nat.mod_eq_of_lt (show k * 2 ^ 1 < 2 ^ 64 by omega), and_1,
    show (2 : Nat) = (2 ^ 1 - 1) * 2 ^ 1 from rfl, and_mask_shift]
  have e : k * 2 ^ 1 / 2 ^ i / 2 ^ 1 = k / 2 ^ i := by
    rw [Nat.div_div_eq_div_mul, Nat.mul_comm (2 ^ i), ← Nat.div_div_eq_div_mul,
      Nat.mul_div_cancel _ (by omega)]
  simp only [show (2 ^ 1 - 1) * 2 ^ 1 = 2 from rfl]
  rw [show k * 2 / 2 ^ i / 2 ^ 1 = k / 2 ^ i from e, mul_or _ (by omega)]
  omega

theorem etc2Paint_spec {set : List UInt32} {j k : Nat} {out : List UInt32} (hk : k < 65536)
    (v : Nat → UInt32) (hset : ∀ x, x < 4 → set[x]? = some (v x)) (ho : 16 ≤ out.length) :
    ∃ o, etc2Paint set j k out = .ok o ∧ o.length = out.length ∧
      (∀ q, q < 16 → o[q]? = some (v (indexOf j k q))) ∧ ∀ q, 16 ≤ q → o[q]? = out[q]? := by
  unfold etc2Paint
  obtain ⟨o, e, hl, h1, h2⟩ := permLoop (n := 16) (f := fun i (s : (Nat × Nat) × List UInt32) => do
      let ((j, k), outbuf) := s
      let v ← idx set ((k &&& 2) ||| (j &&& 1))
      let pos ← idx writeOrderTable i
      let outbuf ← setIdx outbuf pos v
      pure ((j >>> 1, k >>> 1), outbuf)) colPos colPos_lt colPos_inj colPos_surj
    (fun i => (j / 2 ^ i, asU 64 (k <<< 1) / 2 ^ i))
    (fun q _ => v (indexOf j k q)) out ho
    (by
      intro i hi o p hol hp
      have hpos := colPos_lt i hi
      have hidx : indexOf j k (colPos i) = 2 * (k / 2 ^ i % 2) + j / 2 ^ i % 2 := by
        unfold indexOf; rw [order_colPos i hi]
      simp only
      rw [paintIndex _ _ _ hk, ← hidx, idx_of_some (hset _ (by rw [hidx]; omega)), Out.ok_bind,
        idx_of_some (writeOrder_some i hi), Out.ok_bind, setIdx_ok (by omega), Out.ok_bind,
        div_pow_succ, div_pow_succ]
      rfl)
  simp only [Nat.pow_zero, Nat.div_one] at e
  refine ⟨o, by rw [e]; rfl, hl, ?_, h2⟩
  intro q hq
  rw [h1 q hq, List.getElem?_eq_getElem (by omega)]
  rfl

theorem etc2PaintA_spec {opaq : Bool} {set : List UInt32} {j k : Nat} {out : List UInt32}
    (hk : k < 65536)
    (v : Nat → UInt32) (hset : ∀ x, x < 4 → set[x]? = some (v x)) (ho : 16 ≤ out.length) :
    ∃ o, etc2PaintA opaq set j k out = .ok o ∧ o.length = out.length ∧
      (∀ q, q < 16 → o[q]? = some (if opaq = false ∧ indexOf j k q = 2 then
        v (indexOf j k q) &&& transparentMask else v (indexOf j k q))) ∧
      ∀ q, 16 ≤ q → o[q]? = out[q]? := by
  unfold etc2PaintA
  obtain ⟨o, e, hl, h1, h2⟩ := permLoop (n := 16) (f := fun i (s : (Nat × Nat) × List UInt32) => do
      let ((j, k), outbuf) := s
      let index := (k &&& 2) ||| (j &&& 1)
      let v ← idx set index
      let pos ← idx writeOrderTable i
      let outbuf ← setIdx outbuf pos v
      let outbuf ← (if !opaq && index == 2 then do
          let p ← idx outbuf pos
          setIdx outbuf pos (p &&& transparentMask)
        else pure outbuf)
      pure ((j >>> 1, k >>> 1), outbuf)) colPos colPos_lt colPos_inj colPos_surj
    (fun i => (j / 2 ^ i, asU 64 (k <<< 1) / 2 ^ i))
    (fun q _ => if opaq = false ∧ indexOf j k q = 2 then
        v (indexOf j k q) &&& transparentMask else v (indexOf j k q)) out ho
    (by
      intro i hi o p hol hp
      have hpos := colPos_lt i hi
      have hidx : indexOf j k (colPos i) = 2 * (k / 2 ^ i % 2) + j / 2 ^ i % 2 := by
        unfold indexOf; rw [order_colPos i hi]
      simp only
      rw [paintIndex _ _ _ hk, ← hidx, idx_of_some (hset _ (by rw [hidx]; omega)), Out.ok_bind,
        idx_of_some (writeOrder_some i hi), Out.ok_bind, setIdx_ok (by omega), Out.ok_bind,
        div_pow_succ, div_pow_succ]
      by_cases h : opaq = false ∧ indexOf j k (colPos i) = 2
      · rw [if_pos h, if_pos (by rw [h.1, h.2]; rfl),
          idx_of_some (by rw [List.getElem?_set_self (by omega)]), Out.ok_bind,
          setIdx_ok (by simp only [List.length_set]; omega), Out.ok_bind, List.set_set]
        rfl
      · rw [if_neg h, if_neg (by
          intro hh
          simp only [Bool.and_eq_true, Bool.not_eq_true', beq_iff_eq] at hh
          exact h hh)]
        rfl)
  simp only [Nat.pow_zero, Nat.div_one] at e
  refine ⟨o, by rw [e]; rfl, hl, ?_, h2⟩
  intro q hq
  rw [h1 q hq, List.getElem?_eq_getElem (by omega)]
  rfl

end Verif.Proofs
