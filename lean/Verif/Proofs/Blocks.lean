import Verif.Proofs.Bits
import Verif.Proofs.Image
import Verif.Spec.Bits

/-! # Common lemmas for block decoders: byte access, pixel loops, pixel words -/

namespace Verif.Proofs

open Verif Verif.Model

/-! ## Bytes -/

theorem leNat_drop (l : List UInt8) (p : Nat) :
    Spec.leNat (l.drop p) = Spec.leNat l / 2 ^ (8 * p) := by
  induction l generalizing p with
  | nil => simp [Spec.leNat]
  | cons b bs ih =>
    cases p with
    | zero => simp
    | succ p =>
      have hb := b.toNat_lt
      rw [List.drop_succ_cons, ih, Spec.leNat, show 8 * (p + 1) = 8 + 8 * p by omega, Nat.pow_add,
        ← Nat.div_div_eq_div_mul]
      congr 1; omega

theorem leNat_take (l : List UInt8) (n : Nat) :
    Spec.leNat (l.take n) = Spec.leNat l % 2 ^ (8 * n) := by
  induction l generalizing n with
  | nil => simp [Spec.leNat]
  | cons b bs ih =>
    cases n with
    | zero => simp [Spec.leNat, Nat.mod_one]
    | succ n =>
      have hb := b.toNat_lt
      rw [List.take_succ_cons, Spec.leNat, ih, Spec.leNat, show 8 * (n + 1) = 8 + 8 * n by omega,
        Nat.pow_add, Nat.mod_mul]
      rw [show 2 ^ 8 = 256 from rfl, show (b.toNat + 256 * Spec.leNat bs) / 256 = Spec.leNat bs by
        omega, show (b.toNat + 256 * Spec.leNat bs) % 256 = b.toNat by omega]

theorem leNat_lt (l : List UInt8) : Spec.leNat l < 2 ^ (8 * l.length) := by
  have := leNat_take l l.length
  rw [List.take_length] at this
  rw [this]
  exact Nat.mod_lt _ (Nat.two_pow_pos _)

theorem getElem_eq_leNat (l : List UInt8) (i : Nat) (h : i < l.length) :
    l[i].toNat = Spec.leNat l / 2 ^ (8 * i) % 256 := by
  rw [← leNat_drop, List.drop_eq_getElem_cons h, Spec.leNat]
  have := l[i].toNat_lt
  omega

theorem byte_eq {data : List UInt8} {i : Nat} (h : i < data.length) :
    byte data i = .ok (Spec.leNat data / 2 ^ (8 * i) % 256) := by
  rw [byte_ok h, getElem_eq_leNat]

theorem fromLE_bytesOf (l : List UInt8) : fromLE (bytesOf l) = Spec.leNat l := by
  induction l with
  | nil => rfl
  | cons b bs ih =>
    simp only [bytesOf, List.map_cons, fromLE, Spec.leNat] at *
    rw [ih]

/-- Fields of a block within the block are fields of the data. -/
theorem field_take {data : List UInt8} {raw pos n : Nat} (h : pos + n ≤ 8 * raw) :
    Spec.field (data.take raw) pos n = Spec.leNat data / 2 ^ pos % 2 ^ n := by
  unfold Spec.field
  rw [leNat_take]
  generalize Spec.leNat data = D
  rw [show 8 * raw = pos + (8 * raw - pos) by omega, Nat.pow_add, Nat.mod_mul_right_div_self,
    Nat.mod_mod_of_dvd _ (Nat.pow_dvd_pow 2 (by omega))]

theorem field_eq (data : List UInt8) (pos n : Nat) :
    Spec.field data pos n = Spec.leNat data / 2 ^ pos % 2 ^ n := rfl

theorem field_drop {data : List UInt8} {p pos n : Nat} :
    Spec.field (data.drop p) pos n = Spec.field data (8 * p + pos) n := by
  unfold Spec.field
  rw [leNat_drop, Nat.div_div_eq_div_mul, ← Nat.pow_add]

theorem field_lt (data : List UInt8) (pos n : Nat) : Spec.field data pos n < 2 ^ n :=
  Nat.mod_lt _ (Nat.two_pow_pos _)

/-! ## Loops that write one pixel per iteration -/

theorem pixelLoop {σ : Type} {n : Nat} {f : Nat → σ × List UInt32 → Out (σ × List UInt32)}
    (st : Nat → σ) (v : Nat → UInt32 → UInt32) (out : List UInt32) (hn : n ≤ out.length)
    (h : ∀ i, i < n → ∀ o p, o.length = out.length → o[i]? = some p →
      f i (st i, o) = .ok (st (i + 1), o.set i (v i p))) :
    ∃ o, forRange n f (st 0, out) = .ok (st n, o) ∧ o.length = out.length ∧
      (∀ i, i < n → o[i]? = (out[i]?).map (v i)) ∧ ∀ i, n ≤ i → o[i]? = out[i]? := by
  obtain ⟨⟨s, o⟩, e, hs, hl, h1, h2⟩ := forRange_inv (n := n) (f := f) (s := (st 0, out))
    (P := fun i s => s.1 = st i ∧ s.2.length = out.length ∧
      (∀ j, j < i → s.2[j]? = (out[j]?).map (v j)) ∧ ∀ j, i ≤ j → s.2[j]? = out[j]?)
    ⟨rfl, rfl, fun _ hj => absurd hj (Nat.not_lt_zero _), fun _ _ => rfl⟩
    (by
      rintro i hi ⟨s, o⟩ ⟨hs, hl, h1, h2⟩
      simp only at hs hl h1 h2
      subst hs
      have hget : o[i]? = some (o[i]'(by omega)) := List.getElem?_eq_getElem _
      refine ⟨_, h i hi o _ hl hget, rfl, by simp [hl], ?_, ?_⟩
      · intro j hj
        simp only [List.getElem?_set]
        split
        · next e => subst e; rw [if_pos (by omega), ← h2 _ (Nat.le_refl _), hget]; rfl
        · next e => exact h1 j (by omega)
      · intro j hj
        simp only [List.getElem?_set]
        rw [if_neg (by omega)]
        exact h2 j (by omega))
  simp only at hs hl h1 h2
  subst hs
  exact ⟨o, e, hl, h1, h2⟩

theorem pixelLoop' {n : Nat} {f : Nat → List UInt32 → Out (List UInt32)}
    (v : Nat → UInt32 → UInt32) (out : List UInt32) (hn : n ≤ out.length)
    (h : ∀ i, i < n → ∀ o p, o.length = out.length → o[i]? = some p →
      f i o = .ok (o.set i (v i p))) :
    ∃ o, forRange n f out = .ok o ∧ o.length = out.length ∧
      (∀ i, i < n → o[i]? = (out[i]?).map (v i)) ∧ ∀ i, n ≤ i → o[i]? = out[i]? := by
  obtain ⟨o, e, hl, h1, h2⟩ := forRange_inv (n := n) (f := f) (s := out)
    (P := fun i s => s.length = out.length ∧
      (∀ j, j < i → s[j]? = (out[j]?).map (v j)) ∧ ∀ j, i ≤ j → s[j]? = out[j]?)
    ⟨rfl, fun _ hj => absurd hj (Nat.not_lt_zero _), fun _ _ => rfl⟩
    (by
      rintro i hi o ⟨hl, h1, h2⟩
      have hget : o[i]? = some (o[i]'(by omega)) := List.getElem?_eq_getElem _
      refine ⟨_, h i hi o _ hl hget, by simp [hl], ?_, ?_⟩
      · intro j hj
        simp only [List.getElem?_set]
        split
        · next e => subst e; rw [if_pos (by omega), ← h2 _ (Nat.le_refl _), hget]; rfl
        · next e => exact h1 j (by omega)
      · intro j hj
        simp only [List.getElem?_set]
        rw [if_neg (by omega)]
        exact h2 j (by omega))
  exact ⟨o, e, hl, h1, h2⟩

/-! ## Pixel words -/

theorem color_eq (r g b a : Nat) : color r g b a = Spec.px r g b a := by
  unfold color Spec.px fromLE
  congr 1
  simp only [fromLE]
  omega

theorem px_toNat {r g b a : Nat} (hr : r < 256) (hg : g < 256) (hb : b < 256) (ha : a < 256) :
    (Spec.px r g b a).toNat = b + 2 ^ 8 * g + 2 ^ 16 * r + 2 ^ 24 * a := by
  unfold Spec.px
  rw [UInt32.toNat_ofNat']
  exact Nat.mod_eq_of_lt (by omega)

theorem red_px {r g b a : Nat} (hr : r < 256) (hg : g < 256) (hb : b < 256) (ha : a < 256) :
    Spec.red (Spec.px r g b a) = r := by
  unfold Spec.red; rw [px_toNat hr hg hb ha]; omega
theorem green_px {r g b a : Nat} (hr : r < 256) (hg : g < 256) (hb : b < 256) (ha : a < 256) :
    Spec.green (Spec.px r g b a) = g := by
  unfold Spec.green; rw [px_toNat hr hg hb ha]; omega
theorem blue_px {r g b a : Nat} (hr : r < 256) (hg : g < 256) (hb : b < 256) (ha : a < 256) :
    Spec.blue (Spec.px r g b a) = b := by
  unfold Spec.blue; rw [px_toNat hr hg hb ha]; omega
theorem alpha_px {r g b a : Nat} (hr : r < 256) (hg : g < 256) (hb : b < 256) (ha : a < 256) :
    Spec.alpha (Spec.px r g b a) = a := by
  unfold Spec.alpha; rw [px_toNat hr hg hb ha]; omega

theorem px_channels (p : UInt32) :
    Spec.px (Spec.red p) (Spec.green p) (Spec.blue p) (Spec.alpha p) = p := by
  have := p.toNat_lt
  apply UInt32.toNat_inj.mp
  rw [px_toNat (by unfold Spec.red; omega) (by unfold Spec.green; omega)
    (by unfold Spec.blue; omega) (by unfold Spec.alpha; omega)]
  unfold Spec.red Spec.green Spec.blue Spec.alpha
  omega

theorem red_lt (p : UInt32) : Spec.red p < 256 := by unfold Spec.red; omega
theorem green_lt (p : UInt32) : Spec.green p < 256 := by unfold Spec.green; omega
theorem blue_lt (p : UInt32) : Spec.blue p < 256 := by unfold Spec.blue; omega
theorem alpha_lt (p : UInt32) : Spec.alpha p < 256 := by
  have := p.toNat_lt; unfold Spec.alpha; omega

end Verif.Proofs
