import Verif.Spec.EacLevels
import Verif.Proofs.Store

/-! # Proofs: flat EAC blocks, the table -/

namespace Verif.Proofs.Store.Eac

open Verif Verif.Spec

/-- The modifiers plus 15, five bits each. -/
def shifted (t k : Nat) : Nat :=
  3375540148369256730750094377836762663495519031225136463250666218470785269451315422948741365823589291696819490947753639545259435139261315461280497190825629546264378007755719234593807386364877100 / 2 ^ (5 * (8 * t + k)) % 32

theorem shifted_table : ∀ t : Fin 16, ∀ k : Fin 8,
    Etc.eacModifier t k = (shifted t k : Int) - 15 ∧ shifted t k ≤ 29 := by
  decide +kernel

/-- The smaller one of 2047 and a number, divided by 8. -/
def cap (n : Nat) : Nat := bif Nat.ble n 2047 then n / 8 else 255

/-- The level for a base value and a multiplier, with the modifier. -/
def level (signed : Bool) (base m s : Nat) : Nat :=
  bif signed then cap ((base + 128) % 256 * 8 + m * s - (15 * m + 1)) else cap (base * 8 + 4 + m * s - 15 * m)

/-- The multiplier in eighths. -/
def mul (mult : Nat) : Nat := bif Nat.beq mult 0 then 1 else 8 * mult

/-- If all texels whose indices overlap the other fields have the level `v`, it is one of the list. -/
def fineFor (signed : Bool) (base mult t m v : Nat) : Bool :=
  bif Nat.beq (level signed base m (shifted t (base / 8 % 8))) v then
    bif Nat.beq (level signed base m (shifted t (base / 64 + 4 * (t % 2)))) v then
      bif Nat.beq (level signed base m (shifted t (t / 2))) v then
        bif Nat.beq (level signed base m (shifted t (mult % 8))) v then
          bif (Nat.beq (level signed base m (shifted t (mult / 8))) v ||
            Nat.beq (level signed base m (shifted t (mult / 8 + 2))) v ||
            Nat.beq (level signed base m (shifted t (mult / 8 + 4))) v ||
            Nat.beq (level signed base m (shifted t (mult / 8 + 6))) v) then
            (Etc.levels signed).contains v
          else true
        else true
      else true
    else true
  else true

def fine (signed : Bool) (base mult t : Nat) : Bool :=
  fineFor signed base mult t (mul mult) (level signed base (mul mult) (shifted t (base % 8)))

/-- All numbers below `n` have the property. -/
def allBelow (p : Nat → Bool) : Nat → Bool
  | 0 => true
  | n + 1 => bif p n then allBelow p n else false

theorem allBelow_spec {p : Nat → Bool} {n : Nat} (h : allBelow p n = true) {k : Nat} (hk : k < n) :
    p k = true := by
  induction n with
  | zero => omega
  | succ n ih =>
    unfold allBelow at h
    cases hp : p n with
    | false => rw [hp] at h; cases h
    | true =>
      rw [hp] at h
      rcases Nat.lt_succ_iff_lt_or_eq.mp hk with h' | rfl
      · exact ih h h'
      · exact hp

theorem fine_unsigned : allBelow (fun base => allBelow (fun mult => allBelow (fun t =>
    fine false base mult t) 16) 16) 256 = true := by decide +kernel

theorem fine_signed : allBelow (fun base => allBelow (fun mult => allBelow (fun t =>
    fine true base mult t) 16) 16) 256 = true := by decide +kernel

theorem fine_all (signed : Bool) {base mult t : Nat} (hb : base < 256) (hm : mult < 16) (ht : t < 16) :
    fine signed base mult t = true := by
  cases signed
  · exact allBelow_spec (allBelow_spec (allBelow_spec fine_unsigned hb) hm) ht
  · exact allBelow_spec (allBelow_spec (allBelow_spec fine_signed hb) hm) ht

/-- Blocks for the levels, as little-endian numbers. -/
def blocksU : List Nat :=
  [0, 40210710921985, 80421421845762, 160842843684868, 201053554606853, 241264265530630, 776,
   40210710921993, 80421421845770, 160842843685644, 201053554606861, 241264265530638, 3344,
   40210710924561, 80421421845778, 160842843688212, 201053554609429, 241264265530646,
   40210710958665, 32, 40210710922017, 80421421845794, 160842843684900, 201053554606885,
   241264265530662, 160842843834660, 40210710922025, 80421421845802, 160842843685676,
   201053554606893, 241264265530670, 3376, 40210710924593, 80421421845810, 160842843688244,
   201053554609461, 241264265530678, 832, 40210710922049, 80421421845826, 160842843685700,
   201053554606917, 241264265530694, 840, 40210710922057, 80421421845834, 160842843685708,
   201053554606925, 241264265530702, 3408, 40210710924625, 80421421845842, 160842843688276,
   201053554609493, 241264265530710, 864, 40210710922081, 80421421845858, 160842843685732,
   201053554606949, 241264265530726, 872, 40210710922089, 80421421845866, 160842843685740,
   201053554606957, 241264265530734, 3440, 40210710924657, 80421421845874, 160842843688308,
   201053554609525, 241264265530742, 3456, 40210710924673, 80421421845890, 160842843688324,
   201053554609541, 241264265530758, 3464, 40210710924681, 80421421845898, 160842843688332,
   201053554609549, 241264265530766, 3472, 40210710924689, 80421421845906, 160842843688340,
   201053554609557, 241264265530774, 3488, 201053554793325, 80421421845922, 160842843688356,
   201053554609573, 241264265530790, 3496, 40210710924713, 80421421845930, 160842843688364,
   201053554609581, 241264265530798, 3504, 40210710924721, 80421421845938, 160842843688372,
   201053554609589, 241264265530806, 241264265751990, 241264265785270]

def blocksS : List Nat :=
  [128, 80421421917330, 241264265751990, 0, 40210710921217, 8, 40210710921225, 40210710958665,
   160842843834660, 64, 40210710921281, 72, 40210710921289, 281474976710655, 160842843877220]

end Verif.Proofs.Store.Eac
