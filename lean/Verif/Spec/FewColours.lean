import Verif.Spec.Formats

/-!
# Specification: how many values the pixels of one block can take
-/

namespace Verif.Spec

/-- What is looked at: whole pixels, their colour without alpha, or one channel. -/
inductive View where
  | whole | rgb | alpha | red | green
deriving DecidableEq, Repr

/-- The part of a pixel word that is looked at. -/
def View.of : View → UInt32 → Nat
  | .whole, p => p.toNat
  | .rgb, p => p.toNat % 2 ^ 24
  | .alpha, p => Spec.alpha p
  | .red, p => Spec.red p
  | .green, p => Spec.green p

/-- Some pixel of block (`a`, `b`) of the picture `out` has the value `v`. -/
def SeenIn (view : View) (w h : Nat) (out : List UInt32) (a b v : Nat) : Prop :=
  ∃ x y p, x < w ∧ y < h ∧ x / 4 = a ∧ y / 4 = b ∧ out[y * w + x]? = some p ∧ view.of p = v

/-- No block of 4 × 4 pixels shows more than `n` different values. -/
def AtMost (n : Nat) (view : View) (w h : Nat) (out : List UInt32) : Prop :=
  ∀ a b (vs : List Nat), vs.Nodup → (∀ v ∈ vs, SeenIn view w h out a b v) → vs.length ≤ n

/-- The limits of the formats. A block has 16 pixels, so 16 means that there is no limit. -/
def limits : List (Format × View × Nat) :=
  [(.bc1, .whole, 4), (.bc1a, .whole, 4), (.bc2, .rgb, 4), (.bc3, .rgb, 4), (.bc3, .alpha, 8),
   (.bc4, .whole, 8), (.bc5, .red, 8), (.bc5, .green, 8), (.etc1, .whole, 8), (.etc2rgba8, .alpha, 8),
   (.eacr, .whole, 8), (.eacrs, .whole, 8), (.eacrg, .red, 8), (.eacrg, .green, 8),
   (.eacrgs, .red, 8), (.eacrgs, .green, 8), (.atcrgb, .whole, 4), (.atcrgba, .rgb, 4),
   (.atcrgba, .alpha, 8), (.bc7, .whole, 16), (.etc2rgb, .whole, 16), (.etc2rgba1, .rgb, 16)]

end Verif.Spec
