import Verif.Spec.Etc

/-!
# Specification: pictures of ETC, EAC, ATC and PVRTC textures

A gradient is given by three colours with 6, 7 and 6 bits for red, green and blue: those at the origin
(0), right of the block (1) and below the block (2).
-/

namespace Verif.Spec

/-- Colours with 6, 7 and 6 bits. -/
def Is676 (c : Nat → Nat) : Prop := c 0 < 64 ∧ c 1 < 128 ∧ c 2 < 64

/-- Channel `ch` of such a colour with 8 bits. -/
def widen676 (c : Nat → Nat) (ch : Nat) : Nat :=
  if ch = 1 then Etc.expand7 (c ch) else expand6 (c ch)

/-- Channel `ch` of texel (`x`, `y`) of the gradient between the colours `c 0`, `c 1` and `c 2`, rounded
to the nearest value. -/
def gradient (c : Nat → Nat → Nat) (x y ch : Nat) : Nat :=
  let o : Int := widen676 (c 0) ch
  let r : Int := widen676 (c 1) ch
  let b : Int := widen676 (c 2) ch
  Etc.clamp255 ((4 * o + x * (r - o) + y * (b - o) + 2) / 4)

/-- The colour of texel (`x`, `y`). -/
def gradientColour (c : Nat → Nat → Nat) (x y a : Nat) : UInt32 :=
  px (gradient c x y 0) (gradient c x y 1) (gradient c x y 2) a

/-- The half of its block that pixel (`x`, `y`) is in: `true` for the right one, or for the lower one if
`flip` is set. -/
def halfAt (flip : Bool) (x y : Nat) : Bool := if flip then decide (2 ≤ y % 4) else decide (2 ≤ x % 4)

/-- The opaque colour of three channels with 5 bits each, and of three channels with 5, 6 and 5 bits. -/
def opaque555 (c : Nat → Nat) (a : Nat := 255) : UInt32 := px (expand5 (c 0)) (expand5 (c 1)) (expand5 (c 2)) a
def opaque565 (c : Nat → Nat) (a : Nat := 255) : UInt32 := px (expand5 (c 0)) (expand6 (c 1)) (expand5 (c 2)) a

/-- The two colours of a PVRTC texture: `c false` has 5, 5 and 4 bits, `c true` has 5 bits per channel. -/
def IsTwoTone (c : Bool → Nat → Nat) : Prop :=
  (c false 0 < 32 ∧ c false 1 < 32 ∧ c false 2 < 16) ∧ c true 0 < 32 ∧ c true 1 < 32 ∧ c true 2 < 32

/-- The opaque colour `s` of the two; four bits are widened to five by repeating the highest one. -/
def twoToneColour (c : Bool → Nat → Nat) (s : Bool) : UInt32 :=
  px (expand5 (c s 0)) (expand5 (c s 1)) (expand5 (if s then c s 2 else c s 2 * 2 + c s 2 / 8)) 255

/-- A colour with `n` bits for all channels. -/
def HasBits (n : Nat) (c : Nat → Nat) : Prop := ∀ ch, c ch < 2 ^ n

end Verif.Spec
