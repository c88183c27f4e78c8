import Verif.Spec.Formats

/-!
# Specification: rearranging the texels of a block

In BC1 to BC5 and ATC a block has endpoints and one index per texel, so that its texels can be
rearranged by rearranging the indices. Nothing is decoded and encoded again.
-/

namespace Verif.Spec

/-- A rearrangement of the 16 texels of a block: texel `i` is taken from texel `σ i`. -/
abbrev Rearrangement := Nat → Nat

/-- Upside down, left to right, and rows exchanged with columns. -/
def flip4 : Rearrangement := fun i => (3 - i / 4) * 4 + i % 4
def mirror4 : Rearrangement := fun i => i / 4 * 4 + (3 - i % 4)
def transpose4 : Rearrangement := fun i => i % 4 * 4 + i / 4

/-- The `n`-bit fields from bit `pos` on, one per texel, are rearranged. -/
def FieldsMoved (σ : Rearrangement) (pos n : Nat) (from_ to : List UInt8) : Prop :=
  ∀ i, i < 16 → field to (pos + n * i) n = field from_ (pos + n * σ i) n

/-- A colour block: the same endpoints (32 bits), 2-bit indices rearranged. -/
def ColoursMoved (σ : Rearrangement) (from_ to : List UInt8) : Prop :=
  field to 0 32 = field from_ 0 32 ∧ FieldsMoved σ 32 2 from_ to

/-- A block of interpolated values: the same endpoints (16 bits), 3-bit indices rearranged. -/
def ValuesMoved (σ : Rearrangement) (from_ to : List UInt8) : Prop :=
  field to 0 16 = field from_ 0 16 ∧ FieldsMoved σ 16 3 from_ to

/-- `to` is the block `from_` with rearranged indices; false for the formats whose blocks are built
differently. -/
def Format.BlockMoved (fmt : Format) (σ : Rearrangement) (from_ to : List UInt8) : Prop :=
  match fmt with
  | .bc1 | .bc1a | .atcrgb => ColoursMoved σ from_ to
  | .bc2 => FieldsMoved σ 0 4 from_ to ∧ ColoursMoved σ (from_.drop 8) (to.drop 8)
  | .bc3 | .atcrgba => ValuesMoved σ from_ to ∧ ColoursMoved σ (from_.drop 8) (to.drop 8)
  | .bc4 => ValuesMoved σ from_ to
  | .bc5 => ValuesMoved σ from_ to ∧ ValuesMoved σ (from_.drop 8) (to.drop 8)
  | _ => False

end Verif.Spec
