import Verif.Spec.Formats

/-!
# Specification: exchanging colour channels in the data

Nothing is decoded and encoded again: fields of the blocks change places.
-/

namespace Verif.Spec

/-- A pixel with red and blue, or red and green, exchanged. -/
def swapRedBlue (p : UInt32) : UInt32 := px (blue p) (green p) (red p) (alpha p)
def swapRedGreen (p : UInt32) : UInt32 := px (green p) (red p) (blue p) (alpha p)

/-- The two halves of a 16-byte block are exchanged. -/
def HalvesSwapped (from_ to : List UInt8) : Prop :=
  to.take 8 = from_.drop 8 ∧ to.drop 8 = from_.take 8

/-- The fields of red and blue of an RGB565 word at bit `pos` are exchanged. -/
def Word565Swapped (from_ to : List UInt8) (pos : Nat) : Prop :=
  field to pos 5 = field from_ (pos + 11) 5 ∧ field to (pos + 5) 6 = field from_ (pos + 5) 6 ∧
    field to (pos + 11) 5 = field from_ pos 5

/-- BC1: red and blue of both endpoints are exchanged; the indices stay. -/
def Bc1Swapped (from_ to : List UInt8) : Prop :=
  Word565Swapped from_ to 0 ∧ Word565Swapped from_ to 16 ∧ field to 32 32 = field from_ 32 32

/-- The words that select the mode of a BC1 block are in the same order. -/
def SameOrder (from_ to : List UInt8) : Prop :=
  field to 0 16 > field to 16 16 ↔ field from_ 0 16 > field from_ 16 16

/-- ATC: red and blue of both endpoints are exchanged; the mode bit and the indices stay. -/
def AtcSwapped (from_ to : List UInt8) : Prop :=
  field to 0 5 = field from_ 10 5 ∧ field to 5 5 = field from_ 5 5 ∧ field to 10 5 = field from_ 0 5 ∧
    field to 15 1 = field from_ 15 1 ∧ Word565Swapped from_ to 16 ∧ field to 32 32 = field from_ 32 32

/-- ETC: the first byte (red) and the third byte (blue) are exchanged. Bits 63 to 56 are the first byte. -/
def EtcSwapped (from_ to : List UInt8) : Prop :=
  Etc.bits to 63 56 = Etc.bits from_ 47 40 ∧ Etc.bits to 55 48 = Etc.bits from_ 55 48 ∧
    Etc.bits to 47 40 = Etc.bits from_ 63 56 ∧ Etc.bits to 39 0 = Etc.bits from_ 39 0

/-- None of the additional modes of ETC2. -/
def EtcPlain (blk : List UInt8) : Prop :=
  Etc.mode (Etc.diffBit blk) blk = .individual ∨ Etc.mode (Etc.diffBit blk) blk = .differential

/-- `to` is the block `from_` with red and blue exchanged. -/
def Format.RedBlueSwapped : Format → List UInt8 → List UInt8 → Prop
  | .bc1, from_, to => Bc1Swapped from_ to
  | .atcrgb, from_, to => AtcSwapped from_ to
  | .etc1, from_, to | .etc2rgb, from_, to => EtcSwapped from_ to
  | _, _, _ => False

end Verif.Spec
