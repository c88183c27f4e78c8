import Verif.Spec.Move

/-!
# Specification: turning ETC blocks upside down and left to right

Bits are numbered as in `Spec/Etc.lean`. Nothing is decoded and encoded again. Planar blocks are left out:
the colour at the origin would have to become the one in the opposite corner, which need not have a code.
-/

namespace Verif.Spec.Etc

/-- The 2-bit indices are rearranged. -/
def IndicesMoved (σ : Rearrangement) (from_ to : List UInt8) : Prop :=
  ∀ i, i < 16 → index to i = index from_ (σ i)

/-- The two halves of a block change places: their tables and their base colours. `diff` says whether the base
colours are those of the differential mode; then the sum of the second one and the difference of the first
one must be representable. -/
structure HalvesExchanged (diff : Bool) (from_ to : List UInt8) : Prop where
  bits_kept : bits to 33 32 = bits from_ 33 32
  first_table : bits to 39 37 = bits from_ 36 34
  second_table : bits to 36 34 = bits from_ 39 37
  colours : ∀ ch, ch < 3 →
    if diff then bits to (63 - 8 * ch) (59 - 8 * ch) = diffSum from_ ch ∧
      diffSum to ch = bits from_ (63 - 8 * ch) (59 - 8 * ch)
    else bits to (63 - 8 * ch) (60 - 8 * ch) = bits from_ (59 - 8 * ch) (56 - 8 * ch) ∧
      bits to (59 - 8 * ch) (56 - 8 * ch) = bits from_ (63 - 8 * ch) (60 - 8 * ch)

/-- A block with two halves; they change places if the flip bit is `across`. -/
def PlainMoved (σ : Rearrangement) (across : Nat) (diff : Bool) (from_ to : List UInt8) : Prop :=
  (if bits from_ 32 32 = across then HalvesExchanged diff from_ to else bits to 63 32 = bits from_ 63 32) ∧
    IndicesMoved σ from_ to

/-- An ETC2 block, `diff` as in `mode`. -/
def Etc2Moved (σ : Rearrangement) (across : Nat) (diff : Bool) (from_ to : List UInt8) : Prop :=
  match mode diff from_ with
  | .individual | .differential => PlainMoved σ across diff from_ to
  | .t | .h => bits to 63 32 = bits from_ 63 32 ∧ IndicesMoved σ from_ to
  | .planar => False

/-- An EAC alpha block: the 3-bit indices are rearranged. -/
def EacMoved (σ : Rearrangement) (from_ to : List UInt8) : Prop :=
  bits to 63 48 = bits from_ 63 48 ∧ ∀ i, i < 16 → eacIndex to i = eacIndex from_ (σ i)

end Verif.Spec.Etc

namespace Verif.Spec

/-- `to` is the block `from_` with rearranged texels. -/
def Format.EtcMoved : Format → Rearrangement → Nat → List UInt8 → List UInt8 → Prop
  | .etc1, σ, across, from_, to => Etc.PlainMoved σ across (Etc.diffBit from_) from_ to
  | .etc2rgb, σ, across, from_, to => Etc.Etc2Moved σ across (Etc.diffBit from_) from_ to
  | .etc2rgba1, σ, across, from_, to => Etc.Etc2Moved σ across true from_ to
  | .etc2rgba8, σ, across, from_, to => Etc.EacMoved σ (from_.take 8) (to.take 8) ∧
      Etc.Etc2Moved σ across (Etc.diffBit (from_.drop 8)) (from_.drop 8) (to.drop 8)
  | _, _, _, _, _ => False

/-- `to` is the block `from_` upside down. The halves change places if they are the upper and the lower one. -/
def Format.EtcFlipped (fmt : Format) : List UInt8 → List UInt8 → Prop := fmt.EtcMoved flip4 1

/-- `to` is the block `from_` left to right. The halves change places if they are the left and the right one. -/
def Format.EtcMirrored (fmt : Format) : List UInt8 → List UInt8 → Prop := fmt.EtcMoved mirror4 0

end Verif.Spec
