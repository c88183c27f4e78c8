import Verif.Spec.Move

/-!
# Specification: exchanging rows and columns in ETC blocks

Bits are numbered as in `Spec/Etc.lean`. Nothing is decoded and encoded again.
-/

namespace Verif.Spec.Etc

/-- The 2-bit indices are transposed; bit `n` of either half belongs to the texel in column `n / 4` and row
`n % 4`. -/
def IndicesTransposed (from_ to : List UInt8) : Prop :=
  ∀ n, n < 16 → bits to n n = bits from_ (order n) (order n) ∧
    bits to (16 + n) (16 + n) = bits from_ (16 + order n) (16 + order n)

/-- A block of ETC1 or of the ETC1 modes: the flip bit changes, so that an upper half becomes a left half. -/
def PlainTransposed (from_ to : List UInt8) : Prop :=
  bits to 63 33 = bits from_ 63 33 ∧ bits to 32 32 = 1 - bits from_ 32 32 ∧ IndicesTransposed from_ to

/-- A T or H block: only the indices change. -/
def PaintTransposed (from_ to : List UInt8) : Prop :=
  bits to 63 32 = bits from_ 63 32 ∧ IndicesTransposed from_ to

/-- A planar block: the colours at the right and at the bottom change places. -/
def PlanarTransposed (from_ to : List UInt8) : Prop :=
  bits to 63 39 = bits from_ 63 39 ∧ bits to 33 33 = bits from_ 33 33 ∧
    2 * bits to 38 34 + bits to 32 32 = bits from_ 18 13 ∧ bits to 31 25 = bits from_ 12 6 ∧
    bits to 24 19 = bits from_ 5 0 ∧
    bits to 18 13 = 2 * bits from_ 38 34 + bits from_ 32 32 ∧ bits to 12 6 = bits from_ 31 25 ∧
    bits to 5 0 = bits from_ 24 19

/-- An ETC2 RGB block. -/
def Etc2Transposed (from_ to : List UInt8) : Prop :=
  match mode (diffBit from_) from_ with
  | .individual | .differential => PlainTransposed from_ to
  | .t | .h => PaintTransposed from_ to
  | .planar => PlanarTransposed from_ to

/-- An ETC2 RGBA1 block; it has no individual mode. -/
def Etc2A1Transposed (from_ to : List UInt8) : Prop :=
  match mode true from_ with
  | .individual | .differential => PlainTransposed from_ to
  | .t | .h => PaintTransposed from_ to
  | .planar => PlanarTransposed from_ to

/-- An EAC alpha block: the 3-bit indices, one column after the other, are transposed. -/
def EacTransposed (from_ to : List UInt8) : Prop :=
  bits to 63 48 = bits from_ 63 48 ∧
    ∀ n, n < 16 → bits to (47 - 3 * n) (45 - 3 * n) = bits from_ (47 - 3 * order n) (45 - 3 * order n)

end Verif.Spec.Etc

namespace Verif.Spec

/-- `to` is the block `from_` with rows and columns exchanged. -/
def Format.EtcTransposed : Format → List UInt8 → List UInt8 → Prop
  | .etc1, from_, to => Etc.PlainTransposed from_ to
  | .etc2rgb, from_, to => Etc.Etc2Transposed from_ to
  | .etc2rgba1, from_, to => Etc.Etc2A1Transposed from_ to
  | .etc2rgba8, from_, to => Etc.EacTransposed (from_.take 8) (to.take 8) ∧
      Etc.Etc2Transposed (from_.drop 8) (to.drop 8)
  | _, _, _ => False

end Verif.Spec
