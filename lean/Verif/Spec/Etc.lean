import Verif.Spec.Bits
import Verif.Spec.Bcn

/-!
# Specification: ETC1, ETC2 and EAC

Following the Khronos Data Format Specification, a block of eight bytes is one big-endian 64-bit
number with bit 63 the top bit of the first byte. Texel (`x`, `y`) has number `4 x + y` in the
index fields (columns first); in this crate's output it is texel `4 y + x` of the block.
A colour is a function from the channel (0 red, 1 green, 2 blue) to its value.
-/

namespace Verif.Spec.Etc

/-- Bits `hi` down to `lo` of a block. -/
def bits (blk : List UInt8) (hi lo : Nat) : Nat := beNat blk / 2 ^ lo % 2 ^ (hi + 1 - lo)

/-- The number in the index fields of output texel `i`. -/
def order (i : Nat) : Nat := 4 * (i % 4) + i / 4

/-- Widening by bit replication. -/
def expand4 (v : Nat) : Nat := 16 * v + v
def expand7 (v : Nat) : Nat := 2 * v + v / 64

/-- A 3-bit two's complement number. -/
def signed3 (v : Nat) : Int := if v < 4 then v else v - 8

/-- Clamping to 0 … 255. -/
def clamp255 (v : Int) : Nat := if v < 0 then 0 else if 255 < v then 255 else v.toNat

/-- The colour `c` with `m` added to all channels, and alpha `a`. -/
def shade (c : Nat → Nat) (m : Int) (a : Nat) : UInt32 :=
  px (clamp255 (c 0 + m)) (clamp255 (c 1 + m)) (clamp255 (c 2 + m)) a

/-- The 2-bit index of texel `i`: most significant bits in 31 … 16, least significant in 15 … 0. -/
def index (blk : List UInt8) (i : Nat) : Nat :=
  2 * bits blk (16 + order i) (16 + order i) + bits blk (order i) (order i)

/-! ## Individual and differential modes (ETC1) -/

/-- The small and the large intensity modifier of each table codeword. -/
def intensity : List (Int × Int) :=
  [(2, 8), (5, 17), (9, 29), (13, 42), (18, 60), (24, 80), (33, 106), (47, 183)]

/-- The modifier chosen by a 2-bit index: small, large, -small, -large. -/
def modifier (codeword idx : Nat) : Int :=
  let (small, large) := intensity.getD codeword (0, 0)
  if idx = 0 then small else if idx = 1 then large else if idx = 2 then -small else -large

/-- The diff bit (the opaque bit of RGBA1 blocks). -/
def diffBit (blk : List UInt8) : Bool := bits blk 33 33 == 1

/-- The sub-block of texel `i`: with the flip bit set the second one is the lower half of the block,
otherwise the right half. -/
def second (blk : List UInt8) (i : Nat) : Bool :=
  if bits blk 32 32 = 1 then decide (2 ≤ i / 4) else decide (2 ≤ i % 4)

/-- The table codeword of a sub-block. -/
def codeword (blk : List UInt8) (snd : Bool) : Nat :=
  if snd then bits blk 36 34 else bits blk 39 37

/-- Base colours in individual mode. -/
def individual (blk : List UInt8) (snd : Bool) (ch : Nat) : Nat :=
  if snd then expand4 (bits blk (59 - 8 * ch) (56 - 8 * ch))
  else expand4 (bits blk (63 - 8 * ch) (60 - 8 * ch))

/-- The 5-bit value of the second base colour in differential mode, before the range check. -/
def diffSum (blk : List UInt8) (ch : Nat) : Int :=
  bits blk (63 - 8 * ch) (59 - 8 * ch) + signed3 (bits blk (58 - 8 * ch) (56 - 8 * ch))

/-- It does not fit in 5 bits. -/
def overflows (blk : List UInt8) (ch : Nat) : Prop := diffSum blk ch < 0 ∨ 31 < diffSum blk ch

instance (blk : List UInt8) (ch : Nat) : Decidable (overflows blk ch) := by
  unfold overflows; infer_instance

/-- Base colours in differential mode. A sum outside 5 bits is illegal in ETC1 (and selects another
mode in ETC2); this crate's ETC1 decoder takes it modulo 32. -/
def differential (blk : List UInt8) (snd : Bool) (ch : Nat) : Nat :=
  if snd then expand5 (diffSum blk ch % 32).toNat
  else expand5 (bits blk (63 - 8 * ch) (59 - 8 * ch))

/-- Texel `i` of an ETC1 block. -/
def etc1Texel (blk : List UInt8) (i : Nat) : UInt32 :=
  let snd := second blk i
  let base := if diffBit blk then differential blk snd else individual blk snd
  shade base (modifier (codeword blk snd) (index blk i)) 255

/-! ## The additional modes of ETC2 -/

inductive Mode where
  | individual | differential | t | h | planar
deriving DecidableEq, Repr

/-- The mode of a block; `diff` tells whether it has differential base colours at all. -/
def mode (diff : Bool) (blk : List UInt8) : Mode :=
  if diff = false then .individual
  else if overflows blk 0 then .t
  else if overflows blk 1 then .h
  else if overflows blk 2 then .planar
  else .differential

/-- The distance table. -/
def distance (k : Nat) : Int := [3, 6, 11, 16, 23, 32, 41, 64].getD k 0

/-- A colour from three 4-bit values. -/
def rgb4 (r g b : Nat) (ch : Nat) : Nat :=
  expand4 (if ch = 0 then r else if ch = 1 then g else b)

/-- The base colours of a T block. -/
def tBase1 (blk : List UInt8) : Nat → Nat :=
  rgb4 (4 * bits blk 60 59 + bits blk 57 56) (bits blk 55 52) (bits blk 51 48)
def tBase2 (blk : List UInt8) : Nat → Nat :=
  rgb4 (bits blk 47 44) (bits blk 43 40) (bits blk 39 36)

/-- The paint colours of a T block. -/
def tPaint (blk : List UInt8) (idx a : Nat) : UInt32 :=
  let d := distance (2 * bits blk 35 34 + bits blk 32 32)
  if idx = 0 then shade (tBase1 blk) 0 a
  else if idx = 1 then shade (tBase2 blk) d a
  else if idx = 2 then shade (tBase2 blk) 0 a
  else shade (tBase2 blk) (-d) a

/-- The 4-bit channels of the base colours of an H block. -/
def hRed1 (blk : List UInt8) : Nat := bits blk 62 59
def hGreen1 (blk : List UInt8) : Nat := 2 * bits blk 58 56 + bits blk 52 52
def hBlue1 (blk : List UInt8) : Nat := 8 * bits blk 51 51 + bits blk 49 47
def hRed2 (blk : List UInt8) : Nat := bits blk 46 43
def hGreen2 (blk : List UInt8) : Nat := bits blk 42 39
def hBlue2 (blk : List UInt8) : Nat := bits blk 38 35

/-- The distance index of an H block: two explicit bits, and one given by the order of the base
colours as 12-bit numbers. -/
def hDistance (blk : List UInt8) : Nat :=
  4 * bits blk 34 34 + 2 * bits blk 32 32 +
    if 256 * hRed2 blk + 16 * hGreen2 blk + hBlue2 blk ≤
        256 * hRed1 blk + 16 * hGreen1 blk + hBlue1 blk then 1 else 0

/-- The paint colours of an H block. -/
def hPaint (blk : List UInt8) (idx a : Nat) : UInt32 :=
  let c1 := rgb4 (hRed1 blk) (hGreen1 blk) (hBlue1 blk)
  let c2 := rgb4 (hRed2 blk) (hGreen2 blk) (hBlue2 blk)
  let d := distance (hDistance blk)
  if idx = 0 then shade c1 d a
  else if idx = 1 then shade c1 (-d) a
  else if idx = 2 then shade c2 d a
  else shade c2 (-d) a

/-- The colours at the origin, at the right and at the bottom of a planar block. -/
def planarO (blk : List UInt8) (ch : Nat) : Nat :=
  if ch = 0 then expand6 (bits blk 62 57)
  else if ch = 1 then expand7 (64 * bits blk 56 56 + bits blk 54 49)
  else expand6 (32 * bits blk 48 48 + 8 * bits blk 44 43 + bits blk 41 39)
def planarH (blk : List UInt8) (ch : Nat) : Nat :=
  if ch = 0 then expand6 (2 * bits blk 38 34 + bits blk 32 32)
  else if ch = 1 then expand7 (bits blk 31 25)
  else expand6 (bits blk 24 19)
def planarV (blk : List UInt8) (ch : Nat) : Nat :=
  if ch = 0 then expand6 (bits blk 18 13)
  else if ch = 1 then expand7 (bits blk 12 6)
  else expand6 (bits blk 5 0)

/-- One channel of texel (`x`, `y`) of a planar block; `/` rounds down. -/
def planarChannel (blk : List UInt8) (x y ch : Nat) : Nat :=
  clamp255 (((x : Int) * ((planarH blk ch : Int) - planarO blk ch) +
    (y : Int) * ((planarV blk ch : Int) - planarO blk ch) + 4 * planarO blk ch + 2) / 4)

/-- Texel `i` of a planar block. -/
def planarTexel (blk : List UInt8) (i : Nat) : UInt32 :=
  px (planarChannel blk (i % 4) (i / 4) 0) (planarChannel blk (i % 4) (i / 4) 1)
    (planarChannel blk (i % 4) (i / 4) 2) 255

/-- Texel `i` of an ETC2 RGB block. -/
def etc2RgbTexel (blk : List UInt8) (i : Nat) : UInt32 :=
  match mode (diffBit blk) blk with
  | .t => tPaint blk (index blk i) 255
  | .h => hPaint blk (index blk i) 255
  | .planar => planarTexel blk i
  | .individual | .differential => etc1Texel blk i

/-! ## Punch-through alpha (RGBA1) -/

/-- A texel of a non-planar block is transparent if the opaque bit is clear and its index is 2. -/
def transparent (blk : List UInt8) (i : Nat) : Prop :=
  diffBit blk = false ∧ mode true blk ≠ .planar ∧ index blk i = 2

instance (blk : List UInt8) (i : Nat) : Decidable (transparent blk i) := by
  unfold transparent; infer_instance

/-- The modifier in differential blocks without the opaque bit: 0 replaces the small values. -/
def modifierA (opaq : Bool) (codeword idx : Nat) : Int :=
  if opaq = false ∧ (idx = 0 ∨ idx = 2) then 0 else modifier codeword idx

/-- Texel `i` of an ETC2 RGBA1 block. The standard makes transparent texels black; this crate keeps
the colour. -/
def etc2Rgba1Texel (blk : List UInt8) (i : Nat) : UInt32 :=
  let a := if transparent blk i then 0 else 255
  match mode true blk with
  | .t => tPaint blk (index blk i) a
  | .h => hPaint blk (index blk i) a
  | .planar => planarTexel blk i
  | .individual | .differential =>
    let snd := second blk i
    shade (differential blk snd) (modifierA (diffBit blk) (codeword blk snd) (index blk i)) a

/-- Texel `i` of an ETC2 RGBA1 block as the standard defines it. -/
def etc2Rgba1Std (blk : List UInt8) (i : Nat) : UInt32 :=
  if transparent blk i then px 0 0 0 0 else etc2Rgba1Texel blk i

/-! ## EAC alpha (RGBA8) and EAC R11 / RG11 -/

/-- The EAC modifier table. -/
def eacTable : List (List Int) :=
  [[-3, -6, -9, -15, 2, 5, 8, 14], [-3, -7, -10, -13, 2, 6, 9, 12],
   [-2, -5, -8, -13, 1, 4, 7, 12], [-2, -4, -6, -13, 1, 3, 5, 12],
   [-3, -6, -8, -12, 2, 5, 7, 11], [-3, -7, -9, -11, 2, 6, 8, 10],
   [-4, -7, -8, -11, 3, 6, 7, 10], [-3, -5, -8, -11, 2, 4, 7, 10],
   [-2, -6, -8, -10, 1, 5, 7, 9], [-2, -5, -8, -10, 1, 4, 7, 9],
   [-2, -4, -8, -10, 1, 3, 7, 9], [-2, -5, -7, -10, 1, 4, 6, 9],
   [-3, -4, -7, -10, 2, 3, 6, 9], [-1, -2, -3, -10, 0, 1, 2, 9],
   [-4, -6, -8, -9, 3, 5, 7, 8], [-3, -5, -7, -9, 2, 4, 6, 8]]

/-- The modifier for a 3-bit index. -/
def eacModifier (table idx : Nat) : Int := (eacTable.getD table []).getD idx 0

/-- The 3-bit index of texel `i`: the first one is in bits 47 … 45. -/
def eacIndex (blk : List UInt8) (i : Nat) : Nat := bits blk (47 - 3 * order i) (45 - 3 * order i)

/-- The alpha value of texel `i` of an EAC alpha block. -/
def eacAlpha (blk : List UInt8) (i : Nat) : Nat :=
  clamp255 (bits blk 63 56 + bits blk 55 52 * eacModifier (bits blk 51 48) (eacIndex blk i))

/-- Texel `i` of an ETC2 RGBA8 block: alpha in the first 8 bytes, colour in the last 8. -/
def etc2Rgba8Texel (blk : List UInt8) (i : Nat) : UInt32 :=
  withAlpha (etc2RgbTexel (blk.drop 8) i) (eacAlpha (blk.take 8) i)

/-- The multiplier of an 11-bit EAC block, in units of the 11-bit values: 0 stands for 1/8. -/
def mult11 (blk : List UInt8) : Nat := if bits blk 55 52 = 0 then 1 else 8 * bits blk 55 52

/-- The 11-bit value of an unsigned EAC block for a 3-bit index. -/
def eac11 (blk : List UInt8) (idx : Nat) : Int :=
  max 0 (min 2047 (bits blk 63 56 * 8 + 4 + mult11 blk * eacModifier (bits blk 51 48) idx))

/-- An 8-bit two's complement number. -/
def signed8 (v : Nat) : Int := if v < 128 then v else v - 256

/-- The value of a signed EAC block for a 3-bit index, shifted to 0 … 2047 with zero at 1023. -/
def eac11s (blk : List UInt8) (idx : Nat) : Int :=
  max 0 (min 2047 (signed8 (bits blk 63 56) * 8 + 1023 +
    mult11 blk * eacModifier (bits blk 51 48) idx))

/-- An EAC value for either signedness, reduced to 8 bits. -/
def eac8 (signed : Bool) (blk : List UInt8) (idx : Nat) : Nat :=
  ((if signed then eac11s blk idx else eac11 blk idx) / 8).toNat

/-- Texel `i` of an EAC R11 block as the standard defines it. -/
def eacrTexel (signed : Bool) (blk : List UInt8) (i : Nat) : UInt32 :=
  px (eac8 signed blk (eacIndex blk i)) 0 0 255
/-- Texel `i` of an EAC RG11 block as the standard defines it. -/
def eacrgTexel (signed : Bool) (blk : List UInt8) (i : Nat) : UInt32 :=
  px (eac8 signed (blk.take 8) (eacIndex (blk.take 8) i))
    (eac8 signed (blk.drop 8) (eacIndex (blk.drop 8) i)) 0 255

/-- What the crate takes as the 3-bit index of texel `i`: the same field of the block read as a
little-endian number. -/
def eacIndexLE (blk : List UInt8) (i : Nat) : Nat := field blk (45 - 3 * order i) 3

/-- What the crate computes for R11 and RG11. -/
def eacrTexelAsIs (signed : Bool) (blk : List UInt8) (i : Nat) : UInt32 :=
  px (eac8 signed blk (eacIndexLE blk i)) 0 0 255
def eacrgTexelAsIs (signed : Bool) (blk : List UInt8) (i : Nat) : UInt32 :=
  px (eac8 signed (blk.take 8) (eacIndexLE (blk.take 8) i))
    (eac8 signed (blk.drop 8) (eacIndexLE (blk.drop 8) i)) 0 255

end Verif.Spec.Etc
