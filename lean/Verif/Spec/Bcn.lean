import Verif.Spec.Bits
import Verif.Spec.Image

/-!
# Specification: BC1 – BC5 (S3TC / RGTC)
-/

namespace Verif.Spec

/-- 5-bit and 6-bit channels widened to 8 bits by bit replication. -/
def expand5 (v : Nat) : Nat := 8 * v + v / 4
def expand6 (v : Nat) : Nat := 4 * v + v / 16

/-- The channels of an RGB565 word. -/
def red565 (q : Nat) : Nat := expand5 (q / 2048)
def green565 (q : Nat) : Nat := expand6 (q / 32 % 64)
def blue565 (q : Nat) : Nat := expand5 (q % 32)

/-- One channel of entry `k` of the BC1 palette. -/
def bc1Channel (fourColours : Bool) (c0 c1 k : Nat) : Nat :=
  match k with
  | 0 => c0
  | 1 => c1
  | 2 => if fourColours then (2 * c0 + c1) / 3 else (c0 + c1) / 2
  | _ => if fourColours then (c0 + 2 * c1) / 3 else 0

/-- Texel `i` of a BC1 block; `punchThrough` makes black in three-colour blocks transparent. -/
def bc1Texel (punchThrough : Bool) (blk : List UInt8) (i : Nat) : UInt32 :=
  let q0 := field blk 0 16
  let q1 := field blk 16 16
  let k := field blk (32 + 2 * i) 2
  let four := decide (q0 > q1)
  px (bc1Channel four (red565 q0) (red565 q1) k)
    (bc1Channel four (green565 q0) (green565 q1) k)
    (bc1Channel four (blue565 q0) (blue565 q1) k)
    (if punchThrough ∧ ¬ four ∧ k = 3 then 0 else 255)

/-- Entry `k` of the table of eight interpolated values. -/
def bc3Entry (a0 a1 k : Nat) : Nat :=
  if k = 0 then a0
  else if k = 1 then a1
  else if a0 > a1 then (a0 * (8 - k) + a1 * (k - 1)) / 7
  else if k = 6 then 0
  else if k = 7 then 255
  else (a0 * (6 - k) + a1 * (k - 1)) / 5

/-- Value `i` of an 8-byte block of interpolated values (BC3 alpha, BC4, half of BC5). -/
def bc3Value (blk : List UInt8) (i : Nat) : Nat :=
  bc3Entry (byteAt blk 0) (byteAt blk 1) (field blk (16 + 3 * i) 3)

/-- A pixel with its alpha replaced. -/
def withAlpha (p : UInt32) (a : Nat) : UInt32 := px (red p) (green p) (blue p) a

/-- Texel `i` of a BC2 block: explicit alpha in the first 8 bytes, colour in the last 8. -/
def bc2Texel (blk : List UInt8) (i : Nat) : UInt32 :=
  withAlpha (bc1Texel false (blk.drop 8) i) (17 * field blk (4 * i) 4)

/-- Texel `i` of a BC3 block: interpolated alpha in the first 8 bytes, colour in the last 8. -/
def bc3Texel (blk : List UInt8) (i : Nat) : UInt32 :=
  withAlpha (bc1Texel false (blk.drop 8) i) (bc3Value blk i)

/-- Texel `i` of a BC4 block. -/
def bc4Texel (blk : List UInt8) (i : Nat) : UInt32 := px (bc3Value blk i) 0 0 255

/-- Texel `i` of a BC5 block. -/
def bc5Texel (blk : List UInt8) (i : Nat) : UInt32 :=
  px (bc3Value blk i) (bc3Value (blk.drop 8) i) 0 255

end Verif.Spec
