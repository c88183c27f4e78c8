/-!
# Specification: bit fields of a block

A block of bytes is read as one little-endian number; bit 0 is the lowest bit of the first byte.
-/

namespace Verif.Spec

/-- The little-endian number of a list of bytes. -/
def leNat : List UInt8 → Nat
  | [] => 0
  | b :: bs => b.toNat + 256 * leNat bs

/-- The big-endian number of a list of bytes. -/
def beNat (bs : List UInt8) : Nat := leNat bs.reverse

/-- The `n` bits at bit position `pos` of a block. -/
def field (blk : List UInt8) (pos n : Nat) : Nat := leNat blk / 2 ^ pos % 2 ^ n

/-- Byte number `i` of a block. -/
def byteAt (blk : List UInt8) (i : Nat) : Nat := field blk (8 * i) 8

end Verif.Spec
