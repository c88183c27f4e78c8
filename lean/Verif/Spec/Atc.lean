import Verif.Spec.Bcn

/-!
# Specification: ATC (AMD_compressed_ATC_texture)

Two endpoints, the first in 555 with a mode bit on top, the second in 565, then 2-bit indices.
-/

namespace Verif.Spec.Atc

/-- The mode bit. -/
def alternate (blk : List UInt8) : Bool := field blk 15 1 == 1

/-- The channels (0 red, 1 green, 2 blue) of the two endpoints. -/
def end0 (blk : List UInt8) (ch : Nat) : Nat :=
  if ch = 0 then expand5 (field blk 10 5)
  else if ch = 1 then expand5 (field blk 5 5)
  else expand5 (field blk 0 5)
def end1 (blk : List UInt8) (ch : Nat) : Nat :=
  if ch = 0 then expand5 (field blk 27 5)
  else if ch = 1 then expand6 (field blk 21 6)
  else expand5 (field blk 16 5)

/-- The 2-bit index of texel `i`. -/
def index (blk : List UInt8) (i : Nat) : Nat := field blk (32 + 2 * i) 2

/-- One channel of entry `k` of the palette of the normal mode. -/
def normalEntry (c0 c1 k : Nat) : Nat :=
  match k with
  | 0 => c0
  | 1 => (5 * c0 + 3 * c1) / 8
  | 2 => (3 * c0 + 5 * c1) / 8
  | _ => c1

/-- One channel of entry `k` of the palette of the alternate mode (subtraction stops at 0). -/
def alternateEntry (c0 c1 k : Nat) : Nat :=
  match k with
  | 0 => 0
  | 1 => c0 - c1 / 4
  | 2 => c0
  | _ => c1

/-- What this crate computes for the alternate mode: entry 1 is a quarter of the difference,
modulo 256. -/
def alternateEntryAsIs (c0 c1 k : Nat) : Nat :=
  match k with
  | 0 => 0
  | 1 => (((c0 : Int) - c1) / 4 % 256).toNat
  | 2 => c0
  | _ => c1

/-- Texel `i` of an ATC RGB block, for a given palette of the alternate mode. -/
def texelWith (alt : Nat → Nat → Nat → Nat) (blk : List UInt8) (i : Nat) : UInt32 :=
  let channel := fun ch =>
    (if alternate blk then alt else normalEntry) (end0 blk ch) (end1 blk ch) (index blk i)
  px (channel 0) (channel 1) (channel 2) 255

/-- Texel `i` of an ATC RGB block, in the standard and in this crate. -/
def rgbTexel : List UInt8 → Nat → UInt32 := texelWith alternateEntry
def rgbTexelAsIs : List UInt8 → Nat → UInt32 := texelWith alternateEntryAsIs

/-- Texel `i` of an ATC RGBA8 block of this crate: BC3 alpha in the first 8 bytes. -/
def rgbaTexelAsIs (blk : List UInt8) (i : Nat) : UInt32 :=
  withAlpha (rgbTexelAsIs (blk.drop 8) i) (bc3Value blk i)

end Verif.Spec.Atc
