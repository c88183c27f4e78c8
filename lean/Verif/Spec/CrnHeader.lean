import Verif.Spec.Bits

/-!
# Specification: the header of a Crunch file

A Crunch file starts with a header of big-endian fields at fixed offsets, followed by the offset
of every mip level.
-/

namespace Verif.Spec.Crn

/-- The big-endian number in the `n` bytes at offset `ofs` of the file. -/
def be (file : List UInt8) (ofs n : Nat) : Nat := beNat ((file.drop ofs).take n)

/-- The header fields a user sees. -/
def sig (file : List UInt8) : Nat := be file 0 2
def headerSize (file : List UInt8) : Nat := be file 2 2
def dataSize (file : List UInt8) : Nat := be file 6 4
def width (file : List UInt8) : Nat := be file 12 2
def height (file : List UInt8) : Nat := be file 14 2
def levels (file : List UInt8) : Nat := be file 16 1
def faces (file : List UInt8) : Nat := be file 17 1
def format (file : List UInt8) : Nat := be file 18 1
def userdata0 (file : List UInt8) : Nat := be file 25 4
def userdata1 (file : List UInt8) : Nat := be file 29 4

/-- The place of a palette: byte offset, byte size and number of entries. -/
structure Palette where
  ofs : Nat
  size : Nat
  num : Nat
deriving DecidableEq, Repr

/-- The palette descriptor at offset `o` of the header. -/
def palette (file : List UInt8) (o : Nat) : Palette :=
  ⟨be file o 3, be file (o + 3) 3, be file (o + 6) 2⟩

def colorEndpoints (file : List UInt8) : Palette := palette file 33
def colorSelectors (file : List UInt8) : Palette := palette file 41
def alphaEndpoints (file : List UInt8) : Palette := palette file 49
def alphaSelectors (file : List UInt8) : Palette := palette file 57
def tablesSize (file : List UInt8) : Nat := be file 65 2
def tablesOfs (file : List UInt8) : Nat := be file 67 3
/-- The offset of mip level `i`. -/
def levelOfs (file : List UInt8) (i : Nat) : Nat := be file (70 + 4 * i) 4

/-- The number of bytes the header of this file occupies, with its level offsets. -/
def headerBytes (file : List UInt8) : Nat := 70 + 4 * levels file

/-- The header is acceptable for a file of `size` bytes: the signature is `Hx`, the header is not
shorter than the smallest one and the file is complete. -/
def HeaderOk (file : List UInt8) (size : Nat) : Prop :=
  sig file = 'H'.toNat * 256 + 'x'.toNat ∧ 74 ≤ headerSize file ∧ dataSize file ≤ size

instance (file : List UInt8) (size : Nat) : Decidable (HeaderOk file size) := by
  unfold HeaderOk; infer_instance

/-- Bytes per 4×4 block of a format code: DXT1, DXT5A, ETC1, ETC2 and ETC1S have 8, the others
16. -/
def bytesPerBlock (format : Nat) : Nat := if format ∈ [0, 9, 10, 11, 13] then 8 else 16

end Verif.Spec.Crn
