import Verif.Spec.CrnLimits

/-!
# Specification: the bytes of a Crunch file that matter, and its checksums
-/

namespace Verif.Spec.Crn

/-- Byte `i` belongs to a section. -/
def InSection (ofs size i : Nat) : Prop := ofs ≤ i ∧ i < ofs + size

/-- Byte `i` of a file is needed to unpack its first level: the fields of the header with the magic
number, the sizes, the dimensions, the format and the positions of the sections, and the sections.
Not needed are the two checksums (bytes 4, 5, 10 and 11), the flags, the reserved field and the user
data (bytes 19 to 32), the other levels, and what lies between the sections. -/
def Used (file : List UInt8) (i : Nat) : Prop :=
  i < 4 ∨ (6 ≤ i ∧ i < 10) ∨ (12 ≤ i ∧ i < 19) ∨ (33 ≤ i ∧ i < 74) ∨
  (1 < levels file ∧ 74 ≤ i ∧ i < 78) ∨
  InSection (tablesOfs file) (tablesSize file) i ∨
  ((colorEndpoints file).num ≠ 0 ∧ InSection (colorEndpoints file).ofs (colorEndpoints file).size i) ∨
  ((colorEndpoints file).num ≠ 0 ∧ InSection (colorSelectors file).ofs (colorSelectors file).size i) ∨
  ((alphaEndpoints file).num ≠ 0 ∧ InSection (alphaEndpoints file).ofs (alphaEndpoints file).size i) ∨
  ((alphaEndpoints file).num ≠ 0 ∧ InSection (alphaSelectors file).ofs (alphaSelectors file).size i) ∨
  InSection (levelOfs file 0) (levelEnd file - levelOfs file 0) i

instance (ofs size i : Nat) : Decidable (InSection ofs size i) := by unfold InSection; infer_instance
instance (file : List UInt8) (i : Nat) : Decidable (Used file i) := by unfold Used; infer_instance

/-- One step of the checksum of the Crunch format (`crc16` of its original decoder), in 16 bits. -/
def crcStep (crc : Nat) (byte : UInt8) : Nat :=
  let q := byte.toNat ^^^ (crc / 256)
  let r := q / 16 ^^^ q
  (crc * 256 ^^^ r ^^^ r * 32 ^^^ r * 32 * 128) % 65536

/-- The checksum of the Crunch format. -/
def crc16 (bytes : List UInt8) : Nat := 65535 - bytes.foldl crcStep 65535

/-- The two checksums of a file: of the header from byte 6 on, and of what follows the header. -/
def ChecksumsOk (file : List UInt8) : Prop :=
  be file 4 2 = crc16 ((file.take (headerSize file)).drop 6) ∧
  be file 10 2 = crc16 ((file.take (dataSize file)).drop (headerSize file))

instance (file : List UInt8) : Decidable (ChecksumsOk file) := by unfold ChecksumsOk; infer_instance

end Verif.Spec.Crn
