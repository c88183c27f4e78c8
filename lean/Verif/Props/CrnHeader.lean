import Verif.Proofs.CrnHeader

/-!
# Properties of the Crunch texture information (C41, C42)

`crndGetTextureInfo self file size` models `self.crnd_get_texture_info(file, size)`; it returns the
`bool` and the updated structure.
-/

namespace Verif.Props

open Verif Verif.Model Verif.Proofs.Crn

/-- A 78-byte header of a DXT1 texture of 8×4 pixels with two levels. -/
def crnDemo : List UInt8 :=
  [0x48, 0x78, 0, 78, 0, 0, 0, 0, 0, 78, 0, 0, 0, 8, 0, 4, 2, 1, 0] ++ List.replicate 59 0

/-- The same with format code 16. -/
def crnBadFormat : List UInt8 := crnDemo.set 18 16

/-- **C41.** On a structure of the right size and a buffer that holds the whole header,
`crnd_get_texture_info` returns `true` exactly if the header is acceptable and the format code is
at most 15; then it reports the big-endian fields of the header. -/
theorem C41_texture_info (self : CrnTextureInfo) (file : List UInt8) (size : Nat)
    (hself : self.structSize = 36) (hsize : 74 ≤ size)
    (hlen : Spec.Crn.headerBytes file ≤ file.length) :
    ∃ ok info, crndGetTextureInfo self file size = .ok (ok, info) ∧
      (ok = true ↔ Spec.Crn.HeaderOk file size ∧ Spec.Crn.format file ≤ 15) ∧
      (ok = true →
        info.width = Spec.Crn.width file ∧ info.height = Spec.Crn.height file ∧
        info.levels = Spec.Crn.levels file ∧ info.faces = Spec.Crn.faces file ∧
        info.format.code = Spec.Crn.format file ∧
        info.bytesPerBlock = Spec.Crn.bytesPerBlock (Spec.Crn.format file) ∧
        info.userdata0 = Spec.Crn.userdata0 file ∧ info.userdata1 = Spec.Crn.userdata1 file ∧
        info.structSize = 36) := by
  by_cases hok : Spec.Crn.HeaderOk file size
  · by_cases hf : Spec.Crn.format file ≤ 15
    · refine ⟨_, _, textureInfo_ok hsize hself hlen hok hf, by simp [hok, hf], fun _ => ?_⟩
      exact ⟨rfl, rfl, rfl, rfl, crnFormatOf_code hf, rfl, rfl, rfl, rfl⟩
    · exact ⟨_, _, textureInfo_format hsize hself hlen hok (by omega), by simp [hf], by simp⟩
  · exact ⟨_, _, textureInfo_bad hsize hself hlen hok, by simp [hok], by simp⟩

example : CrnTextureInfo.default.structSize = 36 ∧
    Spec.Crn.headerBytes crnDemo ≤ crnDemo.length ∧ Spec.Crn.HeaderOk crnDemo 78 ∧
    Spec.Crn.format crnDemo ≤ 15 ∧ Spec.Crn.width crnDemo = 8 ∧ Spec.Crn.levels crnDemo = 2 := by
  decide +kernel

/-- **C41.** A size below 74 bytes or a structure of the wrong size is refused, and nothing is
changed. -/
theorem C41_refused (self : CrnTextureInfo) (file : List UInt8) (size : Nat)
    (h : size < 74 ∨ self.structSize ≠ 36) :
    crndGetTextureInfo self file size = .ok (false, self) := textureInfo_short h

/-- **C41.** An unacceptable header leaves the structure as it was. -/
theorem C41_unchanged (self : CrnTextureInfo) (file : List UInt8) (size : Nat)
    (hself : self.structSize = 36) (hsize : 74 ≤ size)
    (hlen : Spec.Crn.headerBytes file ≤ file.length) (hbad : ¬ Spec.Crn.HeaderOk file size) :
    crndGetTextureInfo self file size = .ok (false, self) :=
  textureInfo_bad hsize hself hlen hbad

example : Spec.Crn.headerBytes (crnDemo.set 0 0) ≤ (crnDemo.set 0 0).length ∧
    ¬ Spec.Crn.HeaderOk (crnDemo.set 0 0) 78 := by decide +kernel

/-- **C41.** A format code above 15 is refused, but the structure has been partly overwritten by
then: sizes, levels and faces are those of the file and the format is invalid. -/
theorem C41_bad_format (self : CrnTextureInfo) (file : List UInt8) (size : Nat)
    (hself : self.structSize = 36) (hsize : 74 ≤ size)
    (hlen : Spec.Crn.headerBytes file ≤ file.length) (hok : Spec.Crn.HeaderOk file size)
    (hf : 15 < Spec.Crn.format file) :
    crndGetTextureInfo self file size = .ok (false, { self with
      width := Spec.Crn.width file, height := Spec.Crn.height file,
      levels := Spec.Crn.levels file, faces := Spec.Crn.faces file, format := .invalid }) :=
  textureInfo_format hsize hself hlen hok hf

example : Spec.Crn.headerBytes crnBadFormat ≤ crnBadFormat.length ∧
    Spec.Crn.HeaderOk crnBadFormat 78 ∧ 15 < Spec.Crn.format crnBadFormat := by decide +kernel

/-- **C42.** `crnd_get_texture_info` panics exactly on a buffer that is shorter than the header
with the level offsets it announces, when the caller states a size of at least 74. In particular
it does not panic on a buffer with `70 + 4 * levels` bytes. -/
theorem C42_panics_iff (self : CrnTextureInfo) (file : List UInt8) (size : Nat) :
    crndGetTextureInfo self file size = .panic ↔
      self.structSize = 36 ∧ 74 ≤ size ∧ file.length < Spec.Crn.headerBytes file := by
  constructor
  · intro h
    apply Classical.byContradiction
    intro hn
    by_cases hs : size < 74 ∨ self.structSize ≠ 36
    · rw [textureInfo_short hs] at h; exact absurd h (by simp)
    · have hself : self.structSize = 36 := Classical.byContradiction fun h => hs (Or.inr h)
      have hsize : 74 ≤ size := by omega
      have hlen : Spec.Crn.headerBytes file ≤ file.length := by
        apply Nat.le_of_not_lt
        intro hl
        exact hn ⟨hself, hsize, hl⟩
      obtain ⟨_, _, e, _⟩ := C41_texture_info self file size hself hsize hlen
      rw [e] at h
      exact absurd h (by simp)
  · rintro ⟨h1, h2, h3⟩
    exact textureInfo_panic h2 h1 h3

/-- **C42, violated.** A complete buffer of 74 bytes that is not even a Crunch file makes the
parser panic: the number of levels is believed before the signature is looked at. -/
theorem C42_panics : ∃ file : List UInt8, file.length = 74 ∧ ¬ Spec.Crn.HeaderOk file 74 ∧
    crndGetTextureInfo CrnTextureInfo.default file 74 = .panic := by
  refine ⟨List.replicate 74 2, by decide +kernel, by decide +kernel, ?_⟩
  rw [C42_panics_iff]
  decide +kernel

/-- **C42, what holds.** No panic when the buffer is as long as the longest header, 1090 bytes. -/
theorem C42_long_partial (self : CrnTextureInfo) (file : List UInt8) (size : Nat)
    (h : 1090 ≤ file.length) : crndGetTextureInfo self file size ≠ .panic := by
  rw [Ne, C42_panics_iff]
  rintro ⟨_, _, hl⟩
  have hlev : Spec.Crn.levels file < 256 := levels_lt file
  unfold Spec.Crn.headerBytes at hl
  omega

example : 1090 ≤ (crnDemo ++ List.replicate 2000 (0 : UInt8)).length := by decide +kernel

end Verif.Props
