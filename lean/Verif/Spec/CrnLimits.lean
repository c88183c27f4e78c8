import Verif.Spec.CrnFile

/-!
# Specification: the Crunch files the decoder is for

The decoder reads some files that the format allows in a way of its own. These are the conditions
that exclude them.
-/

namespace Verif.Spec.Crn

/-- The sections with codes and palettes end before the last byte of the file: there is at least
one byte after each of them (in a file of the Crunch compressor the levels are last). -/
structure SectionsInside (file : List UInt8) : Prop where
  tables : tablesOfs file + tablesSize file < file.length
  colours : (colorEndpoints file).num ≠ 0 →
    (colorEndpoints file).ofs + (colorEndpoints file).size < file.length ∧
    (colorSelectors file).ofs + (colorSelectors file).size < file.length
  alphas : (alphaEndpoints file).num ≠ 0 →
    (alphaEndpoints file).ofs + (alphaEndpoints file).size < file.length ∧
    (alphaSelectors file).ofs + (alphaSelectors file).size < file.length

/-- The limits: the file is smaller than 4 GiB, the sections with codes and palettes end before its
last byte, there is at least one face, only one face if the number of block rows is odd, and the
blocks of the first level have fewer than 2^30 bytes. -/
structure Limits (file : List UInt8) : Prop where
  small : file.length < 2 ^ 32
  sections : SectionsInside file
  faces : 0 < faces file
  shape : Crn.faces file ≤ 1 ∨ blocksY file % 2 = 0
  big : 16 * (Crn.faces file * blocksY file * blocksX file) < 2 ^ 30

end Verif.Spec.Crn
