import Verif.Spec.Etc

/-!
# Specification: the levels of flat EAC blocks

The standard has EAC R11 blocks for all 256 levels (8 bits of the 11). The lists are the levels for which
there are blocks that this crate decodes to the same level everywhere.
-/

namespace Verif.Spec.Etc

/-- The levels for unsigned blocks, 111 of 256. -/
def levelsU : List Nat :=
  [0, 1, 2, 4, 5, 6, 8, 9, 10, 12, 13, 14, 16, 17, 18, 20, 21, 22, 28, 32, 33, 34, 36, 37, 38, 40,
   41, 42, 44, 45, 46, 48, 49, 50, 52, 53, 54, 64, 65, 66, 68, 69, 70, 72, 73, 74, 76, 77, 78, 80,
   81, 82, 84, 85, 86, 96, 97, 98, 100, 101, 102, 104, 105, 106, 108, 109, 110, 112, 113, 114, 116,
   117, 118, 128, 129, 130, 132, 133, 134, 136, 137, 138, 140, 141, 142, 144, 145, 146, 148, 149,
   150, 160, 161, 162, 164, 165, 166, 168, 169, 170, 172, 173, 174, 176, 177, 178, 180, 181, 182,
   194, 255]

/-- The levels for signed blocks, 15 of 256. -/
def levelsS : List Nat :=
  [0, 1, 65, 127, 128, 135, 136, 155, 167, 191, 192, 199, 200, 246, 255]

/-- The levels for either signedness. -/
def levels (signed : Bool) : List Nat := if signed then levelsS else levelsU

end Verif.Spec.Etc
