/-!
# Specification: BPTC partition tables

From the BPTC texture compression specification. A partition is given by the subset number of each
of the 16 texels in raster order.
-/

namespace Verif.Spec.Bptc

/-- Partitions into two subsets. -/
def partitions2 : List (List Nat) := [
  [0,0,1,1, 0,0,1,1, 0,0,1,1, 0,0,1,1],
  [0,0,0,1, 0,0,0,1, 0,0,0,1, 0,0,0,1],
  [0,1,1,1, 0,1,1,1, 0,1,1,1, 0,1,1,1],
  [0,0,0,1, 0,0,1,1, 0,0,1,1, 0,1,1,1],
  [0,0,0,0, 0,0,0,1, 0,0,0,1, 0,0,1,1],
  [0,0,1,1, 0,1,1,1, 0,1,1,1, 1,1,1,1],
  [0,0,0,1, 0,0,1,1, 0,1,1,1, 1,1,1,1],
  [0,0,0,0, 0,0,0,1, 0,0,1,1, 0,1,1,1],
  [0,0,0,0, 0,0,0,0, 0,0,0,1, 0,0,1,1],
  [0,0,1,1, 0,1,1,1, 1,1,1,1, 1,1,1,1],
  [0,0,0,0, 0,0,0,1, 0,1,1,1, 1,1,1,1],
  [0,0,0,0, 0,0,0,0, 0,0,0,1, 0,1,1,1],
  [0,0,0,1, 0,1,1,1, 1,1,1,1, 1,1,1,1],
  [0,0,0,0, 0,0,0,0, 1,1,1,1, 1,1,1,1],
  [0,0,0,0, 1,1,1,1, 1,1,1,1, 1,1,1,1],
  [0,0,0,0, 0,0,0,0, 0,0,0,0, 1,1,1,1],
  [0,0,0,0, 1,0,0,0, 1,1,1,0, 1,1,1,1],
  [0,1,1,1, 0,0,0,1, 0,0,0,0, 0,0,0,0],
  [0,0,0,0, 0,0,0,0, 1,0,0,0, 1,1,1,0],
  [0,1,1,1, 0,0,1,1, 0,0,0,1, 0,0,0,0],
  [0,0,1,1, 0,0,0,1, 0,0,0,0, 0,0,0,0],
  [0,0,0,0, 1,0,0,0, 1,1,0,0, 1,1,1,0],
  [0,0,0,0, 0,0,0,0, 1,0,0,0, 1,1,0,0],
  [0,1,1,1, 0,0,1,1, 0,0,1,1, 0,0,0,1],
  [0,0,1,1, 0,0,0,1, 0,0,0,1, 0,0,0,0],
  [0,0,0,0, 1,0,0,0, 1,0,0,0, 1,1,0,0],
  [0,1,1,0, 0,1,1,0, 0,1,1,0, 0,1,1,0],
  [0,0,1,1, 0,1,1,0, 0,1,1,0, 1,1,0,0],
  [0,0,0,1, 0,1,1,1, 1,1,1,0, 1,0,0,0],
  [0,0,0,0, 1,1,1,1, 1,1,1,1, 0,0,0,0],
  [0,1,1,1, 0,0,0,1, 1,0,0,0, 1,1,1,0],
  [0,0,1,1, 1,0,0,1, 1,0,0,1, 1,1,0,0],
  [0,1,0,1, 0,1,0,1, 0,1,0,1, 0,1,0,1],
  [0,0,0,0, 1,1,1,1, 0,0,0,0, 1,1,1,1],
  [0,1,0,1, 1,0,1,0, 0,1,0,1, 1,0,1,0],
  [0,0,1,1, 0,0,1,1, 1,1,0,0, 1,1,0,0],
  [0,0,1,1, 1,1,0,0, 0,0,1,1, 1,1,0,0],
  [0,1,0,1, 0,1,0,1, 1,0,1,0, 1,0,1,0],
  [0,1,1,0, 1,0,0,1, 0,1,1,0, 1,0,0,1],
  [0,1,0,1, 1,0,1,0, 1,0,1,0, 0,1,0,1],
  [0,1,1,1, 0,0,1,1, 1,1,0,0, 1,1,1,0],
  [0,0,0,1, 0,0,1,1, 1,1,0,0, 1,0,0,0],
  [0,0,1,1, 0,0,1,0, 0,1,0,0, 1,1,0,0],
  [0,0,1,1, 1,0,1,1, 1,1,0,1, 1,1,0,0],
  [0,1,1,0, 1,0,0,1, 1,0,0,1, 0,1,1,0],
  [0,0,1,1, 1,1,0,0, 1,1,0,0, 0,0,1,1],
  [0,1,1,0, 0,1,1,0, 1,0,0,1, 1,0,0,1],
  [0,0,0,0, 0,1,1,0, 0,1,1,0, 0,0,0,0],
  [0,1,0,0, 1,1,1,0, 0,1,0,0, 0,0,0,0],
  [0,0,1,0, 0,1,1,1, 0,0,1,0, 0,0,0,0],
  [0,0,0,0, 0,0,1,0, 0,1,1,1, 0,0,1,0],
  [0,0,0,0, 0,1,0,0, 1,1,1,0, 0,1,0,0],
  [0,1,1,0, 1,1,0,0, 1,0,0,1, 0,0,1,1],
  [0,0,1,1, 0,1,1,0, 1,1,0,0, 1,0,0,1],
  [0,1,1,0, 0,0,1,1, 1,0,0,1, 1,1,0,0],
  [0,0,1,1, 1,0,0,1, 1,1,0,0, 0,1,1,0],
  [0,1,1,0, 1,1,0,0, 1,1,0,0, 1,0,0,1],
  [0,1,1,0, 0,0,1,1, 0,0,1,1, 1,0,0,1],
  [0,1,1,1, 1,1,1,0, 1,0,0,0, 0,0,0,1],
  [0,0,0,1, 1,0,0,0, 1,1,1,0, 0,1,1,1],
  [0,0,0,0, 1,1,1,1, 0,0,1,1, 0,0,1,1],
  [0,0,1,1, 0,0,1,1, 1,1,1,1, 0,0,0,0],
  [0,0,1,0, 0,0,1,0, 1,1,1,0, 1,1,1,0],
  [0,1,0,0, 0,1,0,0, 0,1,1,1, 0,1,1,1]]

/-- Partitions into three subsets. -/
def partitions3 : List (List Nat) := [
  [0,0,1,1, 0,0,1,1, 0,2,2,1, 2,2,2,2],
  [0,0,0,1, 0,0,1,1, 2,2,1,1, 2,2,2,1],
  [0,0,0,0, 2,0,0,1, 2,2,1,1, 2,2,1,1],
  [0,2,2,2, 0,0,2,2, 0,0,1,1, 0,1,1,1],
  [0,0,0,0, 0,0,0,0, 1,1,2,2, 1,1,2,2],
  [0,0,1,1, 0,0,1,1, 0,0,2,2, 0,0,2,2],
  [0,0,2,2, 0,0,2,2, 1,1,1,1, 1,1,1,1],
  [0,0,1,1, 0,0,1,1, 2,2,1,1, 2,2,1,1],
  [0,0,0,0, 0,0,0,0, 1,1,1,1, 2,2,2,2],
  [0,0,0,0, 1,1,1,1, 1,1,1,1, 2,2,2,2],
  [0,0,0,0, 1,1,1,1, 2,2,2,2, 2,2,2,2],
  [0,0,1,2, 0,0,1,2, 0,0,1,2, 0,0,1,2],
  [0,1,1,2, 0,1,1,2, 0,1,1,2, 0,1,1,2],
  [0,1,2,2, 0,1,2,2, 0,1,2,2, 0,1,2,2],
  [0,0,1,1, 0,1,1,2, 1,1,2,2, 1,2,2,2],
  [0,0,1,1, 2,0,0,1, 2,2,0,0, 2,2,2,0],
  [0,0,0,1, 0,0,1,1, 0,1,1,2, 1,1,2,2],
  [0,1,1,1, 0,0,1,1, 2,0,0,1, 2,2,0,0],
  [0,0,0,0, 1,1,2,2, 1,1,2,2, 1,1,2,2],
  [0,0,2,2, 0,0,2,2, 0,0,2,2, 1,1,1,1],
  [0,1,1,1, 0,1,1,1, 0,2,2,2, 0,2,2,2],
  [0,0,0,1, 0,0,0,1, 2,2,2,1, 2,2,2,1],
  [0,0,0,0, 0,0,1,1, 0,1,2,2, 0,1,2,2],
  [0,0,0,0, 1,1,0,0, 2,2,1,0, 2,2,1,0],
  [0,1,2,2, 0,1,2,2, 0,0,1,1, 0,0,0,0],
  [0,0,1,2, 0,0,1,2, 1,1,2,2, 2,2,2,2],
  [0,1,1,0, 1,2,2,1, 1,2,2,1, 0,1,1,0],
  [0,0,0,0, 0,1,1,0, 1,2,2,1, 1,2,2,1],
  [0,0,2,2, 1,1,0,2, 1,1,0,2, 0,0,2,2],
  [0,1,1,0, 0,1,1,0, 2,0,0,2, 2,2,2,2],
  [0,0,1,1, 0,1,2,2, 0,1,2,2, 0,0,1,1],
  [0,0,0,0, 2,0,0,0, 2,2,1,1, 2,2,2,1],
  [0,0,0,0, 0,0,0,2, 1,1,2,2, 1,2,2,2],
  [0,2,2,2, 0,0,2,2, 0,0,1,2, 0,0,1,1],
  [0,0,1,1, 0,0,1,2, 0,0,2,2, 0,2,2,2],
  [0,1,2,0, 0,1,2,0, 0,1,2,0, 0,1,2,0],
  [0,0,0,0, 1,1,1,1, 2,2,2,2, 0,0,0,0],
  [0,1,2,0, 1,2,0,1, 2,0,1,2, 0,1,2,0],
  [0,1,2,0, 2,0,1,2, 1,2,0,1, 0,1,2,0],
  [0,0,1,1, 2,2,0,0, 1,1,2,2, 0,0,1,1],
  [0,0,1,1, 1,1,2,2, 2,2,0,0, 0,0,1,1],
  [0,1,0,1, 0,1,0,1, 2,2,2,2, 2,2,2,2],
  [0,0,0,0, 0,0,0,0, 2,1,2,1, 2,1,2,1],
  [0,0,2,2, 1,1,2,2, 0,0,2,2, 1,1,2,2],
  [0,0,2,2, 0,0,1,1, 0,0,2,2, 0,0,1,1],
  [0,2,2,0, 1,2,2,1, 0,2,2,0, 1,2,2,1],
  [0,1,0,1, 2,2,2,2, 2,2,2,2, 0,1,0,1],
  [0,0,0,0, 2,1,2,1, 2,1,2,1, 2,1,2,1],
  [0,1,0,1, 0,1,0,1, 0,1,0,1, 2,2,2,2],
  [0,2,2,2, 0,1,1,1, 0,2,2,2, 0,1,1,1],
  [0,0,0,2, 1,1,1,2, 0,0,0,2, 1,1,1,2],
  [0,0,0,0, 2,1,1,2, 2,1,1,2, 2,1,1,2],
  [0,2,2,2, 0,1,1,1, 0,1,1,1, 0,2,2,2],
  [0,0,0,2, 1,1,1,2, 1,1,1,2, 0,0,0,2],
  [0,1,1,0, 0,1,1,0, 0,1,1,0, 2,2,2,2],
  [0,0,0,0, 0,0,0,0, 2,1,1,2, 2,1,1,2],
  [0,1,1,0, 0,1,1,0, 2,2,2,2, 2,2,2,2],
  [0,0,2,2, 0,0,1,1, 0,0,1,1, 0,0,2,2],
  [0,0,2,2, 1,1,2,2, 1,1,2,2, 0,0,2,2],
  [0,0,0,0, 0,0,0,0, 0,0,0,0, 2,1,1,2],
  [0,0,0,2, 0,0,0,1, 0,0,0,2, 0,0,0,1],
  [0,2,2,2, 1,2,2,2, 0,2,2,2, 1,2,2,2],
  [0,1,0,1, 2,2,2,2, 2,2,2,2, 2,2,2,2],
  [0,1,1,1, 2,0,1,1, 2,2,0,1, 2,2,2,0]]

/-- Anchor texel of the second subset, two-subset partitions. -/
def anchor2 : List Nat := [
   15, 15, 15, 15, 15, 15, 15, 15, 15, 15, 15, 15, 15, 15, 15, 15,
   15, 2, 8, 2, 2, 8, 8, 15, 2, 8, 2, 2, 8, 8, 2, 2,
   15, 15, 6, 8, 2, 8, 15, 15, 2, 8, 2, 2, 2, 15, 15, 6,
   6, 2, 6, 8, 15, 15, 2, 2, 15, 15, 15, 15, 15, 2, 2, 15]

/-- Anchor texel of the second subset, three-subset partitions. -/
def anchor3a : List Nat := [
   3, 3, 15, 15, 8, 3, 15, 15, 8, 8, 6, 6, 6, 5, 3, 3,
   3, 3, 8, 15, 3, 3, 6, 10, 5, 8, 8, 6, 8, 5, 15, 15,
   8, 15, 3, 5, 6, 10, 8, 15, 15, 3, 15, 5, 15, 15, 15, 15,
   3, 15, 5, 5, 5, 8, 5, 10, 5, 10, 8, 13, 15, 12, 3, 3]

/-- Anchor texel of the third subset, three-subset partitions. -/
def anchor3b : List Nat := [
   15, 8, 8, 3, 15, 15, 3, 8, 15, 15, 15, 15, 15, 15, 15, 8,
   15, 8, 15, 3, 15, 8, 15, 8, 3, 15, 6, 10, 15, 15, 10, 8,
   15, 3, 15, 10, 10, 8, 9, 10, 6, 15, 8, 15, 3, 6, 6, 8,
   15, 3, 15, 15, 15, 15, 15, 15, 15, 15, 15, 15, 3, 15, 15, 8]

/-- Interpolation weights for 2-, 3- and 4-bit indices. -/
def weights2 : List Nat := [0, 21, 43, 64]
def weights3 : List Nat := [0, 9, 18, 27, 37, 46, 55, 64]
def weights4 : List Nat := [0, 4, 9, 13, 17, 21, 26, 30, 34, 38, 43, 47, 51, 55, 60, 64]

/-- The weight of an index of `n` bits. -/
def weight (n k : Nat) : Nat :=
  (if n = 2 then weights2 else if n = 3 then weights3 else weights4).getD k 0

/-- The subset of texel `i` in partition `p` of a block with `n` subsets. -/
def subset (n p i : Nat) : Nat :=
  if n = 2 then (partitions2.getD p []).getD i 0
  else if n = 3 then (partitions3.getD p []).getD i 0
  else 0

/-- Is texel `i` the anchor of one of the `n` subsets of partition `p`? -/
def isAnchor (n p i : Nat) : Bool :=
  i == 0 || (n == 2 && i == anchor2.getD p 0) ||
    (n == 3 && (i == anchor3a.getD p 0 || i == anchor3b.getD p 0))

/-- Number of anchors before texel `i`. -/
def anchorsBefore (n p i : Nat) : Nat := (List.range i).countP (isAnchor n p)

/-- Interpolation of two 8-bit values with a weight out of 64. -/
def interpolate (a b w : Nat) : Nat := (a * (64 - w) + b * w + 32) / 64

end Verif.Spec.Bptc
