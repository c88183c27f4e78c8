import Verif.Spec.Bits
import Verif.Spec.Image
import Verif.Spec.Bptc

/-!
# Specification: BC7 (BPTC UNORM)
-/

namespace Verif.Spec.Bc7

/-- The parameters of a block mode. -/
structure Mode where
  /-- number of subsets -/
  ns : Nat
  /-- partition bits -/
  pb : Nat
  /-- rotation bits -/
  rb : Nat
  /-- index selection bits -/
  isb : Nat
  /-- bits per colour endpoint channel -/
  cb : Nat
  /-- bits per alpha endpoint -/
  ab : Nat
  /-- P-bits per endpoint -/
  epb : Nat
  /-- P-bits shared by the two endpoints of a subset -/
  spb : Nat
  /-- index bits -/
  ib : Nat
  /-- bits of the secondary index -/
  ib2 : Nat

/-- The mode table of the BPTC specification. -/
def modes : List Mode := [
  ⟨3, 4, 0, 0, 4, 0, 1, 0, 3, 0⟩,
  ⟨2, 6, 0, 0, 6, 0, 0, 1, 3, 0⟩,
  ⟨3, 6, 0, 0, 5, 0, 0, 0, 2, 0⟩,
  ⟨2, 6, 0, 0, 7, 0, 1, 0, 2, 0⟩,
  ⟨1, 0, 2, 1, 5, 6, 0, 0, 2, 3⟩,
  ⟨1, 0, 2, 0, 7, 8, 0, 0, 2, 2⟩,
  ⟨1, 0, 0, 0, 7, 7, 1, 0, 4, 0⟩,
  ⟨2, 6, 0, 0, 5, 5, 1, 0, 2, 0⟩]

/-- The mode of a block: the position of the lowest set bit of the first byte. -/
def modeOf (blk : List UInt8) : Option Nat :=
  (List.range 8).find? (fun m => field blk m 1 == 1)

/-- An `n`-bit value (4 ≤ n ≤ 8) widened to 8 bits by replicating its high bits. -/
def replicateBits (n v : Nat) : Nat := v * 2 ^ (8 - n) + v / 2 ^ (2 * n - 8)

section
variable (blk : List UInt8) (m : Nat) (M : Mode)

/-! Bit positions of the fields, in the order of the specification. -/
def partitionPos : Nat := m + 1
def rotationPos : Nat := partitionPos m + M.pb
def selectionPos : Nat := rotationPos m M + M.rb
def colourPos (ch : Nat) : Nat := selectionPos m M + M.isb + ch * (2 * M.ns * M.cb)
def alphaPos : Nat := colourPos m M 3
def pbitPos : Nat := alphaPos m M + 2 * M.ns * M.ab
def indexPos : Nat := pbitPos m M + 2 * M.ns * M.epb + M.ns * M.spb
def index2Pos : Nat := indexPos m M + (16 * M.ib - M.ns)

def partition : Nat := field blk (partitionPos m) M.pb
def rotation : Nat := field blk (rotationPos m M) M.rb
def selection : Nat := field blk (selectionPos m M) M.isb

/-- The P-bit of endpoint `j`, appended to all its channels (if the mode has P-bits). -/
def withPBit (j v : Nat) : Nat :=
  if M.epb = 1 then 2 * v + field blk (pbitPos m M + j) 1
  else if M.spb = 1 then 2 * v + field blk (pbitPos m M + j / 2) 1
  else v

/-- Endpoint `j` (two per subset) of colour channel `ch` (0 red, 1 green, 2 blue), 8 bits. -/
def colour (ch j : Nat) : Nat :=
  replicateBits (M.cb + M.epb + M.spb)
    (withPBit blk m M j (field blk (colourPos m M ch + j * M.cb) M.cb))

/-- Endpoint `j` of alpha; modes without alpha are opaque. -/
def alpha (j : Nat) : Nat :=
  if M.ab = 0 then 255
  else replicateBits (M.ab + M.epb + M.spb)
    (withPBit blk m M j (field blk (alphaPos m M + j * M.ab) M.ab))

/-- The primary index of texel `i`; anchors have one bit less. -/
def index (p i : Nat) : Nat :=
  field blk (indexPos m M + (i * M.ib - Bptc.anchorsBefore M.ns p i))
    (M.ib - (Bptc.isAnchor M.ns p i).toNat)

/-- The secondary index of texel `i` (modes 4 and 5, which have a single subset). -/
def index2 (p i : Nat) : Nat :=
  field blk (index2Pos m M + (i * M.ib2 - Bptc.anchorsBefore M.ns p i))
    (M.ib2 - (Bptc.isAnchor M.ns p i).toNat)

/-- The interpolation weights of colour and alpha of texel `i`. -/
def weights (i : Nat) : Nat × Nat :=
  let p := partition blk m M
  let w1 := Bptc.weight M.ib (index blk m M p i)
  if M.ib2 = 0 then (w1, w1)
  else
    let w2 := Bptc.weight M.ib2 (index2 blk m M p i)
    if selection blk m M = 0 then (w1, w2) else (w2, w1)

/-- Texel `i` of a block of mode `m`. -/
def modeTexel (i : Nat) : UInt32 :=
  let s := Bptc.subset M.ns (partition blk m M) i
  let w := weights blk m M i
  let r := Bptc.interpolate (colour blk m M 0 (2 * s)) (colour blk m M 0 (2 * s + 1)) w.1
  let g := Bptc.interpolate (colour blk m M 1 (2 * s)) (colour blk m M 1 (2 * s + 1)) w.1
  let b := Bptc.interpolate (colour blk m M 2 (2 * s)) (colour blk m M 2 (2 * s + 1)) w.1
  let a := Bptc.interpolate (alpha blk m M (2 * s)) (alpha blk m M (2 * s + 1)) w.2
  match rotation blk m M with
  | 1 => px a g b r
  | 2 => px r a b g
  | 3 => px r g a b
  | _ => px r g b a

end

/-- Texel `i` of a BC7 block; a block without a mode bit is transparent black. -/
def texel (blk : List UInt8) (i : Nat) : UInt32 :=
  match modeOf blk with
  | none => px 0 0 0 0
  | some m => modeTexel blk m (modes.getD m ⟨1, 0, 0, 0, 5, 0, 0, 0, 2, 0⟩) i

end Verif.Spec.Bc7
