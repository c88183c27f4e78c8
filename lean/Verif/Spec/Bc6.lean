import Verif.Spec.Bits
import Verif.Spec.Image
import Verif.Spec.Bptc
import Verif.Spec.Half

/-!
# Specification: BC6H (BPTC FLOAT)

`texel` is the colour the BPTC specification assigns, reduced to 8 bits per channel by
`halfToByte`. The code deviates from it in three ways; `texelAsIs` describes what it does instead, and
the properties say exactly when the two agree.
-/

namespace Verif.Spec.Bc6

/-! ## Modes and bit layout -/

/-- Parameters of a block mode: are endpoints 1–3 stored as differences, one or two subsets, bits of a
base endpoint, bits of the other endpoints per channel. -/
structure Mode where
  transformed : Bool
  ns : Nat
  eb : Nat
  dr : Nat
  dg : Nat
  db : Nat

/-- The fourteen modes, by mode number; other numbers are reserved. -/
def mode : Nat → Option Mode
  | 0 => some ⟨true, 2, 10, 5, 5, 5⟩
  | 1 => some ⟨true, 2, 7, 6, 6, 6⟩
  | 2 => some ⟨true, 2, 11, 5, 4, 4⟩
  | 6 => some ⟨true, 2, 11, 4, 5, 4⟩
  | 10 => some ⟨true, 2, 11, 4, 4, 5⟩
  | 14 => some ⟨true, 2, 9, 5, 5, 5⟩
  | 18 => some ⟨true, 2, 8, 6, 5, 5⟩
  | 22 => some ⟨true, 2, 8, 5, 6, 5⟩
  | 26 => some ⟨true, 2, 8, 5, 5, 6⟩
  | 30 => some ⟨false, 2, 6, 6, 6, 6⟩
  | 3 => some ⟨false, 1, 10, 10, 10, 10⟩
  | 7 => some ⟨true, 1, 11, 9, 9, 9⟩
  | 11 => some ⟨true, 1, 12, 8, 8, 8⟩
  | 15 => some ⟨true, 1, 16, 4, 4, 4⟩
  | _ => none

/-- The mode number: two bits, extended to five if the second is set. -/
def modeOf (blk : List UInt8) : Nat :=
  if field blk 0 2 < 2 then field blk 0 2 else field blk 0 5

/-- Number of mode bits. -/
def modeBits (m : Nat) : Nat := if m < 2 then 2 else 5

/-- Bits `hi` down to `lo` of endpoint `ep` of channel `ch`. -/
structure Fld where
  ch : Nat
  ep : Nat
  hi : Nat
  lo : Nat

def Fld.width (f : Fld) : Nat := f.hi - f.lo + 1

/-- `r k hi lo` stands for the specification's `R_k[hi:lo]`. -/
def r (k hi lo : Nat) : Fld := ⟨0, k, hi, lo⟩
def g (k hi lo : Nat) : Fld := ⟨1, k, hi, lo⟩
def b (k hi lo : Nat) : Fld := ⟨2, k, hi, lo⟩

/-- The fields that follow the mode bits, in stream order (lowest bit of a field first). -/
def layout : Nat → List Fld
  | 0 => [g 2 4 4, b 2 4 4, b 3 4 4, r 0 9 0, g 0 9 0, b 0 9 0, r 1 4 0, g 3 4 4, g 2 3 0, g 1 4 0,
      b 3 0 0, g 3 3 0, b 1 4 0, b 3 1 1, b 2 3 0, r 2 4 0, b 3 2 2, r 3 4 0, b 3 3 3]
  | 1 => [g 2 5 5, g 3 4 4, g 3 5 5, r 0 6 0, b 3 0 0, b 3 1 1, b 2 4 4, g 0 6 0, b 2 5 5, b 3 2 2,
      g 2 4 4, b 0 6 0, b 3 3 3, b 3 5 5, b 3 4 4, r 1 5 0, g 2 3 0, g 1 5 0, g 3 3 0, b 1 5 0,
      b 2 3 0, r 2 5 0, r 3 5 0]
  | 2 => [r 0 9 0, g 0 9 0, b 0 9 0, r 1 4 0, r 0 10 10, g 2 3 0, g 1 3 0, g 0 10 10, b 3 0 0,
      g 3 3 0, b 1 3 0, b 0 10 10, b 3 1 1, b 2 3 0, r 2 4 0, b 3 2 2, r 3 4 0, b 3 3 3]
  | 6 => [r 0 9 0, g 0 9 0, b 0 9 0, r 1 3 0, r 0 10 10, g 3 4 4, g 2 3 0, g 1 4 0, g 0 10 10,
      g 3 3 0, b 1 3 0, b 0 10 10, b 3 1 1, b 2 3 0, r 2 3 0, b 3 0 0, b 3 2 2, r 3 3 0, g 2 4 4,
      b 3 3 3]
  | 10 => [r 0 9 0, g 0 9 0, b 0 9 0, r 1 3 0, r 0 10 10, b 2 4 4, g 2 3 0, g 1 3 0, g 0 10 10,
      b 3 0 0, g 3 3 0, b 1 4 0, b 0 10 10, b 2 3 0, r 2 3 0, b 3 1 1, b 3 2 2, r 3 3 0, b 3 4 4,
      b 3 3 3]
  | 14 => [r 0 8 0, b 2 4 4, g 0 8 0, g 2 4 4, b 0 8 0, b 3 4 4, r 1 4 0, g 3 4 4, g 2 3 0, g 1 4 0,
      b 3 0 0, g 3 3 0, b 1 4 0, b 3 1 1, b 2 3 0, r 2 4 0, b 3 2 2, r 3 4 0, b 3 3 3]
  | 18 => [r 0 7 0, g 3 4 4, b 2 4 4, g 0 7 0, b 3 2 2, g 2 4 4, b 0 7 0, b 3 3 3, b 3 4 4, r 1 5 0,
      g 2 3 0, g 1 4 0, b 3 0 0, g 3 3 0, b 1 4 0, b 3 1 1, b 2 3 0, r 2 5 0, r 3 5 0]
  | 22 => [r 0 7 0, b 3 0 0, b 2 4 4, g 0 7 0, g 2 5 5, g 2 4 4, b 0 7 0, g 3 5 5, b 3 4 4, r 1 4 0,
      g 3 4 4, g 2 3 0, g 1 5 0, g 3 3 0, b 1 4 0, b 3 1 1, b 2 3 0, r 2 4 0, b 3 2 2, r 3 4 0,
      b 3 3 3]
  | 26 => [r 0 7 0, b 3 1 1, b 2 4 4, g 0 7 0, b 2 5 5, g 2 4 4, b 0 7 0, b 3 5 5, b 3 4 4, r 1 4 0,
      g 3 4 4, g 2 3 0, g 1 4 0, b 3 0 0, g 3 3 0, b 1 5 0, b 2 3 0, r 2 4 0, b 3 2 2, r 3 4 0,
      b 3 3 3]
  | 30 => [r 0 5 0, g 3 4 4, b 3 0 0, b 3 1 1, b 2 4 4, g 0 5 0, g 2 5 5, b 2 5 5, b 3 2 2, g 2 4 4,
      b 0 5 0, g 3 5 5, b 3 3 3, b 3 5 5, b 3 4 4, r 1 5 0, g 2 3 0, g 1 5 0, g 3 3 0, b 1 5 0,
      b 2 3 0, r 2 5 0, r 3 5 0]
  | 3 => [r 0 9 0, g 0 9 0, b 0 9 0, r 1 9 0, g 1 9 0, b 1 9 0]
  | 7 => [r 0 9 0, g 0 9 0, b 0 9 0, r 1 8 0, r 0 10 10, g 1 8 0, g 0 10 10, b 1 8 0, b 0 10 10]
  | 11 => [r 0 9 0, g 0 9 0, b 0 9 0, r 1 7 0, r 0 11 11, r 0 10 10, g 1 7 0, g 0 11 11, g 0 10 10,
      b 1 7 0, b 0 11 11, b 0 10 10]
  | 15 => [r 0 9 0, g 0 9 0, b 0 9 0, r 1 3 0, r 0 15 15, r 0 14 14, r 0 13 13, r 0 12 12, r 0 11 11,
      r 0 10 10, g 1 3 0, g 0 15 15, g 0 14 14, g 0 13 13, g 0 12 12, g 0 11 11, g 0 10 10, b 1 3 0,
      b 0 15 15, b 0 14 14, b 0 13 13, b 0 12 12, b 0 11 11, b 0 10 10]
  | _ => []

/-- The bits of endpoint `k` of channel `c`, collected from the fields starting at bit `pos`. -/
def collect (blk : List UInt8) (c k : Nat) : List Fld → Nat → Nat
  | [], _ => 0
  | f :: rest, pos =>
    (if f.ch = c ∧ f.ep = k then field blk pos f.width * 2 ^ f.lo else 0) +
      collect blk c k rest (pos + f.width)

/-- Number of bits of a list of fields. -/
def bits (l : List Fld) : Nat := (l.map Fld.width).sum

/-- The stored bits of endpoint `k` of channel `c`. -/
def stored (blk : List UInt8) (m c k : Nat) : Nat := collect blk c k (layout m) (modeBits m)

/-- Bits stored for endpoints 1–3 of channel `c`. -/
def Mode.delta (M : Mode) (c : Nat) : Nat := if c = 0 then M.dr else if c = 1 then M.dg else M.db

/-! ## Quantised endpoints -/

/-- The two's complement value of the low `n` bits. -/
def signExt (n v : Nat) : Int := if v % 2 ^ n < 2 ^ (n - 1) then (v % 2 ^ n : Nat) else (v % 2 ^ n : Nat) - 2 ^ n

/-- Endpoint `k` of channel `c` as a quantised value of `eb` bits. -/
def quantised (signed : Bool) (blk : List UInt8) (m : Nat) (M : Mode) (c k : Nat) : Int :=
  let base := stored blk m c 0
  let v := stored blk m c k
  if k = 0 then (if signed then signExt M.eb base else base)
  else if M.transformed then
    let sum := ((base + signExt (M.delta c) v) % 2 ^ M.eb).toNat
    if signed then signExt M.eb sum else sum
  else if signed then signExt (M.delta c) v else v

/-! ## The BPTC specification from here on -/

/-- Unquantisation. -/
def unquantise (signed : Bool) (eb : Nat) (v : Int) : Int :=
  if signed then
    if eb ≥ 16 then v
    else
      let mag := if v = 0 then 0 else if v.natAbs ≥ 2 ^ (eb - 1) - 1 then 0x7fff
        else (v.natAbs * 2 ^ 15 + 0x4000) / 2 ^ (eb - 1)
      if v < 0 then -(mag : Nat) else (mag : Nat)
  else if eb ≥ 15 then v
  else if v = 0 then 0
  else if v = 2 ^ eb - 1 then 0xffff
  else (v * 2 ^ 16 + 0x8000) / 2 ^ eb

/-- Interpolation with a weight out of 64. -/
def lerp (x y : Int) (w : Nat) : Int := (x * (64 - w : Nat) + y * w + 32) / 64

/-- The final scaling to a half float, as a bit pattern. -/
def finish (signed : Bool) (v : Int) : Nat :=
  if signed then
    if v < 0 then 0x8000 + v.natAbs * 31 / 32 else v.natAbs * 31 / 32
  else v.natAbs * 31 / 64

/-! ## Indices -/

/-- Index bits per texel. -/
def Mode.ib (M : Mode) : Nat := if M.ns = 2 then 3 else 4

/-- Position of the partition number. -/
def partitionPos (m : Nat) : Nat := modeBits m + bits (layout m)

def partition (blk : List UInt8) (m : Nat) (M : Mode) : Nat :=
  if M.ns = 2 then field blk (partitionPos m) 5 else 0

def indexPos (m : Nat) (M : Mode) : Nat := partitionPos m + if M.ns = 2 then 5 else 0

/-- The index of texel `i` (anchor texels have one bit less). -/
def index (blk : List UInt8) (m : Nat) (M : Mode) (i : Nat) : Nat :=
  let p := partition blk m M
  field blk (indexPos m M + (i * M.ib - Bptc.anchorsBefore M.ns p i))
    (M.ib - (Bptc.isAnchor M.ns p i).toNat)

def weight (blk : List UInt8) (m : Nat) (M : Mode) (i : Nat) : Nat :=
  Bptc.weight M.ib (index blk m M i)

/-- The half float of channel `c` of texel `i`. -/
def channel (signed : Bool) (blk : List UInt8) (m : Nat) (M : Mode) (c i : Nat) : Nat :=
  let s := Bptc.subset M.ns (partition blk m M) i
  let e k := unquantise signed M.eb (quantised signed blk m M c k)
  finish signed (lerp (e (2 * s)) (e (2 * s + 1)) (weight blk m M i))

/-- The colour of texel `i`; reserved modes are transparent black (zero). -/
def texel (signed : Bool) (blk : List UInt8) (i : Nat) : UInt32 :=
  match mode (modeOf blk) with
  | none => 0
  | some M =>
    let c ch := halfToByte (channel signed blk (modeOf blk) M ch i)
    px (c 0) (c 1) (c 2) 255

/-! ## What the code does instead

* Unsigned: the value that unquantises to `0xffff` is `2^(eb-1)` instead of `2^eb - 1`.
* Signed: every negative endpoint unquantises to the 16-bit pattern of `-0x7fff`, and interpolation
  and the final scaling treat the 16-bit patterns as unsigned / sign-magnitude numbers.
* Mode 15 panics in a build with overflow checks (see C22). Without them the second endpoint of every
  channel is zero, whatever the block says. -/

/-- Unquantisation as implemented, to a 16-bit pattern. -/
def unquantiseAsIs (signed : Bool) (eb : Nat) (v : Int) : Nat :=
  if signed then
    if v < 0 then 0x8001 else (unquantise true eb v).toNat
  else if v = 0 then 0
  else if v = 2 ^ (eb - 1) then 0xffff
  else ((v * 2 ^ 16 + 0x8000) / 2 ^ eb).toNat

/-- The final scaling as implemented. -/
def finishAsIs (signed : Bool) (v : Nat) : Nat :=
  if signed then v % 0x8000 * 31 / 32 + v / 0x8000 * 0x8000 else v * 31 / 64

/-- The half float of channel `c` of texel `i` as implemented. -/
def channelAsIs (signed : Bool) (blk : List UInt8) (m : Nat) (M : Mode) (c i : Nat) : Nat :=
  let s := Bptc.subset M.ns (partition blk m M) i
  let e k := unquantiseAsIs signed M.eb (quantised signed blk m M c k)
  finishAsIs signed (Bptc.interpolate (e (2 * s)) (e (2 * s + 1)) (weight blk m M i))

/-- The colour of texel `i` as implemented. -/
def texelAsIs (signed : Bool) (blk : List UInt8) (i : Nat) : UInt32 :=
  match mode (modeOf blk) with
  | none => 0
  | some M =>
    let c ch := halfToByte (channelAsIs signed blk (modeOf blk) M ch i)
    px (c 0) (c 1) (c 2) 255

/-- Mode 15 as implemented in a build without overflow checks: the half float of channel `c` of texel
`i`. The first endpoint is the stored 16-bit pattern, the second is 0. -/
def channelMode15 (signed : Bool) (blk : List UInt8) (c i : Nat) : Nat :=
  finishAsIs signed (Bptc.interpolate (stored blk 15 c 0) 0 (weight blk 15 ⟨true, 1, 16, 4, 4, 4⟩ i))

/-- The colour of texel `i` as implemented in a build without overflow checks, for all blocks. -/
def texelUnchecked (signed : Bool) (blk : List UInt8) (i : Nat) : UInt32 :=
  if modeOf blk = 15 then
    let c ch := halfToByte (channelMode15 signed blk ch i)
    px (c 0) (c 1) (c 2) 255
  else texelAsIs signed blk i

/-- The blocks the code decodes as specified: not mode 15, no negative endpoint (signed), no endpoint
equal to `2^(eb-1)` or `2^eb - 1` (unsigned). -/
def Clean (signed : Bool) (blk : List UInt8) : Prop :=
  modeOf blk ≠ 15 ∧ ∀ M, mode (modeOf blk) = some M → ∀ c, c < 3 → ∀ k, k < 2 * M.ns →
    let v := quantised signed blk (modeOf blk) M c k
    if signed then 0 ≤ v else v ≠ 2 ^ (M.eb - 1) ∧ v ≠ 2 ^ M.eb - 1

end Verif.Spec.Bc6
