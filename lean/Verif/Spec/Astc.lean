import Verif.Spec.Image
import Verif.Spec.Bits
import Verif.Spec.Half

/-!
# Specification: ASTC (2D, LDR and HDR profiles)

Transcribed from the Khronos Data Format Specification, chapter "ASTC compressed texture image
formats". A block is 16 bytes; `field blk pos n` are its bits `pos … pos+n-1`.
-/

namespace Verif.Spec.Astc

open Verif.Spec

/-- Bit `i` of a block. -/
def bit (blk : List UInt8) (i : Nat) : Nat := field blk i 1

/-! ## Block mode -/

/-- A void-extent block: the low nine bits are `111111100`. -/
def isVoid (blk : List UInt8) : Prop := field blk 0 9 = 0b111111100
/-- A reserved block mode: bits 8..6 are `111` and bits 1..0 are `00`, or bits 3..0 are `0000`. -/
def isReserved (blk : List UInt8) : Prop :=
  (field blk 6 3 = 7 ∧ field blk 0 2 = 0) ∨ field blk 0 4 = 0

instance (blk : List UInt8) : Decidable (isVoid blk) := by unfold isVoid; infer_instance
instance (blk : List UInt8) : Decidable (isReserved blk) := by unfold isReserved; infer_instance

/-- Width and height of the weight grid. -/
def grid (blk : List UInt8) : Nat × Nat :=
  let A := field blk 5 2
  let B := field blk 7 2
  if field blk 0 2 ≠ 0 then
    match field blk 2 2 with
    | 0 => (B + 4, A + 2)
    | 1 => (B + 8, A + 2)
    | 2 => (A + 2, B + 8)
    | _ => if bit blk 8 = 0 then (A + 2, bit blk 7 + 6) else (bit blk 7 + 2, A + 2)
  else
    match B with
    | 0 => (12, A + 2)
    | 1 => (A + 2, 12)
    | 2 => (A + 6, field blk 9 2 + 6)
    | _ => if bit blk 5 = 0 then (6, 10) else (10, 6)

/-- The one mode row without the D and H bits (they hold part of the size). -/
def noDH (blk : List UInt8) : Prop := field blk 0 2 = 0 ∧ field blk 7 2 = 2

instance (blk : List UInt8) : Decidable (noDH blk) := by unfold noDH; infer_instance

/-- Two weights per texel? -/
def dual (blk : List UInt8) : Prop := bit blk 10 = 1 ∧ ¬ noDH blk

instance (blk : List UInt8) : Decidable (dual blk) := by unfold dual; infer_instance

/-- Number of weights stored. -/
def weightNum (blk : List UInt8) : Nat :=
  (grid blk).1 * (grid blk).2 * if dual blk then 2 else 1

/-- A quantisation with `base · 2^bits` levels; `base` is 1 (plain bits), 3 (trits) or 5 (quints). -/
structure Quant where
  base : Nat
  bits : Nat
deriving DecidableEq, Repr

/-- The bits that `n` values take. -/
def seqBits (q : Quant) (n : Nat) : Nat :=
  n * q.bits + (if q.base = 3 then ceilDiv (8 * n) 5 else if q.base = 5 then ceilDiv (7 * n) 3 else 0)

/-- The weight range code R2 R1 R0. -/
def rangeCode (blk : List UInt8) : Nat :=
  bit blk 4 + if field blk 0 2 ≠ 0 then 2 * bit blk 0 + 4 * bit blk 1
    else 2 * bit blk 2 + 4 * bit blk 3

/-- The weight quantisation. Codes 2..7 mean 2, 3, 4, 5, 6, 8 levels, or, in high precision, 10, 12,
16, 20, 24, 32 levels. (Codes 0 and 1 occur only in reserved blocks.) -/
def weightQuant (blk : List UInt8) : Quant :=
  let l : List Quant :=
    if bit blk 9 = 1 ∧ ¬ noDH blk then [⟨5, 1⟩, ⟨3, 2⟩, ⟨1, 4⟩, ⟨5, 2⟩, ⟨3, 3⟩, ⟨1, 5⟩]
    else [⟨1, 1⟩, ⟨3, 0⟩, ⟨1, 2⟩, ⟨5, 0⟩, ⟨3, 1⟩, ⟨1, 3⟩]
  l.getD (rangeCode blk - 2) ⟨1, 0⟩

/-- The bits all weights take; they fill the block from its top bit downwards. -/
def weightBits (blk : List UInt8) : Nat := seqBits (weightQuant blk) (weightNum blk)

/-! ## Partitions and colour endpoint modes -/

/-- Number of partitions. -/
def parts (blk : List UInt8) : Nat := field blk 11 2 + 1

/-- The selector of the endpoint mode classes, for several partitions; 0: all partitions use one
mode. -/
def cemSel (blk : List UInt8) : Nat := field blk 23 2

/-- Number of endpoint mode bits stored below the weights. -/
def extraBits (blk : List UInt8) : Nat :=
  if parts blk = 1 ∨ cemSel blk = 0 then 0 else 3 * parts blk - 4

/-- Bit `i` of the string of endpoint mode bits that follows the selector: four bits at position 25,
the others directly below the weights. -/
def cemBit (blk : List UInt8) (i : Nat) : Nat :=
  if i < 4 then bit blk (25 + i) else bit blk (128 - weightBits blk - extraBits blk + (i - 4))

/-- The colour endpoint mode of partition `p`. -/
def cem (blk : List UInt8) (p : Nat) : Nat :=
  if parts blk = 1 then field blk 13 4
  else if cemSel blk = 0 then field blk 25 4
  else (cemSel blk - 1 + cemBit blk p) * 4 +
    (cemBit blk (parts blk + 2 * p) + 2 * cemBit blk (parts blk + 2 * p + 1))

/-- The colour component with its own weight plane. -/
def planeSel (blk : List UInt8) : Nat := field blk (126 - weightBits blk - extraBits blk) 2

/-- The bits that describe the block, besides weights and colour values. -/
def configBits (blk : List UInt8) : Nat :=
  (if parts blk = 1 then 17 else 29) + extraBits blk + if dual blk then 2 else 0

/-- Number of colour values an endpoint mode uses. -/
def cemValues (m : Nat) : Nat := 2 * (m / 4 + 1)

/-- Number of colour values of the partitions before `p`. -/
def valuesBefore (blk : List UInt8) : Nat → Nat
  | 0 => 0
  | p + 1 => valuesBefore blk p + cemValues (cem blk p)

/-- Number of colour values. -/
def valueNum (blk : List UInt8) : Nat := valuesBefore blk (parts blk)

/-- The colour quantisations: 256, 192, 160, 128, 96, 80, 64, 48, 40, 32, 24, 20, 16, 12, 10, 8, 6
levels. -/
def colourQuants : List Quant :=
  [⟨1, 8⟩, ⟨3, 6⟩, ⟨5, 5⟩, ⟨1, 7⟩, ⟨3, 5⟩, ⟨5, 4⟩, ⟨1, 6⟩, ⟨3, 4⟩, ⟨5, 3⟩, ⟨1, 5⟩, ⟨3, 3⟩, ⟨5, 2⟩,
   ⟨1, 4⟩, ⟨3, 2⟩, ⟨5, 1⟩, ⟨1, 3⟩, ⟨3, 1⟩]

/-- The colour values use the finest quantisation that fits into the remaining bits. -/
def colourQuant (blk : List UInt8) : Quant :=
  (colourQuants.find? fun q =>
    seqBits q (valueNum blk) ≤ 128 - configBits blk - weightBits blk).getD ⟨3, 1⟩

/-! ## Bounded integer sequence encoding -/

/-- `n` bits of a number at position `pos`. -/
def bitsAt (s pos n : Nat) : Nat := s / 2 ^ pos % 2 ^ n

/-- The five trits packed into the eight bits `T`. -/
def trits (T : Nat) : List Nat :=
  let b i := bitsAt T i 1
  let C := if bitsAt T 2 3 = 7 then bitsAt T 5 3 * 4 + bitsAt T 0 2 else bitsAt T 0 5
  let (t4, t3) := if bitsAt T 2 3 = 7 then (2, 2)
    else if bitsAt T 5 2 = 3 then (2, b 7) else (b 7, bitsAt T 5 2)
  let c i := bitsAt C i 1
  let (t2, t1, t0) :=
    if bitsAt C 0 2 = 3 then (2, c 4, c 3 * 2 + c 2 * (1 - c 3))
    else if bitsAt C 2 2 = 3 then (2, 2, bitsAt C 0 2)
    else (c 4, bitsAt C 2 2, c 1 * 2 + c 0 * (1 - c 1))
  [t0, t1, t2, t3, t4]

/-- The three quints packed into the seven bits `Q`. -/
def quints (Q : Nat) : List Nat :=
  let b i := bitsAt Q i 1
  if bitsAt Q 1 2 = 3 ∧ bitsAt Q 5 2 = 0 then
    [4, 4, b 0 * 4 + b 4 * (1 - b 0) * 2 + b 3 * (1 - b 0)]
  else
    let q2 := if bitsAt Q 1 2 = 3 then 4 else bitsAt Q 5 2
    let C := if bitsAt Q 1 2 = 3 then bitsAt Q 3 2 * 8 + (3 - bitsAt Q 5 2) * 2 + b 0
      else bitsAt Q 0 5
    if bitsAt C 0 3 = 5 then [bitsAt C 3 2, 4, q2] else [bitsAt C 0 3, bitsAt C 3 2, q2]

/-- The packed trits `T` of a group whose numbers have `b` bits: bits 0–1 come after the first
number, 2–3 after the second, 4 after the third, 5–6 after the fourth, 7 after the fifth. -/
def packedTrits (s b : Nat) : Nat :=
  bitsAt s b 2 + 4 * bitsAt s (2 * b + 2) 2 + 16 * bitsAt s (3 * b + 4) 1 +
    32 * bitsAt s (4 * b + 5) 2 + 128 * bitsAt s (5 * b + 7) 1

/-- The packed quints `Q` of a group: bits 0–2 come after the first number, 3–4 after the second,
5–6 after the third. -/
def packedQuints (s b : Nat) : Nat :=
  bitsAt s b 3 + 8 * bitsAt s (2 * b + 3) 2 + 32 * bitsAt s (3 * b + 5) 2

/-- Number `i` of the sequence stored in the bits of `s` (bits past its end are zero): its plain bits
and its trit or quint. -/
def ise (q : Quant) (s i : Nat) : Nat × Nat :=
  if q.base = 3 then
    let g := s / 2 ^ (i / 5 * (8 + 5 * q.bits))
    (bitsAt g (i % 5 * q.bits + [0, 2, 4, 5, 7].getD (i % 5) 0) q.bits,
      (trits (packedTrits g q.bits)).getD (i % 5) 0)
  else if q.base = 5 then
    let g := s / 2 ^ (i / 3 * (7 + 3 * q.bits))
    (bitsAt g (i % 3 * q.bits + [0, 3, 5].getD (i % 3) 0) q.bits,
      (quints (packedQuints g q.bits)).getD (i % 3) 0)
  else (bitsAt s (i * q.bits) q.bits, 0)

/-- The lowest `n` bits of `s` in reverse order. -/
def reverseBits (s : Nat) : Nat → Nat
  | 0 => 0
  | n + 1 => 2 * reverseBits s n + bitsAt s n 1

/-- The colour values, as a bit sequence. -/
def colourStream (blk : List UInt8) : Nat :=
  field blk (if parts blk = 1 then 17 else 29) (seqBits (colourQuant blk) (valueNum blk))

/-- The weights, as a bit sequence: the top bits of the block, from the top bit downwards. -/
def weightStream (blk : List UInt8) : Nat :=
  reverseBits (field blk (128 - weightBits blk) (weightBits blk)) (weightBits blk)

/-! ## Unquantisation -/

/-- A bit pattern such as `cb000cbcb`, from the top bit: 0 stands for a zero bit, `k > 0` for bit `k`
of `x` (`b` is bit 1, `c` is bit 2, …). -/
def pattern (l : List Nat) (x : Nat) : Nat :=
  l.foldl (fun acc k => 2 * acc + if k = 0 then 0 else bitsAt x k 1) 0

/-- Replication of the `b` bits of `x` to `n` bits, from the top bit. -/
def replicateBits (b n x : Nat) : Nat :=
  (List.range n).foldl (fun acc k => 2 * acc + bitsAt x (b - 1 - k % b) 1) 0

/-- The constant `C` and the pattern of `B` for colours. -/
def colourBC (q : Quant) : Nat × List Nat :=
  if q.base = 3 then
    match q.bits with
    | 1 => (204, [])
    | 2 => (93, [1, 0, 0, 0, 1, 0, 1, 1, 0])
    | 3 => (44, [2, 1, 0, 0, 0, 2, 1, 2, 1])
    | 4 => (22, [3, 2, 1, 0, 0, 0, 3, 2, 1])
    | 5 => (11, [4, 3, 2, 1, 0, 0, 0, 4, 3])
    | _ => (5, [5, 4, 3, 2, 1, 0, 0, 0, 5])
  else
    match q.bits with
    | 1 => (113, [])
    | 2 => (54, [1, 0, 0, 0, 0, 1, 1, 0, 0])
    | 3 => (26, [2, 1, 0, 0, 0, 0, 2, 1, 2])
    | 4 => (13, [3, 2, 1, 0, 0, 0, 0, 3, 2])
    | _ => (6, [4, 3, 2, 1, 0, 0, 0, 0, 4])

/-- A colour value as a number in 0..255. -/
def unquantColour (q : Quant) (v : Nat × Nat) : Nat :=
  if q.base = 1 then replicateBits q.bits 8 v.1
  else
    let A := bitsAt v.1 0 1 * 511
    let (C, B) := colourBC q
    let T := (v.2 * C + pattern B v.1) ^^^ A
    (A &&& 0x80) ||| T / 4

/-- The constant `C` and the pattern of `B` for weights. -/
def weightBC (q : Quant) : Nat × List Nat :=
  if q.base = 3 then
    match q.bits with
    | 1 => (50, [])
    | 2 => (23, [1, 0, 0, 0, 1, 0, 1])
    | _ => (11, [2, 1, 0, 0, 0, 2, 1])
  else
    match q.bits with
    | 1 => (28, [])
    | _ => (13, [1, 0, 0, 0, 0, 1, 0])

/-- A weight as a number in 0..63. -/
def unquantWeight63 (q : Quant) (v : Nat × Nat) : Nat :=
  if q.base = 1 then replicateBits q.bits 6 v.1
  else if q.bits = 0 then
    (if q.base = 3 then [0, 32, 63] else [0, 16, 32, 47, 63]).getD v.2 0
  else
    let A := bitsAt v.1 0 1 * 127
    let (C, B) := weightBC q
    let T := (v.2 * C + pattern B v.1) ^^^ A
    (A &&& 0x20) ||| T / 4

/-- A weight as a number in 0..64. -/
def unquantWeight (q : Quant) (v : Nat × Nat) : Nat :=
  let w := unquantWeight63 q v
  if 32 < w then w + 1 else w

/-! ## Colour endpoints -/

/-- Clamping to `0 … hi`. -/
def clamp (hi : Nat) (x : Int) : Nat := min x.toNat hi

/-- The two endpoints of a partition as one list: red, green, blue, alpha of the first, then of the
second. LDR components are in 0..255, HDR components in 0..4095. -/
abbrev Pair := List Nat

/-- Blue contraction. -/
def blueContract (r g b : Int) : Int × Int × Int := ((r + b) / 2, (g + b) / 2, b)

/-- `bit_transfer_signed`: the offset stored in `a`, and the base stored in `b` and the top bit of
`a`. -/
def offsetOf (a : Nat) : Int := if a / 2 % 64 < 32 then (a / 2 % 64 : Nat) else (a / 2 % 64 : Nat) - 64
def baseOf (a b : Nat) : Nat := b / 2 + a / 128 * 128

/-- Base and offset, RGB with alpha (modes 9 and 13). -/
def baseOffset (b0 b1 b2 : Nat) (o0 o1 o2 : Int) (alpha1 : Nat) (alpha2 : Int) : Pair :=
  if 0 ≤ o0 + o1 + o2 then
    [clamp 255 b0, clamp 255 b1, clamp 255 b2, clamp 255 alpha1,
     clamp 255 (b0 + o0), clamp 255 (b1 + o1), clamp 255 (b2 + o2), clamp 255 alpha2]
  else
    let (r, g, b) := blueContract (b0 + o0) (b1 + o1) (b2 + o2)
    let (r', g', b') := blueContract b0 b1 b2
    [clamp 255 r, clamp 255 g, clamp 255 b, clamp 255 alpha2,
     clamp 255 r', clamp 255 g', clamp 255 b', clamp 255 alpha1]

/-- Direct RGB with alpha (modes 8 and 12). -/
def direct (v0 v1 v2 v3 v4 v5 a1 a2 : Nat) : Pair :=
  if v0 + v2 + v4 ≤ v1 + v3 + v5 then [v0, v2, v4, a1, v1, v3, v5, a2]
  else [(v1 + v5) / 2, (v3 + v5) / 2, v5, a2, (v0 + v4) / 2, (v2 + v4) / 2, v4, a1]

/-- `x << k` if bit `mode` of `mask` is set. -/
def when (mode mask x k : Nat) : Nat := if mask.testBit mode then x <<< k else 0

/-- HDR RGB, base and scale (mode 7). -/
def hdrScale (v0 v1 v2 v3 : Nat) : Pair :=
  let modeval := v0 / 64 + v1 / 128 * 4 + v2 / 128 * 8
  let (major, mode) :=
    if modeval / 4 ≠ 3 then (modeval / 4, modeval % 4)
    else if modeval ≠ 15 then (modeval % 4, 4) else (0, 5)
  let x0 := bitsAt v1 6 1
  let x1 := bitsAt v1 5 1
  let x2 := bitsAt v2 6 1
  let x3 := bitsAt v2 5 1
  let x4 := bitsAt v3 7 1
  let x5 := bitsAt v3 6 1
  let x6 := bitsAt v3 5 1
  let g := v1 % 32 ||| when mode 0x30 x0 6 ||| when mode 0x3A x1 5
  let b := v2 % 32 ||| when mode 0x30 x2 6 ||| when mode 0x3A x3 5
  let s := v3 % 32 ||| when mode 0x3D x6 5 ||| when mode 0x2D x5 6 ||| when mode 0x04 x4 7
  let r := v0 % 64 ||| when mode 0x3B x4 6 ||| when mode 0x04 x3 6 ||| when mode 0x10 x5 7 |||
    when mode 0x0F x2 7 ||| when mode 0x05 x1 8 ||| when mode 0x0A x0 8 ||| when mode 0x05 x0 9 |||
    when mode 0x02 x6 9 ||| when mode 0x01 x3 10 ||| when mode 0x02 x5 10
  let sh := 2 ^ ([1, 1, 2, 3, 4, 5].getD mode 0)
  let r : Int := (r * sh : Nat)
  let g : Int := (g * sh : Nat)
  let b : Int := (b * sh : Nat)
  let s : Int := (s * sh : Nat)
  let (g, b) := if mode ≠ 5 then (r - g, r - b) else (g, b)
  let (r, g, b) := if major = 1 then (g, r, b) else if major = 2 then (b, g, r) else (r, g, b)
  [clamp 0xfff (r - s), clamp 0xfff (g - s), clamp 0xfff (b - s), 0x780,
   clamp 0xfff r, clamp 0xfff g, clamp 0xfff b, 0x780]

/-- The offset stored in the low `n` bits of `v`. The standard reads it as a two's complement number.
With `asIs`, negative numbers come out `65536` too large: this is what the crate computes. -/
def signedOffset (asIs : Bool) (n v : Nat) : Int :=
  let d := v % 2 ^ n
  if d < 2 ^ (n - 1) then d else d - 2 ^ n + if asIs then 65536 else 0

/-- HDR RGB, direct (modes 11, 14 and 15); the alpha components are given. -/
def hdrDirect (asIs : Bool) (v0 v1 v2 v3 v4 v5 alpha1 alpha2 : Nat) : Pair :=
  let major := v4 / 128 + v5 / 128 * 2
  if major = 3 then
    [v0 * 16, v2 * 16, v4 % 128 * 32, alpha1, v1 * 16, v3 * 16, v5 % 128 * 32, alpha2]
  else
    let mode := v1 / 128 + v2 / 128 * 2 + v3 / 128 * 4
    let x0 := bitsAt v2 6 1
    let x1 := bitsAt v3 6 1
    let x2 := bitsAt v4 6 1
    let x3 := bitsAt v5 6 1
    let x4 := bitsAt v4 5 1
    let x5 := bitsAt v5 5 1
    let a := v0 ||| bitsAt v1 6 1 <<< 8 ||| when mode 0xA4 x0 9 ||| when mode 0x08 x2 9 |||
      when mode 0x50 x4 9 ||| when mode 0x50 x5 10 ||| when mode 0xA0 x1 10 ||| when mode 0xC0 x2 11
    let c := v1 % 64 ||| when mode 0x04 x1 6 ||| when mode 0xE8 x3 6 ||| when mode 0x20 x2 7
    let b0 := v2 % 64 ||| when mode 0x5B x0 6 ||| when mode 0x12 x2 7
    let b1 := v3 % 64 ||| when mode 0x5B x1 6 ||| when mode 0x12 x3 7
    let dbits := [7, 6, 7, 6, 5, 6, 5, 6].getD mode 0
    let sh := 2 ^ ([3, 3, 2, 2, 1, 1, 0, 0].getD mode 0)
    let a : Int := (a * sh : Nat)
    let b0 : Int := (b0 * sh : Nat)
    let b1 : Int := (b1 * sh : Nat)
    let c : Int := (c * sh : Nat)
    let d0 := signedOffset asIs dbits v4 * sh
    let d1 := signedOffset asIs dbits v5 * sh
    let (r, g, b) := (a, a - b0, a - b1)
    let (r', g', b') := (a - c, a - b0 - c - d0, a - b1 - c - d1)
    let swap (r g b : Int) : Int × Int × Int :=
      if major = 1 then (g, r, b) else if major = 2 then (b, g, r) else (r, g, b)
    let (r, g, b) := swap r g b
    let (r', g', b') := swap r' g' b'
    [clamp 0xfff r', clamp 0xfff g', clamp 0xfff b', alpha1,
     clamp 0xfff r, clamp 0xfff g, clamp 0xfff b, alpha2]

/-- HDR alpha (mode 15). -/
def hdrAlpha (v6 v7 : Nat) : Nat × Nat :=
  let mode := v6 / 128 + v7 / 128 * 2
  let x := v6 % 128
  let y := v7 % 128
  if mode = 3 then (x * 32, y * 32)
  else
    let base := (x ||| (y <<< (mode + 1) &&& 0x780)) * 2 ^ (4 - mode)
    let n := 6 - mode
    let off : Int := (if y % 2 ^ n < 2 ^ (n - 1) then (y % 2 ^ n : Nat) else (y % 2 ^ n : Nat) - 2 ^ n)
    (base, clamp 0xfff (base + off * 2 ^ (4 - mode)))

/-- The endpoints of colour endpoint mode `m` with values `v 0`, `v 1`, …. -/
def endpoints (asIs : Bool) (m : Nat) (v : Nat → Nat) : Pair :=
  match m with
  | 0 => [v 0, v 0, v 0, 255, v 1, v 1, v 1, 255]
  | 1 =>
    let l0 := v 0 / 4 + v 1 / 64 * 64
    let l1 := min 255 (l0 + v 1 % 64)
    [l0, l0, l0, 255, l1, l1, l1, 255]
  | 2 =>
    let (y0, y1) := if v 0 ≤ v 1 then (v 0 * 16, v 1 * 16) else (v 1 * 16 + 8, v 0 * 16 - 8)
    [y0, y0, y0, 0x780, y1, y1, y1, 0x780]
  | 3 =>
    let (y0, d) := if 128 ≤ v 0 then (v 1 / 32 * 512 + v 0 % 128 * 4, v 1 % 32 * 4)
      else (v 1 / 16 * 256 + v 0 % 128 * 2, v 1 % 16 * 2)
    let y1 := min 0xfff (y0 + d)
    [y0, y0, y0, 0x780, y1, y1, y1, 0x780]
  | 4 => [v 0, v 0, v 0, v 2, v 1, v 1, v 1, v 3]
  | 5 =>
    let l0 := baseOf (v 1) (v 0)
    let l1 := clamp 255 (l0 + offsetOf (v 1))
    let a0 := baseOf (v 3) (v 2)
    [l0, l0, l0, a0, l1, l1, l1, clamp 255 (a0 + offsetOf (v 3))]
  | 6 => [v 0 * v 3 / 256, v 1 * v 3 / 256, v 2 * v 3 / 256, 255, v 0, v 1, v 2, 255]
  | 7 => hdrScale (v 0) (v 1) (v 2) (v 3)
  | 8 => direct (v 0) (v 1) (v 2) (v 3) (v 4) (v 5) 255 255
  | 9 => baseOffset (baseOf (v 1) (v 0)) (baseOf (v 3) (v 2)) (baseOf (v 5) (v 4))
      (offsetOf (v 1)) (offsetOf (v 3)) (offsetOf (v 5)) 255 255
  | 10 => [v 0 * v 3 / 256, v 1 * v 3 / 256, v 2 * v 3 / 256, v 4, v 0, v 1, v 2, v 5]
  | 11 => hdrDirect asIs (v 0) (v 1) (v 2) (v 3) (v 4) (v 5) 0x780 0x780
  | 12 => direct (v 0) (v 1) (v 2) (v 3) (v 4) (v 5) (v 6) (v 7)
  | 13 => baseOffset (baseOf (v 1) (v 0)) (baseOf (v 3) (v 2)) (baseOf (v 5) (v 4))
      (offsetOf (v 1)) (offsetOf (v 3)) (offsetOf (v 5)) (baseOf (v 7) (v 6))
      (baseOf (v 7) (v 6) + offsetOf (v 7))
  | 14 => hdrDirect asIs (v 0) (v 1) (v 2) (v 3) (v 4) (v 5) (v 6) (v 7)
  | _ =>
    let (a1, a2) := hdrAlpha (v 6) (v 7)
    hdrDirect asIs (v 0) (v 1) (v 2) (v 3) (v 4) (v 5) a1 a2

/-- Colour value number `i` of a block. -/
def colourValue (blk : List UInt8) (i : Nat) : Nat :=
  unquantColour (colourQuant blk) (ise (colourQuant blk) (colourStream blk) i)

/-- The endpoints of partition `p` of a block. -/
def blockEndpoints (asIs : Bool) (blk : List UInt8) (p : Nat) : Pair :=
  endpoints asIs (cem blk p) fun i => colourValue blk (valuesBefore blk p + i)

/-! ## Weights of texels -/

/-- Entry `i` of the weight grid (planes interleaved). The bilinear filter reads entries past the end
only with factor 0 for the block sizes of the standard; they count as 0. -/
def gridWeight (blk : List UInt8) (i : Nat) : Nat :=
  if i < weightNum blk then
    unquantWeight (weightQuant blk) (ise (weightQuant blk) (weightStream blk) i)
  else 0

/-- Position in the weight grid, in 1/16, of texel coordinate `s` of `bs`, for `n` grid points. -/
def gridPos (bs n s : Nat) : Nat := ((1024 + bs / 2) / (bs - 1) * s * (n - 1) + 32) / 64

/-- The weight of texel (`s`, `t`) in a plane. -/
def texelWeight (blk : List UInt8) (bw bh s t plane : Nat) : Nat :=
  let n := (grid blk).1
  let gs := gridPos bw n s
  let gt := gridPos bh (grid blk).2 t
  let fs := gs % 16
  let ft := gt % 16
  let planes := if dual blk then 2 else 1
  let at' (dx dy : Nat) := gridWeight blk ((gs / 16 + dx + (gt / 16 + dy) * n) * planes + plane)
  let w11 := (fs * ft + 8) / 16
  (at' 0 0 * (16 + w11 - fs - ft) + at' 1 0 * (fs - w11) + at' 0 1 * (ft - w11) + at' 1 1 * w11 + 8)
    / 16

/-! ## Partitions -/

/-- The hash of the partition generator, on 32-bit numbers. -/
def hash52 (p : UInt32) : UInt32 :=
  let p := p ^^^ (p >>> 15)
  let p := p - (p <<< 17)
  let p := p + (p <<< 7)
  let p := p + (p <<< 4)
  let p := p ^^^ (p >>> 5)
  let p := p + (p <<< 16)
  let p := p ^^^ (p >>> 7)
  let p := p ^^^ (p >>> 3)
  let p := p ^^^ (p <<< 6)
  p ^^^ (p >>> 17)

/-- The partition of a texel, for a partition index `seed` (10 bits) and `n` partitions. `small` blocks
have fewer than 31 texels. -/
def selectPartition (seed x y n : Nat) (small : Bool) : Nat :=
  let x := if small then 2 * x else x
  let y := if small then 2 * y else y
  let seed := seed + (n - 1) * 1024
  let rnum := (hash52 (UInt32.ofNat seed)).toNat
  let shA := if seed / 2 % 2 = 1 then 4 else 5
  let shB := if n = 3 then 6 else 5
  let (sh1, sh2) := if seed % 2 = 1 then (shA, shB) else (shB, shA)
  let sd i := let v := rnum / 2 ^ (4 * i) % 16; v * v / 2 ^ (if i % 2 = 0 then sh1 else sh2)
  let a := (sd 0 * x + sd 1 * y + rnum / 2 ^ 14) % 64
  let b := (sd 2 * x + sd 3 * y + rnum / 2 ^ 10) % 64
  let c := if n < 3 then 0 else (sd 4 * x + sd 5 * y + rnum / 2 ^ 6) % 64
  let d := if n < 4 then 0 else (sd 6 * x + sd 7 * y + rnum / 2 ^ 2) % 64
  if b ≤ a ∧ c ≤ a ∧ d ≤ a then 0 else if c ≤ b ∧ d ≤ b then 1 else if d ≤ c then 2 else 3

/-- The partition of texel (`s`, `t`) of a block. -/
def partitionAt (blk : List UInt8) (bw bh s t : Nat) : Nat :=
  if parts blk = 1 then 0
  else selectPartition (field blk 13 10) s t (parts blk) (decide (bw * bh < 31))

/-! ## Texels -/

/-- Is component `ch` of endpoint mode `m` an HDR component? -/
def isHdr (m ch : Nat) : Bool :=
  m = 2 ∨ m = 3 ∨ m = 7 ∨ m = 11 ∨ m = 15 ∨ (m = 14 ∧ ch ≠ 3)

/-- LDR interpolation in 16 bits, converted to 8 bits. -/
def ldr (e0 e1 w : Nat) : Nat := ((e0 * 257 * (64 - w) + e1 * 257 * w + 32) / 64 * 255 + 32768) / 65536

/-- HDR interpolation in the 16-bit logarithmic form, as the bits of a half float. -/
def hdrHalf (e0 e1 w : Nat) : Nat :=
  let c := (e0 * 16 * (64 - w) + e1 * 16 * w + 32) / 64
  let m := c % 2048
  let mt := if m < 512 then 3 * m else if m < 1536 then 4 * m - 512 else 5 * m - 2048
  c / 2048 * 1024 + mt / 8

/-- An HDR component as 8 bits: 1.0 and above (also infinities) give 255. -/
def hdr (e0 e1 w : Nat) : Nat :=
  let h := hdrHalf e0 e1 w
  if h / 1024 % 32 = 31 then 255 else halfToByte h

/-- Component `ch` (red, green, blue, alpha) of texel (`s`, `t`). -/
def component (asIs : Bool) (blk : List UInt8) (bw bh s t ch : Nat) : Nat :=
  let p := partitionAt blk bw bh s t
  let e := blockEndpoints asIs blk p
  let plane := if dual blk ∧ ch = planeSel blk then 1 else 0
  let w := texelWeight blk bw bh s t plane
  if isHdr (cem blk p) ch then hdr (e.getD ch 0) (e.getD (ch + 4) 0) w
  else ldr (e.getD ch 0) (e.getD (ch + 4) 0) w

/-- The error colour. -/
def errorColour : UInt32 := px 255 0 255 255

/-- The colour of a void-extent block: four 16-bit components at byte 8, half floats if bit 9 is set,
otherwise normalised 16-bit numbers of which the top 8 bits are kept. -/
def voidColour (blk : List UInt8) : UInt32 :=
  let c i := if bit blk 9 = 1 then halfToByte (field blk (64 + 16 * i) 16)
    else field blk (64 + 16 * i) 16 / 256
  px (c 0) (c 1) (c 2) (c 3)

/-- The colour of texel `i` (in raster order) of a `bw × bh` block. -/
def texel (asIs : Bool) (bw bh : Nat) (blk : List UInt8) (i : Nat) : UInt32 :=
  if isVoid blk then voidColour blk
  else if isReserved blk then errorColour
  else
    let c := component asIs blk bw bh (i % bw) (i / bw)
    px (c 0) (c 1) (c 2) (c 3)

/-- What a block must satisfy to be decoded: a void-extent block with half floats has no component
−∞; a block with texels has room for its colour values with the coarsest quantisation (6 levels).
Every block with texels that the standard allows satisfies this, and also some that it does not. -/
def Fits (blk : List UInt8) : Prop :=
  if isVoid blk then bit blk 9 = 1 → ∀ i, i < 4 → field blk (64 + 16 * i) 16 ≠ 0xfc00
  else isReserved blk ∨ configBits blk + weightBits blk + seqBits ⟨3, 1⟩ (valueNum blk) ≤ 128

instance (blk : List UInt8) : Decidable (Fits blk) := by unfold Fits; infer_instance

/-- The blocks on which a build with overflow checks panics, when `len` bytes of data are left: a
void-extent block with a half float −∞; a block with texels whose configuration and weights need more
than 128 bits; a block with texels whose colour values do not even fit with one bit each (the code then
reads 8 bits for each) if these bits go beyond the end of the data. -/
def Panics (blk : List UInt8) (len : Nat) : Prop :=
  if isVoid blk then bit blk 9 = 1 ∧ ∃ i, i < 4 ∧ field blk (64 + 16 * i) 16 = 0xfc00
  else ¬ isReserved blk ∧ (128 < configBits blk + weightBits blk ∨
    (128 < configBits blk + weightBits blk + valueNum blk ∧
      8 * len < (if parts blk = 1 then 17 else 29) + 8 * valueNum blk))

instance (blk : List UInt8) (len : Nat) : Decidable (Panics blk len) := by
  unfold Panics; infer_instance

/-- The blocks on which a build without overflow checks panics, when `len` bytes of data are left. All
are blocks with texels, and one of these happens:
* a grid for two planes is so large that its neighbours lie beyond the 128 weights of the code;
* plain-bit weights need more than 128 bits;
* there are endpoint mode bits, and they would begin before the first bit (the code reads six bits for
  three partitions);
* there are two planes, and the plane selector would begin before the first bit;
* the colour values do not even fit with one bit each (the code then reads 8 bits for each), and these
  bits go beyond the end of the data. -/
def PanicsUnchecked (blk : List UInt8) (len : Nat) : Prop :=
  ¬ isVoid blk ∧ ¬ isReserved blk ∧
    ((dual blk ∧ 64 ≤ (grid blk).1 * ((grid blk).2 + 1)) ∨
    ((weightQuant blk).base = 1 ∧ 128 < weightBits blk) ∨
    (extraBits blk ≠ 0 ∧ 128 < weightBits blk + (if parts blk = 3 then 6 else extraBits blk)) ∨
    (dual blk ∧ 128 < weightBits blk + extraBits blk + 2) ∨
    (128 < configBits blk + weightBits blk + valueNum blk ∧
      8 * len < (if parts blk = 1 then 17 else 29) + 8 * valueNum blk))

instance (blk : List UInt8) (len : Nat) : Decidable (PanicsUnchecked blk len) := by
  unfold PanicsUnchecked; infer_instance

/-- The widths and heights of the 14 block sizes of the format. -/
def StdSize (n : Nat) : Prop := n = 4 ∨ n = 5 ∨ n = 6 ∨ n = 8 ∨ n = 10 ∨ n = 12

/-! ## The standard's own colours -/

/-- The offset number `i` (4 or 5) of an HDR direct endpoint, as the standard defines it. -/
def directOffset (v : Nat → Nat) (i : Nat) : Int :=
  signedOffset false ([7, 6, 7, 6, 5, 6, 5, 6].getD (v 1 / 128 + v 2 / 128 * 2 + v 3 / 128 * 4) 0) (v i)

/-- An HDR direct endpoint without a negative offset (major component 3 means: no offsets). -/
def OffsetsNonneg (v : Nat → Nat) : Prop :=
  v 4 / 128 + v 5 / 128 * 2 = 3 ∨ (0 ≤ directOffset v 4 ∧ 0 ≤ directOffset v 5)

instance (v : Nat → Nat) : Decidable (OffsetsNonneg v) := by unfold OffsetsNonneg; infer_instance

/-- A block with texels that the standard allows for `bw × bh` blocks. -/
def Standard (bw bh : Nat) (blk : List UInt8) : Prop :=
  ¬ isVoid blk ∧ ¬ isReserved blk ∧ (grid blk).1 ≤ bw ∧ (grid blk).2 ≤ bh ∧ weightNum blk ≤ 64 ∧
  24 ≤ weightBits blk ∧ weightBits blk ≤ 96 ∧ (dual blk → parts blk ≤ 3) ∧ valueNum blk ≤ 18 ∧
  configBits blk + weightBits blk + seqBits ⟨3, 1⟩ (valueNum blk) ≤ 128

instance (bw bh : Nat) (blk : List UInt8) : Decidable (Standard bw bh blk) := by
  unfold Standard; infer_instance

/-- A void-extent block that the standard allows: bits 10 and 11 are set, and the four 13-bit extents
are all ones, or the low one is less than the high one in both directions. -/
def VoidAllowed (blk : List UInt8) : Prop :=
  field blk 10 2 = 3 ∧
  (field blk 12 52 = 2 ^ 52 - 1 ∨
    (field blk 12 13 < field blk 25 13 ∧ field blk 38 13 < field blk 51 13))

instance (blk : List UInt8) : Decidable (VoidAllowed blk) := by unfold VoidAllowed; infer_instance

/-- The colour of texel `i` by the standard (in the profile with HDR): all blocks it does not allow
show the error colour. -/
def standardTexel (bw bh : Nat) (blk : List UInt8) (i : Nat) : UInt32 :=
  if isVoid blk then
    if VoidAllowed blk then voidColour blk else errorColour
  else if Standard bw bh blk then
    let c := component false blk bw bh (i % bw) (i / bw)
    px (c 0) (c 1) (c 2) (c 3)
  else errorColour

/-- The blocks on which the crate agrees with the standard: allowed void-extent blocks without a half
float −∞, reserved blocks, and blocks the standard allows whose HDR direct endpoints have no negative
offsets. -/
def Agrees (bw bh : Nat) (blk : List UInt8) : Prop :=
  (isVoid blk ∧ VoidAllowed blk ∧
    (bit blk 9 = 1 → ∀ i, i < 4 → field blk (64 + 16 * i) 16 ≠ 0xfc00)) ∨
  (¬ isVoid blk ∧ isReserved blk) ∨
  (Standard bw bh blk ∧ ∀ p, p < parts blk → (cem blk p = 11 ∨ cem blk p = 14 ∨ cem blk p = 15) →
    OffsetsNonneg fun i => colourValue blk (valuesBefore blk p + i))

instance (bw bh : Nat) (blk : List UInt8) : Decidable (Agrees bw bh blk) := by
  unfold Agrees; infer_instance

end Verif.Spec.Astc
