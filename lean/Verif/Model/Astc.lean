import Verif.Model.Image
import Verif.Model.BitReader
import Verif.Model.F16
import Verif.Model.AstcTables

/-!
# Model of `src/astc.rs`

An `i32` is an `Int`, a `u64`/`usize`/`u8` a `Nat`. Shifts by a constant smaller than the width,
`&`, `|` and `^` cannot panic and are pure functions here; `+`, `-`, `*` and shifts by a variable go
through the checked operations of `Verif.Rust`.
-/

namespace Verif.Model

open Verif

/-! ## `i32` and `f32` operations used by `src/astc.rs` -/

/-- `a << k` on `i32`, for a constant `k < 32`, as in `src/astc.rs:222`. -/
def shl32 (a : Int) (k : Nat) : Int := (a * 2 ^ k).bmod (2 ^ 32)
/-- `a >> k` on `i32`, for a constant `k < 32`, as in `src/astc.rs:164`. -/
def shr32 (a : Int) (k : Nat) : Int := a / 2 ^ k
/-- `x.clamp(lo, hi)` on `i32`, as in `src/astc.rs:120`. -/
def clampI (lo hi x : Int) : Int := if x < lo then lo else if hi < x then hi else x

/-- `x as i32`, as in `src/astc.rs:9`: truncates, saturates, NaN gives 0. -/
def Fl.asI32 : Fl → Int
  | .nan => 0
  | .inf true => -2 ^ 31
  | .inf false => 2 ^ 31 - 1
  | .fin true n => -(min (2 ^ 31) (n / 2 ^ 149) : Nat)
  | .fin false n => (min (2 ^ 31 - 1) (n / 2 ^ 149) : Nat)

/-- `i as f32`, as in `src/astc.rs:13`: rounds to nearest even. -/
def Fl.ofI32 (i : Int) : Fl := Fl.round (decide (i < 0)) (i.natAbs * 2 ^ 149) 0

/-- `a == b`, as in `src/astc.rs:10`. -/
def Fl.eq : Fl → Fl → Bool
  | .inf s, .inf t => s == t
  | .fin s n, .fin t m => (n == m && s == t) || (n == 0 && m == 0)
  | _, _ => false

/-- `f32::is_finite`, used in `src/astc.rs:238`. -/
def Fl.isFinite : Fl → Bool
  | .fin _ _ => true
  | _ => false

variable [Build]

/-- `a << k` on `i32`, where the amount is an `i32` as well, as in `src/astc.rs:929`. -/
def shlS (a k : Int) : Out Int :=
  if 0 ≤ k ∧ k < 32 then .ok (shl32 a k.toNat)
  else if Build.overflowChecks then .panic else .ok (shl32 a (k % 32).toNat)
/-- `a >> k` on `i32`, where the amount is an `i32` as well, as in `src/astc.rs:1352`. -/
def shrS (a k : Int) : Out Int :=
  if 0 ≤ k ∧ k < 32 then .ok (shr32 a k.toNat)
  else if Build.overflowChecks then .panic else .ok (shr32 a (k % 32).toNat)

/-- `floor(x)`: `src/astc.rs:8-14` -/
def astcFloor (x : Fl) : Out Fl := do
  let i := x.asI32
  let i ← (if x.lt Fl.zero && !(x.eq (Fl.ofI32 i)) then subI 32 i 1 else pure i)
  pure (Fl.ofI32 i)

/-! ## Tables and bit reversal -/

/-- `WEIGHT_PREC_TABLE_A`: `src/astc.rs:35` -/
def weightPrecTableA : List Nat := [0, 0, 0, 3, 0, 5, 3, 0, 0, 0, 5, 3, 0, 5, 3, 0]
/-- `WEIGHT_PREC_TABLE_B`: `src/astc.rs:36` -/
def weightPrecTableB : List Nat := [0, 0, 1, 0, 2, 0, 1, 3, 0, 0, 1, 2, 4, 2, 3, 5]
/-- `CEM_TABLE_A`: `src/astc.rs:38` -/
def cemTableA : List Nat := [0, 3, 5, 0, 3, 5, 0, 3, 5, 0, 3, 5, 0, 3, 5, 0, 3, 0, 0]
/-- `CEM_TABLE_B`: `src/astc.rs:39` -/
def cemTableB : List Nat := [8, 6, 5, 7, 5, 4, 6, 4, 3, 5, 3, 2, 4, 2, 1, 3, 1, 2, 1]

/-- `bit_reverse_u8(c, bits)`: `src/astc.rs:42-48` -/
def bitReverseU8 (c bits : Nat) : Out Nat := do
  let r ← idx bitReverseTable c
  let k ← subU 32 8 bits
  pure (if k < 8 then r >>> k else 0)

/-- `bit_reverse_u64(d, bits)`: `src/astc.rs:51-61` -/
def bitReverseU64 (d bits : Nat) : Out Nat := do
  let r0 ← idx bitReverseTable (d &&& 0xff)
  let r1 ← idx bitReverseTable (d >>> 8 &&& 0xff)
  let r2 ← idx bitReverseTable (d >>> 16 &&& 0xff)
  let r3 ← idx bitReverseTable (d >>> 24 &&& 0xff)
  let r4 ← idx bitReverseTable (d >>> 32 &&& 0xff)
  let r5 ← idx bitReverseTable (d >>> 40 &&& 0xff)
  let r6 ← idx bitReverseTable (d >>> 48 &&& 0xff)
  let r7 ← idx bitReverseTable (d >>> 56 &&& 0xff)
  let ret := r0 <<< 56 ||| r1 <<< 48 ||| r2 <<< 40 ||| r3 <<< 32 ||| r4 <<< 24 ||| r5 <<< 16 |||
    r6 <<< 8 ||| r7
  let k ← subU 64 64 bits
  shrU 64 ret k

/-- `u8ptr_to_u16(ptr)`: `src/astc.rs:64-66` -/
def u8ptrToU16 (ptr : List UInt8) : Out Nat := do
  let a ← byte ptr 0
  let b ← byte ptr 1
  pure (fromLE [a, b])

/-! ## Interpolation of one channel -/

/-- `select_color(v0, v1, weight)`: `src/astc.rs:221-224` -/
def selectColor (v0 v1 weight : Int) : Out Nat := do
  let k ← subI 32 64 weight
  let x ← mulI 32 (orI 32 (shl32 v0 8) v0) k
  let y ← mulI 32 (orI 32 (shl32 v1 8) v1) weight
  let s ← addI 32 x y
  let s ← addI 32 s 32
  let t ← mulI 32 (shr32 s 6) 255
  let t ← addI 32 t 32768
  pure (asUI 8 (t.tdiv 65536))

/-- `select_color_hdr(v0, v1, weight)`: `src/astc.rs:227-243` -/
def selectColorHdr (v0 v1 weight : Int) : Out Nat := do
  let k ← subI 32 64 weight
  let x ← mulI 32 (shl32 v0 4) k
  let y ← mulI 32 (shl32 v1 4) weight
  let s ← addI 32 x y
  let s ← addI 32 s 32
  let c := asUI 16 (shr32 s 6)
  let m := c &&& 0x7ff
  let m ← (if m < 512 then mulU 16 m 3
    else if m < 1536 then do
      let t ← mulU 16 4 m
      subU 16 t 512
    else do
      let t ← mulU 16 5 m
      subU 16 t 2048)
  let bits ← fp16ToFp32 ((c >>> 1 &&& 0x7c00) ||| m >>> 3)
  let f := Fl.ofBits bits
  if f.isFinite then do
    let g ← astcFloor (Fl.mul f Fl.c255)
    pure (asUI 8 (clampI 0 255 g.asI32))
  else pure 255

/-- `f32_to_u8(f)`: `src/astc.rs:246-248` -/
def astcF32ToU8 (f : Fl) : Out Nat := do
  let g ← astcFloor (Fl.mul f Fl.c255)
  pure (g.clamp Fl.zero Fl.c255).asU8

/-- `f16ptr_to_u8(ptr)`: `src/astc.rs:251-255` -/
def f16ptrToU8 (ptr : List UInt8) : Out Nat := do
  let h ← u8ptrToU16 ptr
  let bits ← fp16ToFp32 h
  astcF32ToU8 (Fl.ofBits bits)

/-! ## Bounded integer sequences -/

/-- `IntSeqData`: `src/astc.rs:297-301` -/
structure IntSeqData where
  bits : Nat
  nonbits : Nat
deriving DecidableEq, Repr

/-- `MT`: `src/astc.rs:313` -/
def mtTable : List Nat := [0, 2, 4, 5, 7]
/-- `MQ`: `src/astc.rs:314` -/
def mqTable : List Nat := [0, 3, 5]

/-- The bits of one block of a sequence: `getbits64` forwards, or its bit reversal backwards:
`src/astc.rs:417-418` and `:442`, `:475-476` and `:496`. -/
def intseqWord (buf : List UInt8) (p : Int) (nowSize : Nat) (reverse : Bool) : Out Nat :=
  if reverse then do
    let q ← subI 64 p nowSize
    let d ← getbits64 buf q nowSize
    bitReverseU64 d nowSize
  else getbits64 buf p nowSize

/-- The packed trits `x` of a block: `src/astc.rs:419-423`, `:443-447`. -/
def tritsIndex (d b : Nat) : Out Nat := do
  let x0 ← shrU 64 d b
  let x1 ← shrU 64 d (b * 2)
  let x2 ← shrU 64 d (b * 3)
  let x3 ← shrU 64 d (b * 4)
  let x4 ← shrU 64 d (b * 5)
  pure ((x0 &&& 3) ||| (x1 &&& 0xc) ||| (x2 &&& 0x10) ||| (x3 &&& 0x60) ||| (x4 &&& 0x80))

/-- The packed quints `x` of a block: `src/astc.rs:477`, `:497`. -/
def quintsIndex (d b : Nat) : Out Nat := do
  let x0 ← shrU 64 d b
  let x1 ← shrU 64 d (b * 2)
  let x2 ← shrU 64 d (b * 3)
  pure ((x0 &&& 7) ||| (x1 &&& 0x18) ||| (x2 &&& 0x60))

/-- The inner loop of `decode_intseq`: `src/astc.rs:424-432` (and the three copies of it). Unpacks one
block `d` with packed index `x`; the state is (`n`, `out`). -/
def intseqUnpack (per : Nat) (shifts : List Nat) (table : List (List Nat)) (mask d x b count n : Nat)
    (out : List IntSeqData) : Out (Nat × List IntSeqData) :=
  forRange per (fun j (s : Nat × List IntSeqData) => do
    let (n, out) := s
    if n < count then do
      let m ← idx shifts j
      let v ← shrU 64 d (m + b * j)
      let row ← idx table j
      let nb ← idx row x
      let out ← setIdx out n ⟨v &&& mask, nb⟩
      pure (n + 1, out)
    else pure (n, out)) (n, out)

/-- The trit and quint arms of `decode_intseq`: `src/astc.rs:403-460` (`per = 5`, `extra = 8`) and
`:461-511` (`per = 3`, `extra = 7`). The forward and the backward copy of the loop differ only in how
the word is read and in the direction of `p`. The state is (`n`, `p`, `out`). -/
def intseqPacked (per extra : Nat) (shifts : List Nat) (table : List (List Nat))
    (index : Nat → Nat → Out Nat) (buf : List UInt8) (offset b count : Nat) (reverse : Bool)
    (out : List IntSeqData) : Out (List IntSeqData) := do
  let one ← shlU 64 1 b
  let mask ← subU 64 one 1
  let blockCount ← divCeil count per
  let last := (count + (per - 1)) % per + 1
  let blockSize := extra + per * b
  let lastBlockSize ← divCeil (blockSize * last) per
  let (_, _, out) ← forRange blockCount (fun i (s : Nat × Int × List IntSeqData) => do
    let (n, p, out) := s
    let nowSize := if i < blockCount - 1 then blockSize else lastBlockSize
    let d ← intseqWord buf p nowSize reverse
    let x ← index d b
    let (n, out) ← intseqUnpack per shifts table mask d x b count n out
    let p ← (if reverse then subI 64 p blockSize else addI 64 p blockSize)
    pure (n, p, out)) (0, (offset : Int), out)
  pure out

/-- The plain-bits arm of `decode_intseq`: `src/astc.rs:511-532`. The state is (`p`, `out`); `n` is the
loop counter. -/
def intseqPlain (buf : List UInt8) (offset b count : Nat) (reverse : Bool)
    (out : List IntSeqData) : Out (List IntSeqData) := do
  let p ← (if reverse then subI 64 offset b else pure (offset : Int))
  let (_, out) ← forRange count (fun n (s : Int × List IntSeqData) => do
    let (p, out) := s
    let g ← getbits buf (asUI 64 p) b
    let v ← (if reverse then bitReverseU8 (asUI 8 g) (asU 8 b) else pure (asUI 64 g))
    let out ← setIdx out n ⟨v, 0⟩
    let p ← (if reverse then subI 64 p b else addI 64 p b)
    pure (p, out)) (p, out)
  pure out

/-- `decode_intseq(buf, offset, a, b, count, reverse, out)`: `src/astc.rs:303-534` -/
def decodeIntseq (buf : List UInt8) (offset a b count : Nat) (reverse : Bool)
    (out : List IntSeqData) : Out (List IntSeqData) :=
  if count = 0 then pure out
  else if a = 3 then
    intseqPacked 5 8 mtTable tritsTable tritsIndex buf offset b count reverse out
  else if a = 5 then
    intseqPacked 3 7 mqTable quintsTable quintsIndex buf offset b count reverse out
  else intseqPlain buf offset b count reverse out

/-! ## Block parameters -/

/-- The fields of `BlockData` that `decode_block_params` computes: `src/astc.rs:257-273`. -/
structure AstcParams where
  width : Nat
  height : Nat
  partNum : Nat
  dualPlane : Bool
  planeSelector : Nat
  weightRange : Nat
  weightNum : Nat
  cem : List Nat
  cemRange : Nat
  endpointValueNum : Nat
deriving DecidableEq, Repr

/-- The block mode: `src/astc.rs:537-587`. Returns (`width`, `height`, `dual_plane`, `weight_range`).
The bytes are `u8` values, so `<<` on them drops the high bits. -/
def astcBlockMode (b0 b1 : Nat) : Nat × Nat × Bool × Nat :=
  let u := fromLE [b0, b1]
  let dual := (b1 &&& 4) != 0
  let r := (b0 >>> 4 &&& 1) ||| (b1 <<< 2 &&& 8)
  if b0 &&& 3 ≠ 0 then
    let r := r ||| (b0 <<< 1 &&& 6)
    if b0 &&& 0xc = 0 then ((u >>> 7 &&& 3) + 4, (b0 >>> 5 &&& 3) + 2, dual, r)
    else if b0 &&& 0xc = 4 then ((u >>> 7 &&& 3) + 8, (b0 >>> 5 &&& 3) + 2, dual, r)
    else if b0 &&& 0xc = 8 then ((b0 >>> 5 &&& 3) + 2, (u >>> 7 &&& 3) + 8, dual, r)
    else if b1 &&& 1 ≠ 0 then ((b0 >>> 7 &&& 1) + 2, (b0 >>> 5 &&& 3) + 2, dual, r)
    else ((b0 >>> 5 &&& 3) + 2, (b0 >>> 7 &&& 1) + 6, dual, r)
  else
    let r := r ||| (b0 >>> 1 &&& 6)
    if u &&& 0x180 = 0 then (12, (b0 >>> 5 &&& 3) + 2, dual, r)
    else if u &&& 0x180 = 0x80 then ((b0 >>> 5 &&& 3) + 2, 12, dual, r)
    else if u &&& 0x180 = 0x100 then
      ((b0 >>> 5 &&& 3) + 6, (b1 >>> 1 &&& 3) + 6, false, r &&& 7)
    else if b0 &&& 0x20 ≠ 0 then (10, 6, dual, r) else (6, 10, dual, r)

/-- `weight_bits`: `src/astc.rs:601-611`. The code computes it in `i32` and casts it to `usize`
(at most `2 · 12 · 12` weights of at most 6 bits each, so the `i32` operations are exact; stated as
checked `usize` operations here). -/
def astcWeightBits (weightNum range : Nat) : Out Nat := do
  let a ← idx weightPrecTableA range
  let b ← idx weightPrecTableB range
  let n ← mulU 31 weightNum b
  if a = 3 then do
    let t ← mulU 31 weightNum 8
    let t ← addU 31 t 4
    addU 31 n (t / 5)
  else if a = 5 then do
    let t ← mulU 31 weightNum 7
    let t ← addU 31 t 2
    addU 31 n (t / 3)
  else pure n

/-- One `cem[i] |= getbits(buf, pos, 2) & mask` step: `src/astc.rs:629-641`. -/
def astcCemOr (buf : List UInt8) (cem : List Nat) (i pos mask : Nat) : Out (List Nat) := do
  let g ← getbits buf pos 2
  let c ← idx cem i
  setIdx cem i (c ||| (asUI 64 g &&& mask))

/-- The colour endpoint modes when there are several partitions with different modes:
`src/astc.rs:623-648`. -/
def astcCemMulti (buf : List UInt8) (partNum cemBase weightBits : Nat) : Out (List Nat) := do
  let b3 ← byte buf 3
  let cem ← forRange partNum (fun i cem => do
    let s ← shrU 8 b3 (i + 1)
    let t ← addU 64 (s &&& 1) cemBase
    let t ← subU 64 t 1
    setIdx cem i (asU 64 (t <<< 2))) [0, 0, 0, 0]
  if partNum = 2 then do
    let c ← idx cem 0
    let cem ← setIdx cem 0 (c ||| (b3 >>> 3 &&& 3))
    let p ← subU 64 126 weightBits
    astcCemOr buf cem 1 p 3
  else if partNum = 3 then do
    let c ← idx cem 0
    let cem ← setIdx cem 0 (c ||| (b3 >>> 4 &&& 1))
    let p ← subU 64 122 weightBits
    let cem ← astcCemOr buf cem 0 p 2
    let p ← subU 64 124 weightBits
    let cem ← astcCemOr buf cem 1 p 3
    let p ← subU 64 126 weightBits
    astcCemOr buf cem 2 p 3
  else if partNum = 4 then
    forRange 4 (fun i cem => do
      let p ← subU 64 (120 + i * 2) weightBits
      astcCemOr buf cem i p 3) cem
  else pure cem

/-- The colour endpoint modes: `src/astc.rs:613-650`. Returns (`cem`, `cem_base`, `config_bits`). -/
def astcCems (buf : List UInt8) (partNum weightBits : Nat) : Out (List Nat × Nat × Nat) :=
  if partNum = 1 then do
    let rest ← sliceFrom buf 1
    let u ← u8ptrToU16 rest
    pure ([u >>> 5 &&& 0xf, 0, 0, 0], 0, 17)
  else do
    let rest ← sliceFrom buf 2
    let u ← u8ptrToU16 rest
    let cemBase := u >>> 7 &&& 3
    if cemBase = 0 then do
      let b3 ← byte buf 3
      let cem ← fillRange [0, 0, 0, 0] 0 partNum (b3 >>> 1 &&& 0xf)
      pure (cem, cemBase, 29)
    else do
      let cem ← astcCemMulti buf partNum cemBase weightBits
      pure (cem, cemBase, 25 + partNum * 3)

/-- The bits `n` values of colour range `i` take: `src/astc.rs:671-683`. -/
def astcEndpointBits (n i : Nat) : Out Nat := do
  let a ← idx cemTableA i
  let b ← idx cemTableB i
  if a = 3 then do
    let e ← divCeil (n * 8) 5
    pure (n * b + e)
  else if a = 5 then do
    let e ← divCeil (n * 7) 3
    pure (n * b + e)
  else pure (n * b)

/-- The search for the colour range: `src/astc.rs:669-688`. `fuel` entries starting at `i` are left;
when none fits, `cem_range` keeps its initial value 0. -/
def astcCemRange (n remain : Nat) (i : Nat) : Nat → Out Nat
  | 0 => pure 0
  | fuel + 1 => do
    let e ← astcEndpointBits n i
    if e ≤ remain then pure i else astcCemRange n remain (i + 1) fuel

/-- `decode_block_params(buf, block_data)`: `src/astc.rs:536-689` -/
def decodeBlockParams (buf : List UInt8) : Out AstcParams := do
  let b0 ← byte buf 0
  let b1 ← byte buf 1
  let (width, height, dual, range) := astcBlockMode b0 b1
  let partNum := (b1 >>> 3 &&& 3) + 1
  let weightNum := if dual then width * height * 2 else width * height
  let weightBits ← astcWeightBits weightNum range
  let (cem, cemBase, configBits) ← astcCems buf partNum weightBits
  let selector ← (if dual then do
      let pos ← (if cemBase ≠ 0 then do
          let t ← subU 64 130 weightBits
          subU 64 t (partNum * 3)
        else subU 64 126 weightBits)
      let g ← getbits buf pos 2
      pure (asUI 64 g)
    else pure 0)
  let t ← subU 64 128 (if dual then configBits + 2 else configBits)
  let remain ← subU 64 t weightBits
  let n ← forRange partNum (fun i n => do
    let c ← idx cem i
    pure (n + (c >>> 1 &&& 6) + 2)) 0
  let cemRange ← astcCemRange n remain 0 19
  pure { width, height, partNum, dualPlane := dual, planeSelector := selector,
         weightRange := range, weightNum, cem, cemRange, endpointValueNum := n }

/-! ## Colour endpoints -/

/-- `set_endpoint_clamp` and `set_endpoint_hdr_clamp`: `src/astc.rs:109-128`, `:197-216`. -/
def clampAll (hi : Int) (l : List Int) : List Int := l.map (clampI 0 hi)

/-- `set_endpoint_blue(r1, g1, b1, a1, r2, g2, b2, a2)`: `src/astc.rs:131-150` -/
def setEndpointBlue (r1 g1 b1 a1 r2 g2 b2 a2 : Int) : Out (List Int) := do
  let x ← addI 32 r1 b1
  let y ← addI 32 g1 b1
  let z ← addI 32 r2 b2
  let w ← addI 32 g2 b2
  pure [shr32 x 1, shr32 y 1, b1, a1, shr32 z 1, shr32 w 1, b2, a2]

/-- `bit_transfer_signed_alt(v, a, b)`: `src/astc.rs:78-84`, as a function of the two values; returns
the new (`v[a]`, `v[b]`). -/
def bitTransferSigned (a b : Int) : Out (Int × Int) := do
  let b := orI 32 (shr32 b 1) (andI 32 a 0x80)
  let a := andI 32 (shr32 a 1) 0x3f
  let a ← (if andI 32 a 0x20 ≠ 0 then subI 32 a 0x40 else pure a)
  pure (a, b)

/-- `modeval` and the choice of (`major_component`, `mode`): `src/astc.rs:692-701` -/
def hdr7Mode (v0 v1 v2 : Int) : Int × Int :=
  let modeval := orI 32 (orI 32 (andI 32 (shr32 v2 4) 0x8) (andI 32 (shr32 v1 5) 0x4)) (shr32 v0 6)
  if andI 32 modeval 0xc ≠ 0xc then (shr32 modeval 2, andI 32 modeval 3)
  else if modeval ≠ 0xf then (andI 32 modeval 3, 4)
  else (0, 5)

/-- `a |= b` -/
local infixl:60 " |.| " => orI 32
/-- `a & b` -/
local infixl:65 " &.& " => andI 32

/-- The four values `c` before they are combined: `src/astc.rs:702-775`. -/
def hdr7Values (mode v0 v1 v2 v3 : Int) : Int × Int × Int × Int :=
  let c0 := v0 &.& 0x3f
  let c1 := v1 &.& 0x1f
  let c2 := v2 &.& 0x1f
  let c3 := v3 &.& 0x1f
  if mode = 0 then
    let c3 := c3 |.| (v3 &.& 0x60)
    let c0 := c0 |.| (shr32 v3 1 &.& 0x40)
    let c0 := c0 |.| (shl32 v2 1 &.& 0x80)
    let c0 := c0 |.| (shl32 v1 3 &.& 0x300)
    let c0 := c0 |.| (shl32 v2 5 &.& 0x400)
    (shl32 c0 1, shl32 c1 1, shl32 c2 1, shl32 c3 1)
  else if mode = 1 then
    let c1 := c1 |.| (v1 &.& 0x20)
    let c2 := c2 |.| (v2 &.& 0x20)
    let c0 := c0 |.| (shr32 v3 1 &.& 0x40)
    let c0 := c0 |.| (shl32 v2 1 &.& 0x80)
    let c0 := c0 |.| (shl32 v1 2 &.& 0x100)
    let c0 := c0 |.| (shl32 v3 4 &.& 0x600)
    (shl32 c0 1, shl32 c1 1, shl32 c2 1, shl32 c3 1)
  else if mode = 2 then
    let c3 := c3 |.| (v3 &.& 0xe0)
    let c0 := c0 |.| (shl32 v2 1 &.& 0xc0)
    let c0 := c0 |.| (shl32 v1 3 &.& 0x300)
    (shl32 c0 2, shl32 c1 2, shl32 c2 2, shl32 c3 2)
  else if mode = 3 then
    let c1 := c1 |.| (v1 &.& 0x20)
    let c2 := c2 |.| (v2 &.& 0x20)
    let c3 := c3 |.| (v3 &.& 0x60)
    let c0 := c0 |.| (shr32 v3 1 &.& 0x40)
    let c0 := c0 |.| (shl32 v2 1 &.& 0x80)
    let c0 := c0 |.| (shl32 v1 2 &.& 0x100)
    (shl32 c0 3, shl32 c1 3, shl32 c2 3, shl32 c3 3)
  else if mode = 4 then
    let c1 := c1 |.| (v1 &.& 0x60)
    let c2 := c2 |.| (v2 &.& 0x60)
    let c3 := c3 |.| (v3 &.& 0x20)
    let c0 := c0 |.| (shr32 v3 1 &.& 0x40)
    let c0 := c0 |.| (shl32 v3 1 &.& 0x80)
    (shl32 c0 4, shl32 c1 4, shl32 c2 4, shl32 c3 4)
  else if mode = 5 then
    let c1 := c1 |.| (v1 &.& 0x60)
    let c2 := c2 |.| (v2 &.& 0x60)
    let c3 := c3 |.| (v3 &.& 0x60)
    let c0 := c0 |.| (shr32 v3 1 &.& 0x40)
    (shl32 c0 5, shl32 c1 5, shl32 c2 5, shl32 c3 5)
  else (c0, c1, c2, c3)

/-- `decode_endpoints_hdr7(endpoints, v)`: `src/astc.rs:691-817` -/
def decodeEndpointsHdr7 (v : List Int) : Out (List Int) := do
  let v0 ← idx v 0
  let v1 ← idx v 1
  let v2 ← idx v 2
  let v3 ← idx v 3
  let (major, mode) := hdr7Mode v0 v1 v2
  let (c0, c1, c2, c3) := hdr7Values mode v0 v1 v2 v3
  let c1 ← (if mode ≠ 5 then subI 32 c0 c1 else pure c1)
  let c2 ← (if mode ≠ 5 then subI 32 c0 c2 else pure c2)
  let d0 ← subI 32 c0 c3
  let d1 ← subI 32 c1 c3
  let d2 ← subI 32 c2 c3
  pure (clampAll 0xfff
    (if major = 1 then [d1, d0, d2, 0x780, c1, c0, c2, 0x780]
     else if major = 2 then [d2, d1, d0, 0x780, c2, c1, c0, 0x780]
     else [d0, d1, d2, 0x780, c0, c1, c2, 0x780]))

/-- The offset values `vd0`, `vd1` of `decode_endpoints_hdr11`: `src/astc.rs:840-874`. Only bits above
the field are set for a negative value, up to bit 15. -/
def hdr11Offset (mode v : Int) : Int :=
  if mode = 0 ∨ mode = 2 then
    let d := v &.& 0x7f
    if d &.& 0x40 ≠ 0 then d |.| 0xff80 else d
  else if mode = 1 ∨ mode = 3 ∨ mode = 5 ∨ mode = 7 then
    let d := v &.& 0x3f
    if d &.& 0x20 ≠ 0 then d |.| 0xffc0 else d
  else
    let d := v &.& 0x1f
    if d &.& 0x10 ≠ 0 then d |.| 0xffe0 else d

/-- The values `va`, `vb0`, `vb1`, `vc`: `src/astc.rs:836-839`, `:876-932`. -/
def hdr11Values (mode v0 v1 v2 v3 v4 v5 : Int) : Int × Int × Int × Int :=
  let va := v0 |.| (shl32 v1 2 &.& 0x100)
  let vb0 := v2 &.& 0x3f
  let vb1 := v3 &.& 0x3f
  let vc := v1 &.& 0x3f
  if mode = 0 then (va, vb0 |.| (v2 &.& 0x40), vb1 |.| (v3 &.& 0x40), vc)
  else if mode = 1 then
    (va, vb0 |.| (v2 &.& 0x40) |.| (shl32 v4 1 &.& 0x80),
     vb1 |.| (v3 &.& 0x40) |.| (shl32 v5 1 &.& 0x80), vc)
  else if mode = 2 then (va |.| (shl32 v2 3 &.& 0x200), vb0, vb1, vc |.| (v3 &.& 0x40))
  else if mode = 3 then
    (va |.| (shl32 v4 3 &.& 0x200), vb0 |.| (v2 &.& 0x40), vb1 |.| (v3 &.& 0x40),
     vc |.| (v5 &.& 0x40))
  else if mode = 4 then
    (va |.| (shl32 v4 4 &.& 0x200) |.| (shl32 v5 5 &.& 0x400),
     vb0 |.| (v2 &.& 0x40) |.| (shl32 v4 1 &.& 0x80),
     vb1 |.| (v3 &.& 0x40) |.| (shl32 v5 1 &.& 0x80), vc)
  else if mode = 5 then
    (va |.| (shl32 v2 3 &.& 0x200) |.| (shl32 v3 4 &.& 0x400), vb0, vb1,
     vc |.| (v5 &.& 0x40) |.| (shl32 v4 1 &.& 0x80))
  else if mode = 6 then
    (va |.| (shl32 v4 4 &.& 0x200) |.| (shl32 v5 5 &.& 0x400) |.| (shl32 v4 5 &.& 0x800),
     vb0 |.| (v2 &.& 0x40), vb1 |.| (v3 &.& 0x40), vc |.| (v5 &.& 0x40))
  else if mode = 7 then
    (va |.| (shl32 v2 3 &.& 0x200) |.| (shl32 v3 4 &.& 0x400) |.| (shl32 v4 5 &.& 0x800), vb0, vb1,
     vc |.| (v5 &.& 0x40))
  else (va, vb0, vb1, vc)

/-- The combination of the values into the two endpoints: `src/astc.rs:937-977`. -/
def hdr11Combine (major va vb0 vb1 vc vd0 vd1 alpha1 alpha2 : Int) : Out (List Int) := do
  let b0 ← subI 32 va vb0
  let b1 ← subI 32 va vb1
  let c ← subI 32 va vc
  let e0 ← subI 32 b0 vc
  let e0 ← subI 32 e0 vd0
  let e1 ← subI 32 b1 vc
  let e1 ← subI 32 e1 vd1
  pure (clampAll 0xfff
    (if major = 1 then [e0, c, e1, alpha1, b0, va, b1, alpha2]
     else if major = 2 then [e1, e0, c, alpha1, b1, b0, va, alpha2]
     else [c, e0, e1, alpha1, va, b0, b1, alpha2]))

/-- `decode_endpoints_hdr11` outside the case `major_component == 3`: `src/astc.rs:835-978` -/
def hdr11Modes (major mode v0 v1 v2 v3 v4 v5 alpha1 alpha2 : Int) : Out (List Int) := do
  let (va, vb0, vb1, vc) := hdr11Values mode v0 v1 v2 v3 v4 v5
  let shamt := xorI 32 (shr32 mode 1) 3
  let va ← shlS va shamt
  let vb0 ← shlS vb0 shamt
  let vb1 ← shlS vb1 shamt
  let vc ← shlS vc shamt
  let mult ← shlS 1 shamt
  let vd0 ← mulI 32 (hdr11Offset mode v4) mult
  let vd1 ← mulI 32 (hdr11Offset mode v5) mult
  hdr11Combine major va vb0 vb1 vc vd0 vd1 alpha1 alpha2

/-- `decode_endpoints_hdr11(endpoints, v, alpha1, alpha2)`: `src/astc.rs:819-978` -/
def decodeEndpointsHdr11 (v : List Int) (alpha1 alpha2 : Int) : Out (List Int) := do
  let v0 ← idx v 0
  let v1 ← idx v 1
  let v2 ← idx v 2
  let v3 ← idx v 3
  let v4 ← idx v 4
  let v5 ← idx v 5
  let major := shr32 v4 7 |.| (shr32 v5 6 &.& 2)
  if major = 3 then
    pure [shl32 v0 4, shl32 v2 4, shl32 v4 5 &.& 0xfe0, alpha1,
      shl32 v1 4, shl32 v3 4, shl32 v5 5 &.& 0xfe0, alpha2]
  else
    let mode := shr32 v1 7 |.| (shr32 v2 6 &.& 2) |.| (shr32 v3 5 &.& 4)
    hdr11Modes major mode v0 v1 v2 v3 v4 v5 alpha1 alpha2

/-- Unquantisation of one colour value with trits: `src/astc.rs:996-1025`. The table `cemTableB` holds
only 1..6 for these ranges, so the arm `_ => {}` is not reachable. -/
def unquantTrit (b : Nat) (s : IntSeqData) : Out Int := do
  let c ← idx [0, 204, 93, 44, 22, 11, 5] b
  let a ← mulU 64 (s.bits &&& 1) 0x1ff
  let x := s.bits >>> 1
  let bb ← (if b = 2 then mulU 64 0b100010110 x
    else if b = 3 then pure (asU 64 (x <<< 7) ||| asU 64 (x <<< 2) ||| x)
    else if b = 4 then pure (asU 64 (x <<< 6) ||| x)
    else if b = 5 then pure (asU 64 (x <<< 5) ||| x >>> 2)
    else if b = 6 then pure (asU 64 (x <<< 4) ||| x >>> 4)
    else pure 0)
  let t ← mulU 64 s.nonbits c
  let t ← addU 64 t bb
  pure (asI 32 ((a &&& 0x80) ||| (t ^^^ a) >>> 2))

/-- Unquantisation of one colour value with quints: `src/astc.rs:1026-1052`. -/
def unquantQuint (b : Nat) (s : IntSeqData) : Out Int := do
  let c ← idx [0, 113, 54, 26, 13, 6] b
  let a ← mulU 64 (s.bits &&& 1) 0x1ff
  let x := s.bits >>> 1
  let bb ← (if b = 2 then mulU 64 0b100001100 x
    else if b = 3 then pure (asU 64 (x <<< 7) ||| asU 64 (x <<< 1) ||| x >>> 1)
    else if b = 4 then pure (asU 64 (x <<< 6) ||| x >>> 1)
    else if b = 5 then pure (asU 64 (x <<< 5) ||| x >>> 3)
    else pure 0)
  let t ← mulU 64 s.nonbits c
  let t ← addU 64 t bb
  pure (asI 32 ((a &&& 0x80) ||| (t ^^^ a) >>> 2))

/-- Unquantisation of one plain-bits colour value: `src/astc.rs:1053-1095`. -/
def unquantBits (b : Nat) (s : IntSeqData) : Out Int :=
  let x := s.bits
  if b = 1 then asI 32 <$> mulU 64 x 0xff
  else if b = 2 then asI 32 <$> mulU 64 x 0x55
  else if b = 3 then pure (asI 32 (asU 64 (x <<< 5) ||| asU 64 (x <<< 2) ||| x >>> 1))
  else if b = 4 then pure (asI 32 (asU 64 (x <<< 4) ||| x))
  else if b = 5 then pure (asI 32 (asU 64 (x <<< 3) ||| x >>> 2))
  else if b = 6 then pure (asI 32 (asU 64 (x <<< 2) ||| x >>> 4))
  else if b = 7 then pure (asI 32 (asU 64 (x <<< 1) ||| x >>> 6))
  else pure (asI 32 x)

/-- Unquantisation of one colour value: the `match` of `src/astc.rs:995-1096`, moved inside the loop
over the values. -/
def unquantColour (a b : Nat) (s : IntSeqData) : Out Int :=
  if a = 3 then unquantTrit b s else if a = 5 then unquantQuint b s else unquantBits b s

/-- Mode 1: `src/astc.rs:1114-1118` -/
def endpointsLumaDelta (v0 v1 : Int) : Out (List Int) := do
  let l0 := shr32 v0 2 |.| (v1 &.& 0xc0)
  let s ← addI 32 l0 (v1 &.& 0x3f)
  let l1 := clampI 0 255 s
  pure [l0, l0, l0, 255, l1, l1, l1, 255]

/-- Mode 2: `src/astc.rs:1119-1140` -/
def endpointsHdrLuma (v0 v1 : Int) : Out (List Int) := do
  let y0 ← (if v0 ≤ v1 then pure (shl32 v0 4) else addI 32 (shl32 v1 4) 8)
  let y1 ← (if v0 ≤ v1 then pure (shl32 v1 4) else subI 32 (shl32 v0 4) 8)
  pure [y0, y0, y0, 0x780, y1, y1, y1, 0x780]

/-- Mode 3: `src/astc.rs:1141-1163` -/
def endpointsHdrLumaDelta (v0 v1 : Int) : Out (List Int) := do
  let y0 := if v0 &.& 0x80 ≠ 0 then shl32 (v1 &.& 0xe0) 4 |.| shl32 (v0 &.& 0x7f) 2
    else shl32 (v1 &.& 0xf0) 4 |.| shl32 (v0 &.& 0x7f) 1
  let d := if v0 &.& 0x80 ≠ 0 then shl32 (v1 &.& 0x1f) 2 else shl32 (v1 &.& 0x0f) 1
  let s ← addI 32 y0 d
  let y1 := clampI 0 0xfff s
  pure [y0, y0, y0, 0x780, y1, y1, y1, 0x780]

/-- Mode 5: `src/astc.rs:1177-1192` -/
def endpointsLumaAlphaDelta (v0 v1 v2 v3 : Int) : Out (List Int) := do
  let (v1, v0) ← bitTransferSigned v1 v0
  let (v3, v2) ← bitTransferSigned v3 v2
  let v1 ← addI 32 v1 v0
  let a ← addI 32 v2 v3
  pure (clampAll 255 [v0, v0, v0, v2, v1, v1, v1, a])

/-- Modes 6 and 10: `src/astc.rs:1193-1205`, `:1266-1278`. -/
def endpointsScale (v0 v1 v2 v3 a1 a2 : Int) : Out (List Int) := do
  let r ← mulI 32 v0 v3
  let g ← mulI 32 v1 v3
  let b ← mulI 32 v2 v3
  pure [shr32 r 8, shr32 g 8, shr32 b 8, a1, v0, v1, v2, a2]

/-- Modes 8 and 12: `src/astc.rs:1209-1235`, `:1282-1308`. -/
def endpointsDirect (v0 v1 v2 v3 v4 v5 a1 a2 : Int) : Out (List Int) := do
  let s ← addI 32 v0 v2
  let s ← addI 32 s v4
  let t ← addI 32 v1 v3
  let t ← addI 32 t v5
  if s ≤ t then pure [v0, v2, v4, a1, v1, v3, v5, a2]
  else setEndpointBlue v1 v3 v5 a2 v0 v2 v4 a1

/-- The second half of modes 9 and 13, after the bit transfers: `src/astc.rs:1240-1265`, `:1316-1340`.
`b*` are the base values, `o*` the offsets, `a1` and `a2` the alpha values. -/
def endpointsOffset (b0 b1 b2 o0 o1 o2 a1 a2 : Int) : Out (List Int) := do
  let s ← addI 32 o0 o1
  let s ← addI 32 s o2
  let r ← addI 32 b0 o0
  let g ← addI 32 b1 o1
  let b ← addI 32 b2 o2
  if s ≥ 0 then pure (clampAll 255 [b0, b1, b2, a1, r, g, b, a2])
  else clampAll 255 <$> setEndpointBlue r g b a2 b0 b1 b2 a1

/-- Mode 9: `src/astc.rs:1236-1265` -/
def endpointsRgbDelta (v0 v1 v2 v3 v4 v5 : Int) : Out (List Int) := do
  let (o0, b0) ← bitTransferSigned v1 v0
  let (o1, b1) ← bitTransferSigned v3 v2
  let (o2, b2) ← bitTransferSigned v5 v4
  endpointsOffset b0 b1 b2 o0 o1 o2 255 255

/-- Mode 13: `src/astc.rs:1309-1340` -/
def endpointsRgbaDelta (v0 v1 v2 v3 v4 v5 v6 v7 : Int) : Out (List Int) := do
  let (o0, b0) ← bitTransferSigned v1 v0
  let (o1, b1) ← bitTransferSigned v3 v2
  let (o2, b2) ← bitTransferSigned v5 v4
  let (o3, b3) ← bitTransferSigned v7 v6
  let a ← addI 32 b3 o3
  endpointsOffset b0 b1 b2 o0 o1 o2 b3 a

/-- The alpha values of mode 15: `src/astc.rs:1344-1362`. -/
def hdrAlpha (v6 v7 : Int) : Out (Int × Int) := do
  let mode := (shr32 v6 7 &.& 1) |.| (shr32 v7 6 &.& 2)
  let v6 := v6 &.& 0x7f
  let v7 := v7 &.& 0x7f
  if mode = 3 then pure (shl32 v6 5, shl32 v7 5)
  else do
    let m1 ← addI 32 mode 1
    let t ← shlS v7 m1
    let v6 := v6 |.| (t &.& 0x780)
    let x ← shrS 0x3f mode
    let y ← shrS 0x20 mode
    let v7 ← subI 32 (xorI 32 (v7 &.& x) y) y
    let k ← subI 32 4 mode
    let v6 ← shlS v6 k
    let v7 ← shlS v7 k
    let s ← addI 32 v6 v7
    pure (v6, clampI 0 0xfff s)

/-- One arm of the `match data.cem[cem]` of `decode_endpoints`: `src/astc.rs:1100-1366`. The values that
the arms overwrite in place belong to this endpoint pair and are not read again. -/
def decodeEndpoint (cem : Nat) (v : List Int) : Out (List Int) := do
  let v0 ← idx v 0
  let v1 ← idx v 1
  if cem = 0 then pure [v0, v0, v0, 255, v1, v1, v1, 255]
  else if cem = 1 then endpointsLumaDelta v0 v1
  else if cem = 2 then endpointsHdrLuma v0 v1
  else if cem = 3 then endpointsHdrLumaDelta v0 v1
  else do
    let v2 ← idx v 2
    let v3 ← idx v 3
    if cem = 4 then pure [v0, v0, v0, v2, v1, v1, v1, v3]
    else if cem = 5 then endpointsLumaAlphaDelta v0 v1 v2 v3
    else if cem = 6 then endpointsScale v0 v1 v2 v3 255 255
    else if cem = 7 then decodeEndpointsHdr7 v
    else do
      let v4 ← idx v 4
      let v5 ← idx v 5
      if cem = 8 then endpointsDirect v0 v1 v2 v3 v4 v5 255 255
      else if cem = 9 then endpointsRgbDelta v0 v1 v2 v3 v4 v5
      else if cem = 10 then endpointsScale v0 v1 v2 v3 v4 v5
      else if cem = 11 then decodeEndpointsHdr11 v 0x780 0x780
      else do
        let v6 ← idx v 6
        let v7 ← idx v 7
        if cem = 12 then endpointsDirect v0 v1 v2 v3 v4 v5 v6 v7
        else if cem = 13 then endpointsRgbaDelta v0 v1 v2 v3 v4 v5 v6 v7
        else if cem = 14 then decodeEndpointsHdr11 v v6 v7
        else if cem = 15 then do
          let (a1, a2) ← hdrAlpha v6 v7
          decodeEndpointsHdr11 v a1 a2
        else .panic

/-- The colour values `ev`: `src/astc.rs:983-1096`. -/
def colourValues (buf : List UInt8) (p : AstcParams) : Out (List Int) := do
  let a ← idx cemTableA p.cemRange
  let b ← idx cemTableB p.cemRange
  let seq ← decodeIntseq buf (if p.partNum = 1 then 17 else 29) a b p.endpointValueNum false
    (List.replicate 32 ⟨0, 0⟩)
  forRange p.endpointValueNum (fun i ev => do
    let s ← idx seq i
    let x ← unquantColour a b s
    setIdx ev i x) (List.replicate 32 0)

/-- `decode_endpoints(buf, data)`: `src/astc.rs:980-1369`. Returns `data.endpoints`; the loop state is
(`v`, `endpoints`). -/
def decodeEndpoints (buf : List UInt8) (p : AstcParams) : Out (List (List Int)) := do
  let ev ← colourValues buf p
  let (_, endpoints) ← forRange p.partNum (fun i (s : List Int × List (List Int)) => do
    let (v, endpoints) := s
    let cem ← idx p.cem i
    let e ← decodeEndpoint cem v
    let endpoints ← setIdx endpoints i e
    let v ← sliceFrom v ((cem / 4 + 1) * 2)
    pure (v, endpoints)) (ev, List.replicate 4 (List.replicate 8 0))
  pure endpoints

/-! ## Weights -/

/-- `if wv[i] > 32 { wv[i] += 1 }`: `src/astc.rs:1410-1412`, `:1467-1469` -/
def weightBump (w : Int) : Out Int := if w > 32 then addI 32 w 1 else pure w

/-- The last pass over trit and quint weights: `src/astc.rs:1464-1470`. -/
def weightFinish (w : Int) (s : IntSeqData) : Out Int := do
  let a ← mulU 64 (s.bits &&& 1) 0x7f
  weightBump (asI 32 ((a &&& 0x20) ||| (asUI 64 w ^^^ a) >>> 2))

/-- Unquantisation of one weight: `src/astc.rs:1384-1471`. The passes over the array are fused: each
touches only entry `i`. -/
def unquantWeight (a b : Nat) (s : IntSeqData) : Out Int :=
  let x := s.bits
  if a = 0 then
    if b = 1 then weightBump (if x ≠ 0 then 63 else 0)
    else if b = 2 then weightBump (asI 32 (asU 64 (x <<< 4) ||| asU 64 (x <<< 2) ||| x))
    else if b = 3 then weightBump (asI 32 (asU 64 (x <<< 3) ||| x))
    else if b = 4 then weightBump (asI 32 (asU 64 (x <<< 2) ||| x >>> 2))
    else if b = 5 then weightBump (asI 32 (asU 64 (x <<< 1) ||| x >>> 4))
    else .panic
  else if b = 0 then asI 32 <$> mulU 64 s.nonbits (if a = 3 then 32 else 16)
  else if a = 3 then
    if b = 1 then do
      let t ← mulU 64 s.nonbits 50
      weightFinish (asI 32 t) s
    else if b = 2 then do
      let t ← mulU 64 s.nonbits 23
      let w ← (if x &&& 2 ≠ 0 then addI 32 (asI 32 t) 0b1000101 else pure (asI 32 t))
      weightFinish w s
    else if b = 3 then do
      let t ← mulU 64 s.nonbits 11
      let t ← addU 64 t ((asU 64 (x <<< 4) ||| x >>> 1) &&& 0b1100011)
      weightFinish (asI 32 t) s
    else .panic
  else if a = 5 then
    if b = 1 then do
      let t ← mulU 64 s.nonbits 28
      weightFinish (asI 32 t) s
    else if b = 2 then do
      let t ← mulU 64 s.nonbits 13
      let w ← (if x &&& 2 ≠ 0 then addI 32 (asI 32 t) 0b1000010 else pure (asI 32 t))
      weightFinish w s
    else .panic
  else weightFinish 0 s

/-- The unquantised weight grid `wv`: `src/astc.rs:1372-1471`. A `match` that panics for the whole array
panics here with the first weight (`weight_num` is never 0). -/
def weightValues (buf : List UInt8) (p : AstcParams) : Out (List Int) := do
  let a ← idx weightPrecTableA p.weightRange
  let b ← idx weightPrecTableB p.weightRange
  let seq ← decodeIntseq buf 128 a b p.weightNum true (List.replicate 128 ⟨0, 0⟩)
  forRange p.weightNum (fun i wv => do
    let s ← idx seq i
    let x ← unquantWeight a b s
    setIdx wv i x) (List.replicate 128 0)

/-- One interpolated weight: `src/astc.rs:1491-1495`. -/
def infillWeight (wv : List Int) (pn width v p : Nat) (w00 w01 w10 w11 : Int) : Out Int := do
  let p00 ← idx wv (v * pn + p)
  let p01 ← idx wv ((v + 1) * pn + p)
  let p10 ← idx wv ((v + width) * pn + p)
  let p11 ← idx wv ((v + width + 1) * pn + p)
  let a ← mulI 32 p00 w00
  let b ← mulI 32 p01 w01
  let c ← mulI 32 p10 w10
  let d ← mulI 32 p11 w11
  let s ← addI 32 a b
  let s ← addI 32 s c
  let s ← addI 32 s d
  let s ← addI 32 s 8
  pure (shr32 s 4)

/-- The body of the loop over texels: `src/astc.rs:1480-1498`; the state is (`i`, `weights`). -/
def infillTexel (wv : List Int) (q : AstcParams) (ds dt t s : Nat)
    (st : Nat × List (List Int)) : Out (Nat × List (List Int)) := do
  let (i, weights) := st
  let pn := if q.dualPlane then 2 else 1
  let w1 ← subU 64 q.width 1
  let h1 ← subU 64 q.height 1
  let x ← mulU 64 ds s
  let x ← mulU 64 x w1
  let x ← addU 64 x 32
  let gs := x >>> 6
  let y ← mulU 64 dt t
  let y ← mulU 64 y h1
  let y ← addU 64 y 32
  let gt := y >>> 6
  let fs := gs &&& 0xf
  let ft := gt &&& 0xf
  let v ← mulU 64 (gt >>> 4) q.width
  let v ← addU 64 (gs >>> 4) v
  let w11 := asI 32 ((fs * ft + 8) >>> 4)
  let w10 ← subI 32 ft w11
  let w01 ← subI 32 fs w11
  let a ← subI 32 16 fs
  let a ← subI 32 a ft
  let w00 ← addI 32 a w11
  let weights ← forRange pn (fun p weights => do
    let r ← infillWeight wv pn q.width v p w00 w01 w10 w11
    let row ← idx weights i
    let row ← setIdx row p r
    setIdx weights i row) weights
  pure (i + 1, weights)

/-- `decode_weights(buf, data)`: `src/astc.rs:1371-1501`. Returns `data.weights`. -/
def decodeWeights (buf : List UInt8) (bw bh : Nat) (q : AstcParams) : Out (List (List Int)) := do
  let wv ← weightValues buf q
  let n ← addU 64 1024 (bw / 2)
  let d ← subU 64 bw 1
  let ds ← divU n d
  let n ← addU 64 1024 (bh / 2)
  let d ← subU 64 bh 1
  let dt ← divU n d
  let (_, weights) ← forRange bh (fun t st => forRange bw (fun s st =>
    infillTexel wv q ds dt t s st) st) (0, List.replicate 144 [0, 0])
  pure weights

/-! ## Partitions -/

/-- The scrambling of the seed: `src/astc.rs:1509-1519`. -/
def partitionHash (seed : Nat) : Nat :=
  let r := seed
  let r := r ^^^ (r >>> 15)
  let r := asU 32 (r + 2 ^ 32 - asU 32 (r <<< 17))
  let r := asU 32 (r + asU 32 (r <<< 7))
  let r := asU 32 (r + asU 32 (r <<< 4))
  let r := r ^^^ (r >>> 5)
  let r := asU 32 (r + asU 32 (r <<< 16))
  let r := r ^^^ (r >>> 7)
  let r := r ^^^ (r >>> 3)
  let r := r ^^^ asU 32 (r <<< 6)
  r ^^^ (r >>> 17)

/-- One of the four sums: `src/astc.rs:1543-1554`. -/
def partitionSum (seeds : List Int) (k rnum sh x y : Nat) : Out Int := do
  let s0 ← idx seeds k
  let s1 ← idx seeds (k + 1)
  let a ← mulI 32 s0 (asI 32 x)
  let b ← mulI 32 s1 (asI 32 y)
  let c ← addI 32 a b
  let c ← addI 32 c (asI 32 (rnum >>> sh))
  pure (andI 32 c 0x3f)

/-- The partition of the texel with coordinates `x`, `y`: `src/astc.rs:1543-1565`, `:1572-1594`. -/
def partitionOf (seeds : List Int) (rnum partNum x y : Nat) : Out Nat := do
  let a ← partitionSum seeds 0 rnum 14 x y
  let b ← partitionSum seeds 2 rnum 10 x y
  let c ← (if partNum < 3 then pure 0 else partitionSum seeds 4 rnum 6 x y)
  let d ← (if partNum < 4 then pure 0 else partitionSum seeds 6 rnum 2 x y)
  pure (if a ≥ b ∧ a ≥ c ∧ a ≥ d then 0 else if b ≥ c ∧ b ≥ d then 1 else if c ≥ d then 2 else 3)

/-- `select_partition(buf, data)`: `src/astc.rs:1503-1599`. Returns `data.partition`. The copies of the
loop for small and for large blocks differ only in the doubling of the coordinates. -/
def selectPartition (buf : List UInt8) (bw bh partNum : Nat) : Out (List Nat) := do
  let bs ← slice buf 0 4
  let seed := andI 32 (shr32 (asI 32 (fromLE (bytesOf bs))) 13) 0x3ff
  let pm ← subI 32 (asI 32 partNum) 1
  let seed := orI 32 seed (shl32 pm 10)
  let rnum := partitionHash (asUI 32 seed)
  let seeds ← forRange 8 (fun i (seeds : List Int) => do
    let r ← shrU 32 rnum (i * 4)
    let v := r &&& 0xf
    let vv ← mulU 32 v v
    setIdx seeds i (asI 32 vv)) (List.replicate 8 0)
  let sh0 := if andI 32 seed 2 ≠ 0 then 4 else 5
  let sh1 := if partNum = 3 then 6 else 5
  let seeds ← forRange 8 (fun i (seeds : List Int) => do
    let k ← idx [sh0, sh1] (if andI 32 seed 1 ≠ 0 then i % 2 else 1 - i % 2)
    let x ← idx seeds i
    setIdx seeds i (shr32 x k)) seeds
  let size ← mulU 64 bw bh
  let (_, partition) ← forRange bh (fun t st =>
    forRange bw (fun s (st : Nat × List Nat) => do
      let (i, partition) := st
      let x := if size < 31 then asU 64 (s <<< 1) else s
      let y := if size < 31 then asU 64 (t <<< 1) else t
      let r ← partitionOf seeds rnum partNum x y
      let partition ← setIdx partition i r
      pure (i + 1, partition)) st) (0, List.replicate 144 0)
  pure partition

/-! ## Blocks and images -/

/-- `FUNC_TABLE_C`: `src/astc.rs:1602-1619`; `true` stands for `select_color_hdr`. -/
def funcTableC : List Bool :=
  [false, false, true, true, false, false, false, true,
   false, false, false, true, false, false, true, true]
/-- `FUNC_TABLE_A`: `src/astc.rs:1620-1637` -/
def funcTableA : List Bool :=
  [false, false, true, true, false, false, false, true,
   false, false, false, true, false, false, false, true]

/-- A call through one of the two function tables, as in `src/astc.rs:1644`. -/
def selectFor (hdr : Bool) (v0 v1 weight : Int) : Out Nat :=
  if hdr then selectColorHdr v0 v1 weight else selectColor v0 v1 weight

/-- One channel of one texel: `src/astc.rs:1645-1664`. -/
def texelChannel (table : List Bool) (cem : Nat) (e row : List Int) (plane ch : Nat) : Out Nat := do
  let hdr ← idx table cem
  let v0 ← idx e ch
  let v1 ← idx e (ch + 4)
  let w ← idx row plane
  selectFor hdr v0 v1 w

/-- `applicate_color(data, outbuf)`: `src/astc.rs:1601-1741`. The four copies of the loop differ only in
whether the partition is read (`part_num > 1`) and whether the plane is read from `ps`
(`dual_plane`). -/
def astcApplicateColor (q : AstcParams) (bw bh : Nat) (endpoints weights : List (List Int))
    (partition : List Nat) (outbuf : List UInt32) : Out (List UInt32) := do
  let ps ← (if q.dualPlane then setIdx [0, 0, 0, 0] q.planeSelector 1 else pure [0, 0, 0, 0])
  let size ← mulU 64 bw bh
  forRange size (fun i out => do
    let p ← (if q.partNum > 1 then idx partition i else pure 0)
    let cem ← idx q.cem p
    let e ← idx endpoints p
    let row ← idx weights i
    let p0 ← idx ps 0
    let p1 ← idx ps 1
    let p2 ← idx ps 2
    let p3 ← idx ps 3
    let r ← texelChannel funcTableC cem e row p0 0
    let g ← texelChannel funcTableC cem e row p1 1
    let b ← texelChannel funcTableC cem e row p2 2
    let a ← texelChannel funcTableA cem e row p3 3
    setIdx out i (color r g b a)) outbuf

/-- The colour of a void-extent block: `src/astc.rs:1746-1755` -/
def voidColour (buf : List UInt8) : Out UInt32 := do
  let b1 ← byte buf 1
  if b1 &&& 2 ≠ 0 then do
    let r ← sliceFrom buf 8
    let r ← f16ptrToU8 r
    let g ← sliceFrom buf 10
    let g ← f16ptrToU8 g
    let b ← sliceFrom buf 12
    let b ← f16ptrToU8 b
    let a ← sliceFrom buf 14
    let a ← f16ptrToU8 a
    pure (color r g b a)
  else do
    let r ← byte buf 9
    let g ← byte buf 11
    let b ← byte buf 13
    let a ← byte buf 15
    pure (color r g b a)

/-- The last arm of `decode_astc_block`: `src/astc.rs:1760-1770`. -/
def decodeAstcTexels (buf : List UInt8) (bw bh : Nat) (outbuf : List UInt32) :
    Out (List UInt32) := do
  let q ← decodeBlockParams buf
  let endpoints ← decodeEndpoints buf q
  let weights ← decodeWeights buf bw bh q
  let partition ← (if q.partNum > 1 then selectPartition buf bw bh q.partNum
    else pure (List.replicate 144 0))
  astcApplicateColor q bw bh endpoints weights partition outbuf

/-- `decode_astc_block(buf, block_width, block_height, outbuf)`: `src/astc.rs:1744-1772` -/
def decodeAstcBlock (buf : List UInt8) (bw bh : Nat) (outbuf : List UInt32) :
    Out (List UInt32) := do
  let b0 ← byte buf 0
  let b1 ← byte buf 1
  if b0 = 0xfc ∧ b1 &&& 1 = 1 then do
    let c ← voidColour buf
    let size ← mulU 64 bw bh
    fillRange outbuf 0 size c
  else if (b0 &&& 0xc3 = 0xc0 ∧ b1 &&& 1 = 1) ∨ b0 &&& 0xf = 0 then do
    let size ← mulU 64 bw bh
    fillRange outbuf 0 size (color 255 0 255 255)
  else decodeAstcTexels buf bw bh outbuf

/-- `decode_astc(data, width, height, block_width, block_height, image)`: `src/astc.rs:1774-1818`.
The loop state is (`buffer`, `data_offset`, `image`). -/
def decodeAstc (data : List UInt8) (width height bw bh : Nat) (image : List UInt32) :
    Out (Except String Unit × List UInt32) := do
  let nbx ← divCeil width bw
  let nby ← divCeil height bh
  let buffer : List UInt32 := List.replicate 144 0
  let blocks ← mulU 64 nbx nby
  let need ← mulU 64 blocks 16
  if data.length < need then
    pure (.error "Not enough data to decode image!", image)
  else do
    let pixels ← mulU 64 width height
    if image.length < pixels then
      pure (.error "Image buffer is too small!", image)
    else do
      let size ← mulU 64 bw bh
      if size > 144 then pure (.error "Block size is too big!", image)
      else do
        let (_, _, image) ← forRange nby (fun by' s =>
          forRange nbx (fun bx (s : List UInt32 × Nat × List UInt32) => do
            let (buffer, dataOffset, image) := s
            let block ← sliceFrom data dataOffset
            let buffer ← decodeAstcBlock block bw bh buffer
            let image ← copyBlockBuffer bx by' width height bw bh buffer image
            let dataOffset ← addU 64 dataOffset 16
            pure (buffer, dataOffset, image)) s) (buffer, 0, image)
        pure (.ok (), image)

/-! ## The sized functions -/

/-- `decode_astc_4_4(data, width, height, image)`: `src/astc.rs:1821-1834`, `:1836` -/
def decodeAstc4x4 (data : List UInt8) (width height : Nat) (image : List UInt32) :
    Out (Except String Unit × List UInt32) := decodeAstc data width height 4 4 image

/-- `decode_astc_5_4(data, width, height, image)`: `src/astc.rs:1821-1834`, `:1837` -/
def decodeAstc5x4 (data : List UInt8) (width height : Nat) (image : List UInt32) :
    Out (Except String Unit × List UInt32) := decodeAstc data width height 5 4 image

/-- `decode_astc_5_5(data, width, height, image)`: `src/astc.rs:1821-1834`, `:1838` -/
def decodeAstc5x5 (data : List UInt8) (width height : Nat) (image : List UInt32) :
    Out (Except String Unit × List UInt32) := decodeAstc data width height 5 5 image

/-- `decode_astc_6_5(data, width, height, image)`: `src/astc.rs:1821-1834`, `:1839` -/
def decodeAstc6x5 (data : List UInt8) (width height : Nat) (image : List UInt32) :
    Out (Except String Unit × List UInt32) := decodeAstc data width height 6 5 image

/-- `decode_astc_6_6(data, width, height, image)`: `src/astc.rs:1821-1834`, `:1840` -/
def decodeAstc6x6 (data : List UInt8) (width height : Nat) (image : List UInt32) :
    Out (Except String Unit × List UInt32) := decodeAstc data width height 6 6 image

/-- `decode_astc_8_5(data, width, height, image)`: `src/astc.rs:1821-1834`, `:1841` -/
def decodeAstc8x5 (data : List UInt8) (width height : Nat) (image : List UInt32) :
    Out (Except String Unit × List UInt32) := decodeAstc data width height 8 5 image

/-- `decode_astc_8_6(data, width, height, image)`: `src/astc.rs:1821-1834`, `:1842` -/
def decodeAstc8x6 (data : List UInt8) (width height : Nat) (image : List UInt32) :
    Out (Except String Unit × List UInt32) := decodeAstc data width height 8 6 image

/-- `decode_astc_8_8(data, width, height, image)`: `src/astc.rs:1821-1834`, `:1843` -/
def decodeAstc8x8 (data : List UInt8) (width height : Nat) (image : List UInt32) :
    Out (Except String Unit × List UInt32) := decodeAstc data width height 8 8 image

/-- `decode_astc_10_5(data, width, height, image)`: `src/astc.rs:1821-1834`, `:1844` -/
def decodeAstc10x5 (data : List UInt8) (width height : Nat) (image : List UInt32) :
    Out (Except String Unit × List UInt32) := decodeAstc data width height 10 5 image

/-- `decode_astc_10_6(data, width, height, image)`: `src/astc.rs:1821-1834`, `:1845` -/
def decodeAstc10x6 (data : List UInt8) (width height : Nat) (image : List UInt32) :
    Out (Except String Unit × List UInt32) := decodeAstc data width height 10 6 image

/-- `decode_astc_10_8(data, width, height, image)`: `src/astc.rs:1821-1834`, `:1846` -/
def decodeAstc10x8 (data : List UInt8) (width height : Nat) (image : List UInt32) :
    Out (Except String Unit × List UInt32) := decodeAstc data width height 10 8 image

/-- `decode_astc_10_10(data, width, height, image)`: `src/astc.rs:1821-1834`, `:1847` -/
def decodeAstc10x10 (data : List UInt8) (width height : Nat) (image : List UInt32) :
    Out (Except String Unit × List UInt32) := decodeAstc data width height 10 10 image

/-- `decode_astc_12_10(data, width, height, image)`: `src/astc.rs:1821-1834`, `:1848` -/
def decodeAstc12x10 (data : List UInt8) (width height : Nat) (image : List UInt32) :
    Out (Except String Unit × List UInt32) := decodeAstc data width height 12 10 image

/-- `decode_astc_12_12(data, width, height, image)`: `src/astc.rs:1821-1834`, `:1849` -/
def decodeAstc12x12 (data : List UInt8) (width height : Nat) (image : List UInt32) :
    Out (Except String Unit × List UInt32) := decodeAstc data width height 12 12 image

end Verif.Model
