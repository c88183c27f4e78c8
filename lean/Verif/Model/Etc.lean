import Verif.Model.Image

/-!
# Model of ETC1, ETC2 and EAC (`src/etc.rs`, `src/etc/*.rs`)

Every decoder here reads all eight bytes of a colour block on every path before it writes to
`outbuf`; the model reads them first (`bytes8`). Reading a missing byte panics either way.
-/

namespace Verif.Model

open Verif

/-- `WRITE_ORDER_TABLE`: `src/etc/consts.rs:1-2` -/
def writeOrderTable : List Nat := [0, 4, 8, 12, 1, 5, 9, 13, 2, 6, 10, 14, 3, 7, 11, 15]
/-- `WRITE_ORDER_TABLE_REV`: `src/etc/consts.rs:3-4` -/
def writeOrderTableRev : List Nat := [15, 11, 7, 3, 14, 10, 6, 2, 13, 9, 5, 1, 12, 8, 4, 0]
/-- `ETC1_MODIFIER_TABLE`: `src/etc/consts.rs:5-14` -/
def etc1ModifierTable : List (List Int) :=
  [[2, 8], [5, 17], [9, 29], [13, 42], [18, 60], [24, 80], [33, 106], [47, 183]]
/-- `ETC2A_MODIFIER_TABLE`: `src/etc/consts.rs:15-36` -/
def etc2aModifierTable : List (List (List Int)) :=
  [[[0, 8], [0, 17], [0, 29], [0, 42], [0, 60], [0, 80], [0, 106], [0, 183]],
   [[2, 8], [5, 17], [9, 29], [13, 42], [18, 60], [24, 80], [33, 106], [47, 183]]]
/-- `ETC1_SUBBLOCK_TABLE`: `src/etc/consts.rs:37-40` -/
def etc1SubblockTable : List (List Nat) :=
  [[0, 0, 0, 0, 0, 0, 0, 0, 1, 1, 1, 1, 1, 1, 1, 1],
   [0, 0, 1, 1, 0, 0, 1, 1, 0, 0, 1, 1, 0, 0, 1, 1]]
/-- `ETC2_DISTANCE_TABLE`: `src/etc/consts.rs:41` -/
def etc2DistanceTable : List Int := [3, 6, 11, 16, 23, 32, 41, 64]
/-- `ETC2_ALPHA_MOD_TABLE`: `src/etc/consts.rs:42-59` -/
def etc2AlphaModTable : List (List Int) :=
  [[-3, -6, -9, -15, 2, 5, 8, 14],
   [-3, -7, -10, -13, 2, 6, 9, 12],
   [-2, -5, -8, -13, 1, 4, 7, 12],
   [-2, -4, -6, -13, 1, 3, 5, 12],
   [-3, -6, -8, -12, 2, 5, 7, 11],
   [-3, -7, -9, -11, 2, 6, 8, 10],
   [-4, -7, -8, -11, 3, 6, 7, 10],
   [-3, -5, -8, -11, 2, 4, 7, 10],
   [-2, -6, -8, -10, 1, 5, 7, 9],
   [-2, -5, -8, -10, 1, 4, 7, 9],
   [-2, -4, -8, -10, 1, 3, 7, 9],
   [-2, -5, -7, -10, 1, 4, 6, 9],
   [-3, -4, -7, -10, 2, 3, 6, 9],
   [-1, -2, -3, -10, 0, 1, 2, 9],
   [-4, -6, -8, -9, 3, 5, 7, 8],
   [-3, -5, -7, -9, 2, 4, 6, 8]]

/-- `TRANSPARENT_MASK` on a little-endian target: `src/color.rs:3-8`. -/
def transparentMask : UInt32 := 0x00ffffff

/-- Rust `a << k` on `u8` with a constant `k < 8`, as in `src/etc/etc1.rs:51`: never panics, drops the high bits. -/
def shl8 (a k : Nat) : Nat := asU 8 (a <<< k)

/-- `clamp(n)`: `src/etc/etc1.rs:5-13` -/
def etcClamp (n : Int) : Nat :=
  asUI 8 (if n < 0 then 0 else if n > 255 then 255 else n)

/-- A colour `[u8; 3]`, as in `src/etc/etc1.rs:16`. -/
abbrev Rgb := Nat × Nat × Nat

/-- The eight bytes of a block: the `data` of `src/etc/etc1.rs:41`. -/
structure Bytes8 where
  d0 : Nat
  d1 : Nat
  d2 : Nat
  d3 : Nat
  d4 : Nat
  d5 : Nat
  d6 : Nat
  d7 : Nat

/-- `data[0]`, …, `data[7]` (`src/etc/etc1.rs:42-82`); see the note at the top of this file. -/
def bytes8 (data : List UInt8) : Out Bytes8 := do
  let d0 ← byte data 0
  let d1 ← byte data 1
  let d2 ← byte data 2
  let d3 ← byte data 3
  let d4 ← byte data 4
  let d5 ← byte data 5
  let d6 ← byte data 6
  let d7 ← byte data 7
  pure ⟨d0, d1, d2, d3, d4, d5, d6, d7⟩

/-- The base colours of an individual-mode block: `src/etc/etc1.rs:73-78`,
`src/etc/etc2.rs:147-152`. -/
def etcIndividual (d : Bytes8) : Rgb × Rgb :=
  (((d.d0 &&& 0xf0) ||| d.d0 >>> 4, (d.d1 &&& 0xf0) ||| d.d1 >>> 4, (d.d2 &&& 0xf0) ||| d.d2 >>> 4),
   ((d.d0 &&& 0x0f) ||| shl8 d.d0 4, (d.d1 &&& 0x0f) ||| shl8 d.d1 4,
    (d.d2 &&& 0x0f) ||| shl8 d.d2 4))

/-- One channel of the second colour of a differential ETC1 block:
`c.overflowing_add(d << 3 & 0x18).0.overflowing_sub(d << 3 & 0x20).0` with `c = d & 0xf8`,
`src/etc/etc1.rs:50-54` (and 55-64). -/
def etc1Second (d : Nat) : Nat :=
  let s := ((d &&& 0xf8) + (shl8 d 3 &&& 0x18)) % 256
  (s + 256 - (shl8 d 3 &&& 0x20)) % 256

/-- `c | c >> 5`: `src/etc/etc1.rs:65-70`, `src/etc/etc2.rs:125-133`. -/
def rep5 (c : Nat) : Nat := c ||| c >>> 5

/-- The base colours of a differential ETC1 block: `src/etc/etc1.rs:47-70`. -/
def etc1Differential (d : Bytes8) : Rgb × Rgb :=
  ((rep5 (d.d0 &&& 0xf8), rep5 (d.d1 &&& 0xf8), rep5 (d.d2 &&& 0xf8)),
   (rep5 (etc1Second d.d0), rep5 (etc1Second d.d1), rep5 (etc1Second d.d2)))

/-- The two base colours of a T block: `src/etc/etc2.rs:24-32`, `180-186`. -/
def etc2T (d : Bytes8) : Rgb × Rgb :=
  (((shl8 d.d0 3 &&& 0xc0) ||| (shl8 d.d0 4 &&& 0x30) ||| (d.d0 >>> 1 &&& 0xc) ||| (d.d0 &&& 3),
    (d.d1 &&& 0xf0) ||| d.d1 >>> 4,
    (d.d1 &&& 0x0f) ||| shl8 d.d1 4),
   ((d.d2 &&& 0xf0) ||| d.d2 >>> 4,
    (d.d2 &&& 0x0f) ||| shl8 d.d2 4,
    (d.d3 &&& 0xf0) ||| d.d3 >>> 4))

/-- The two base colours of an H block: `src/etc/etc2.rs:48-56`, `206-214`. -/
def etc2H (d : Bytes8) : Rgb × Rgb :=
  let c01 := (shl8 d.d0 5 &&& 0xe0) ||| (d.d1 &&& 0x10)
  let c02 := (d.d1 &&& 8) ||| (shl8 d.d1 1 &&& 6) ||| d.d2 >>> 7
  let c11 := (shl8 d.d2 5 &&& 0xe0) ||| (d.d3 >>> 3 &&& 0x10)
  (((shl8 d.d0 1 &&& 0xf0) ||| (d.d0 >>> 3 &&& 0xf), c01 ||| c01 >>> 4, c02 ||| shl8 c02 4),
   ((shl8 d.d2 1 &&& 0xf0) ||| (d.d2 >>> 3 &&& 0xf), c11 ||| c11 >>> 4,
    (shl8 d.d3 1 &&& 0xf0) ||| (d.d3 >>> 3 &&& 0xf)))

/-- The three colours of a planar block: `src/etc/etc2.rs:79-92`, `241-254`. -/
def etc2Planar (d : Bytes8) : Rgb × Rgb × Rgb :=
  let c02 := (shl8 d.d1 7 &&& 0x80) ||| (shl8 d.d2 2 &&& 0x60) ||| (shl8 d.d2 3 &&& 0x18) |||
    (d.d3 >>> 5 &&& 4)
  let c12 := (shl8 d.d4 7 &&& 0x80) ||| (d.d5 >>> 1 &&& 0x7c)
  (((shl8 d.d0 1 &&& 0xfc) ||| (d.d0 >>> 5 &&& 3),
    (shl8 d.d0 7 &&& 0x80) ||| (d.d1 &&& 0x7e) ||| (d.d0 &&& 1),
    c02 ||| c02 >>> 6),
   ((shl8 d.d3 1 &&& 0xf8) ||| (shl8 d.d3 2 &&& 4) ||| (d.d3 >>> 5 &&& 3),
    (d.d4 &&& 0xfe) ||| d.d4 >>> 7,
    c12 ||| c12 >>> 6),
   ((shl8 d.d5 5 &&& 0xe0) ||| (d.d6 >>> 3 &&& 0x1c) ||| (d.d5 >>> 1 &&& 3),
    (shl8 d.d6 3 &&& 0xf8) ||| (d.d7 >>> 5 &&& 0x6) ||| (d.d6 >>> 4 &&& 1),
    shl8 d.d7 2 ||| (d.d7 >>> 4 &&& 3)))

/-- The comparison of the two base colours of an H block: `src/etc/etc2.rs:58-60`, `216-218`. -/
def etc2Ordered (c0 c1 : Rgb) : Bool :=
  c0.1 > c1.1 || (c0.1 == c1.1 && (c0.2.1 > c1.2.1 || (c0.2.1 == c1.2.1 && c0.2.2 ≥ c1.2.2)))

variable [Build]

/-- `applicate_color_alpha(c, m, transparent)`: `src/etc/etc1.rs:26-33` -/
def applicateColorAlpha (c : Rgb) (m : Int) (transparent : Bool) : Out UInt32 := do
  let r ← addI 32 c.1 m
  let g ← addI 32 c.2.1 m
  let b ← addI 32 c.2.2 m
  pure (color (etcClamp r) (etcClamp g) (etcClamp b) (if transparent then 0 else 255))

/-- `applicate_color(c, m)`: `src/etc/etc1.rs:16-23` -/
def applicateColor (c : Rgb) (m : Int) : Out UInt32 := do
  let r ← addI 32 c.1 m
  let g ← addI 32 c.2.1 m
  let b ← addI 32 c.2.2 m
  pure (color (etcClamp r) (etcClamp g) (etcClamp b) 255)

/-- `applicate_color_raw(c)`: `src/etc/etc1.rs:36-38` -/
def applicateColorRaw (c : Rgb) : UInt32 := color c.1 c.2.1 c.2.2 255

/-- The pixel loop of the individual and differential modes: `src/etc/etc1.rs:42-43,81-90`,
`src/etc/etc2.rs:123-124,134-141` and `145-146,153-159`. The loop state is (`j`, `k`, `outbuf`). -/
def etc1Paint (d3 : Nat) (c : Rgb × Rgb) (j k : Nat) (outbuf : List UInt32) :
    Out (List UInt32) := do
  let code := [d3 >>> 5, d3 >>> 2 &&& 7]
  let table ← idx etc1SubblockTable (d3 &&& 1)
  let (_, outbuf) ← forRange 16 (fun i (s : (Nat × Nat) × List UInt32) => do
      let ((j, k), outbuf) := s
      let s ← idx table i
      let cw ← idx code s
      let row ← idx etc1ModifierTable cw
      let m ← idx row (j &&& 1)
      let cs ← idx [c.1, c.2] s
      let m ← (if k &&& 1 > 0 then negI 16 m else pure m)
      let v ← applicateColor cs m
      let pos ← idx writeOrderTable i
      let outbuf ← setIdx outbuf pos v
      pure ((j >>> 1, k >>> 1), outbuf)) ((j, k), outbuf)
  pure outbuf

/-- The pixel loop of the differential mode of RGBA1: `src/etc/etc2.rs:285-286,296-306`. -/
def etc2aPaint (obaq : Bool) (d3 : Nat) (c : Rgb × Rgb) (j k : Nat) (outbuf : List UInt32) :
    Out (List UInt32) := do
  let code := [d3 >>> 5, d3 >>> 2 &&& 7]
  let table ← idx etc1SubblockTable (d3 &&& 1)
  let (_, outbuf) ← forRange 16 (fun i (s : (Nat × Nat) × List UInt32) => do
      let ((j, k), outbuf) := s
      let s ← idx table i
      let cw ← idx code s
      let mods ← idx etc2aModifierTable (if obaq then 1 else 0)
      let row ← idx mods cw
      let m ← idx row (j &&& 1)
      let cs ← idx [c.1, c.2] s
      let m ← (if k &&& 1 > 0 then negI 16 m else pure m)
      let v ← applicateColorAlpha cs m (!obaq && k &&& 1 != 0 && j &&& 1 == 0)
      let pos ← idx writeOrderTable i
      let outbuf ← setIdx outbuf pos v
      pure ((j >>> 1, k >>> 1), outbuf)) ((j, k), outbuf)
  pure outbuf

/-- The pixel loop of the T and H modes: `src/etc/etc2.rs:40-45`, `71-76`. The first shift of `k`
cannot lose bits (`k < 2^16`, 64-bit `usize`). -/
def etc2Paint (colorSet : List UInt32) (j k : Nat) (outbuf : List UInt32) :
    Out (List UInt32) := do
  let (_, outbuf) ← forRange 16 (fun i (s : (Nat × Nat) × List UInt32) => do
      let ((j, k), outbuf) := s
      let v ← idx colorSet ((k &&& 2) ||| (j &&& 1))
      let pos ← idx writeOrderTable i
      let outbuf ← setIdx outbuf pos v
      pure ((j >>> 1, k >>> 1), outbuf)) ((j, asU 64 (k <<< 1)), outbuf)
  pure outbuf

/-- The pixel loop of the T and H modes of RGBA1: `src/etc/etc2.rs:194-203`, `229-238`. -/
def etc2PaintA (obaq : Bool) (colorSet : List UInt32) (j k : Nat) (outbuf : List UInt32) :
    Out (List UInt32) := do
  let (_, outbuf) ← forRange 16 (fun i (s : (Nat × Nat) × List UInt32) => do
      let ((j, k), outbuf) := s
      let index := (k &&& 2) ||| (j &&& 1)
      let v ← idx colorSet index
      let pos ← idx writeOrderTable i
      let outbuf ← setIdx outbuf pos v
      let outbuf ← (if !obaq && index == 2 then do
          let p ← idx outbuf pos
          setIdx outbuf pos (p &&& transparentMask)
        else pure outbuf)
      pure ((j >>> 1, k >>> 1), outbuf)) ((j, asU 64 (k <<< 1)), outbuf)
  pure outbuf

/-- The four colours of a T block: `src/etc/etc2.rs:33-39`, `187-193`. -/
def etc2TSet (d3 : Nat) (c : Rgb × Rgb) : Out (List UInt32) := do
  let d ← idx etc2DistanceTable ((d3 >>> 1 &&& 6) ||| (d3 &&& 1))
  let p1 ← applicateColor c.2 d
  let nd ← negI 16 d
  let p3 ← applicateColor c.2 nd
  pure [applicateColorRaw c.1, p1, applicateColorRaw c.2, p3]

/-- The four colours of an H block: `src/etc/etc2.rs:57-70`, `215-228`. -/
def etc2HSet (d3 : Nat) (c : Rgb × Rgb) : Out (List UInt32) := do
  let d := (d3 &&& 4) ||| (shl8 d3 1 &&& 2)
  let d ← (if etc2Ordered c.1 c.2 then addU 8 d 1 else pure d)
  let d ← idx etc2DistanceTable d
  let p0 ← applicateColor c.1 d
  let nd ← negI 16 d
  let p1 ← applicateColor c.1 nd
  let p2 ← applicateColor c.2 d
  let p3 ← applicateColor c.2 nd
  pure [p0, p1, p2, p3]

/-- One channel of a planar pixel: `src/etc/etc2.rs:96-102` (and 103-116, 258-278). -/
def planarChannel (x y co ch cv : Nat) : Out Nat := do
  let h ← subI 32 ch co
  let a ← mulI 32 x h
  let v ← subI 32 cv co
  let b ← mulI 32 y v
  let s ← addI 32 a b
  let q ← mulI 32 4 co
  let s ← addI 32 s q
  let s ← addI 32 s 2
  let s ← shrI 32 s 2
  pure (etcClamp s)

/-- The pixel loops of the planar mode: `src/etc/etc2.rs:93-120`, `255-282`. The loop state is
(`i`, `outbuf`). -/
def etc2PlanarPaint (c : Rgb × Rgb × Rgb) (outbuf : List UInt32) : Out (List UInt32) := do
  let (_, outbuf) ← forRange 4 (fun y s =>
    forRange 4 (fun x (s : Nat × List UInt32) => do
      let (i, outbuf) := s
      let r ← planarChannel x y c.1.1 c.2.1.1 c.2.2.1
      let g ← planarChannel x y c.1.2.1 c.2.1.2.1 c.2.2.2.1
      let b ← planarChannel x y c.1.2.2 c.2.1.2.2 c.2.2.2.2
      let outbuf ← setIdx outbuf i (color r g b 255)
      let i ← addU 64 i 1
      pure (i, outbuf)) s) (0, outbuf)
  pure outbuf

/-- `(d as i32) << 3 & 0x18) - ((d as i32) << 3 & 0x20)`: `src/etc/etc2.rs:17`, `19`, `21`, `173`,
`175`, `177`. The values before the subtraction are non-negative. -/
def etc2Delta (d : Nat) : Out Int :=
  subI 32 ((d <<< 3 &&& 0x18 : Nat) : Int) ((d <<< 3 &&& 0x20 : Nat) : Int)

/-- `r + dr`: `src/etc/etc2.rs:22`, `46`, `77`, `128-130` (and 178, 204, 239, 290-292). -/
def etc2Sum (d : Nat) : Out Int := do
  let dr ← etc2Delta d
  addI 32 ((d &&& 0xf8 : Nat) : Int) dr

/-- The test `r + dr < 0 || r + dr > 255`: `src/etc/etc2.rs:22`, `46`, `77`, `178`, `204`, `239`. -/
def outOfRange (s : Int) : Bool := s < 0 || s > 255

/-- The base colours of a differential ETC2 block: `src/etc/etc2.rs:125-133`, `287-295`. The
arguments are `r + dr`, `g + dg`, `b + db`. -/
def etc2Differential (d : Bytes8) (sr sg sb : Int) : Rgb × Rgb :=
  ((asU 8 (rep5 (d.d0 &&& 0xf8)), asU 8 (rep5 (d.d1 &&& 0xf8)), asU 8 (rep5 (d.d2 &&& 0xf8))),
   (rep5 (asUI 8 sr), rep5 (asUI 8 sg), rep5 (asUI 8 sb)))

/-- `decode_etc1_block`: `src/etc/etc1.rs:41-91` -/
def decodeEtc1Block : BlockFn := fun data outbuf => do
  let d ← bytes8 data
  let c := if d.d3 &&& 2 > 0 then etc1Differential d else etcIndividual d
  let j := fromBE [d.d6, d.d7]
  let k := fromBE [d.d4, d.d5]
  etc1Paint d.d3 c j k outbuf

/-- `decode_etc2_rgb_block`: `src/etc/etc2.rs:9-161` -/
def decodeEtc2RgbBlock : BlockFn := fun data outbuf => do
  let d ← bytes8 data
  let j := fromBE [d.d6, d.d7]
  let k := fromBE [d.d4, d.d5]
  if d.d3 &&& 2 > 0 then do
    let sr ← etc2Sum d.d0
    let sg ← etc2Sum d.d1
    let sb ← etc2Sum d.d2
    if outOfRange sr then do
      let set ← etc2TSet d.d3 (etc2T d)
      etc2Paint set j k outbuf
    else if outOfRange sg then do
      let set ← etc2HSet d.d3 (etc2H d)
      etc2Paint set j k outbuf
    else if outOfRange sb then
      etc2PlanarPaint (etc2Planar d) outbuf
    else
      etc1Paint d.d3 (etc2Differential d sr sg sb) j k outbuf
  else
    etc1Paint d.d3 (etcIndividual d) j k outbuf

/-- `decode_etc2_rgba1_block`: `src/etc/etc2.rs:164-308` -/
def decodeEtc2Rgba1Block : BlockFn := fun data outbuf => do
  let d ← bytes8 data
  let j := fromBE [d.d6, d.d7]
  let k := fromBE [d.d4, d.d5]
  let obaq : Bool := d.d3 >>> 1 &&& 1 > 0
  let sr ← etc2Sum d.d0
  let sg ← etc2Sum d.d1
  let sb ← etc2Sum d.d2
  if outOfRange sr then do
    let set ← etc2TSet d.d3 (etc2T d)
    etc2PaintA obaq set j k outbuf
  else if outOfRange sg then do
    let set ← etc2HSet d.d3 (etc2H d)
    etc2PaintA obaq set j k outbuf
  else if outOfRange sb then
    etc2PlanarPaint (etc2Planar d) outbuf
  else
    etc2aPaint obaq d.d3 (etc2Differential d sr sg sb) j k outbuf

/-- `(*x & TRANSPARENT_MASK) | (a as u32) << TRANSPARENT_SHIFT` on a little-endian target, `a` a
`u8`: `src/etc/etc2.rs:319-322`, `327-329`, `src/color.rs:3-23`. -/
def setAlpha (a : Nat) (p : UInt32) : UInt32 :=
  (p &&& transparentMask) ||| UInt32.ofNat (asU 32 (a <<< 24))

/-- `decode_etc2_a8_block`: `src/etc/etc2.rs:311-332`. The loop state is (`l`, `outbuf`). -/
def decodeEtc2A8Block : BlockFn := fun data outbuf => do
  let d0 ← byte data 0
  let d1 ← byte data 1
  if d1 &&& 0xf0 > 0 then do
    let multiplier : Int := ((d1 >>> 4 : Nat) : Int)
    let table ← idx etc2AlphaModTable (d1 &&& 0xf)
    let bs ← slice data 0 8
    let l := fromBE (bytesOf bs)
    let (_, outbuf) ← forRange 16 (fun i (s : Nat × List UInt32) => do
        let (l, outbuf) := s
        let t ← idx table (l &&& 7)
        let m ← mulI 32 multiplier t
        let a ← addI 32 d0 m
        let pos ← idx writeOrderTableRev i
        let p ← idx outbuf pos
        let outbuf ← setIdx outbuf pos (setAlpha (etcClamp a) p)
        pure (l >>> 3, outbuf)) (l, outbuf)
    pure outbuf
  else
    pure ((outbuf.take 16).map (setAlpha d0) ++ outbuf.drop 16)

/-- `decode_etc2_rgba8_block`: `src/etc/etc2.rs:335-338` -/
def decodeEtc2Rgba8Block : BlockFn := fun data outbuf => do
  let d ← sliceFrom data 8
  let outbuf ← decodeEtc2RgbBlock d outbuf
  decodeEtc2A8Block data outbuf

/-- `if val < 0 { 0 } else if val >= 2048 { 255 } else { (val >> 3) as u8 }`:
`src/etc/eac.rs:15-21`, `39-45`. -/
def eacClamp (val : Int) : Nat :=
  if val < 0 then 0 else if val ≥ 2048 then 255 else asUI 8 (val / 2 ^ 3)

/-- The common part of `decode_eac_block` and `decode_eac_signed_block`, which differ only in the
base value and the constant added to it: `src/etc/eac.rs:6-25`, `30-49`. `channel` is the
parameter `color`. The loop state is (`l`, `outbuf`). -/
def eacCore (base bias : Int) (data : List UInt8) (channel : Nat) (outbuf : List UInt32) :
    Out (List UInt32) := do
  let d1 ← byte data 1
  let multiplier := d1 >>> 1 &&& 0x78
  let multiplier := if multiplier = 0 then 1 else multiplier
  let table ← idx etc2AlphaModTable (d1 &&& 0xf)
  let bs ← slice data 0 8
  let l := fromLE (bytesOf bs)
  let (_, outbuf) ← forRange 16 (fun i (s : Nat × List UInt32) => do
      let (l, outbuf) := s
      let b8 ← mulI 32 base 8
      let t ← idx table (l &&& 7)
      let m ← mulI 32 multiplier t
      let v ← addI 32 b8 m
      let val ← addI 32 v bias
      let block ← setIdx [0, 0, 0, 0] channel (eacClamp val)
      let pos ← idx writeOrderTableRev i
      let p ← idx outbuf pos
      let outbuf ← setIdx outbuf pos (p ||| UInt32.ofNat (fromLE block))
      pure (l >>> 3, outbuf)) (l, outbuf)
  pure outbuf

/-- `decode_eac_block(data, color, outbuf)`: `src/etc/eac.rs:5-25` -/
def decodeEacBlock (data : List UInt8) (channel : Nat) (outbuf : List UInt32) :
    Out (List UInt32) := do
  let d0 ← byte data 0
  eacCore d0 4 data channel outbuf

/-- `decode_eac_signed_block(data, color, outbuf)`: `src/etc/eac.rs:28-49` -/
def decodeEacSignedBlock (data : List UInt8) (channel : Nat) (outbuf : List UInt32) :
    Out (List UInt32) := do
  let d0 ← byte data 0
  eacCore (asI 8 d0) 1023 data channel outbuf

/-- `decode_eacr_block`: `src/etc/eac.rs:52-55` -/
def decodeEacrBlock : BlockFn := fun data outbuf => do
  let outbuf ← fillRange outbuf 0 16 (color 0 0 0 255)
  decodeEacBlock data 2 outbuf

/-- `decode_eacr_signed_block`: `src/etc/eac.rs:58-61` -/
def decodeEacrSignedBlock : BlockFn := fun data outbuf => do
  let outbuf ← fillRange outbuf 0 16 (color 0 0 0 255)
  decodeEacSignedBlock data 2 outbuf

/-- `decode_eacrg_block`: `src/etc/eac.rs:64-68` -/
def decodeEacrgBlock : BlockFn := fun data outbuf => do
  let outbuf ← fillRange outbuf 0 16 (color 0 0 0 255)
  let outbuf ← decodeEacBlock data 2 outbuf
  let d ← sliceFrom data 8
  decodeEacBlock d 1 outbuf

/-- `decode_eacrg_signed_block`: `src/etc/eac.rs:71-75` -/
def decodeEacrgSignedBlock : BlockFn := fun data outbuf => do
  let outbuf ← fillRange outbuf 0 16 (color 0 0 0 255)
  let outbuf ← decodeEacSignedBlock data 2 outbuf
  let d ← sliceFrom data 8
  decodeEacSignedBlock d 1 outbuf

/-- `decode_etc1`: `src/etc.rs:17` -/
def decodeEtc1 := blockDecoder 4 4 8 decodeEtc1Block
/-- `decode_etc2_rgb`: `src/etc.rs:18` -/
def decodeEtc2Rgb := blockDecoder 4 4 8 decodeEtc2RgbBlock
/-- `decode_etc2_rgba1`: `src/etc.rs:19` -/
def decodeEtc2Rgba1 := blockDecoder 4 4 8 decodeEtc2Rgba1Block
/-- `decode_etc2_rgba8`: `src/etc.rs:20` -/
def decodeEtc2Rgba8 := blockDecoder 4 4 16 decodeEtc2Rgba8Block
/-- `decode_eacr`: `src/etc.rs:23` -/
def decodeEacr := blockDecoder 4 4 8 decodeEacrBlock
/-- `decode_eacr_signed`: `src/etc.rs:24` -/
def decodeEacrSigned := blockDecoder 4 4 8 decodeEacrSignedBlock
/-- `decode_eacrg`: `src/etc.rs:25` -/
def decodeEacrg := blockDecoder 4 4 16 decodeEacrgBlock
/-- `decode_eacrg_signed`: `src/etc.rs:26` -/
def decodeEacrgSigned := blockDecoder 4 4 16 decodeEacrgSignedBlock

end Verif.Model
