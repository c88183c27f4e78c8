import Verif.Model.Image

/-!
# Model of BC1 – BC5 (`src/bcn.rs`, `src/bcn/bc1.rs` … `bc5.rs`)
-/

namespace Verif.Model

open Verif

/-- Update one pixel channel: `(*p & channel_mask) | ((v as u32) << channel_shift)` with
`channel_mask = 0xFFFFFFFF ^ (0xFF << channel_shift)` and `channel_shift = channel * 8`:
`src/bcn/bc2.rs:5-6,15` and `src/bcn/bc3.rs:25-26,28`. `channel` is 1, 2 or 3 in all calls, so the
shifts are in range; the left shift of a `u32` drops high bits. -/
def setChannel (channel v : Nat) (p : UInt32) : UInt32 :=
  UInt32.ofNat ((p.toNat &&& (0xFFFFFFFF ^^^ (0xFF <<< (channel * 8)))) |||
    asU 32 (asU 32 v <<< (channel * 8)))

variable [Build]

/-- Load a `u16` from two bytes: `u16::from_le_bytes([data[i], data[i + 1]])`,
`src/bcn/bc1.rs:5-6`. -/
def u16LE (data : List UInt8) (i : Nat) : Out Nat := do
  let a ← byte data i
  let b ← byte data (i + 1)
  pure (fromLE [a, b])

/-- `(a * m + b * n) / d` on `u16` operands followed by `as u8`: the channel expressions of
`src/bcn/bc1.rs:21-39`. (`a * 1` is written `a` in the source.) -/
def mix16 (m n d a b : Nat) : Out Nat := do
  let x ← mulU 16 a m
  let y ← mulU 16 b n
  let s ← addU 16 x y
  let q ← divU s d
  pure (asU 8 q)

/-- `_decode_bc1_block`: `src/bcn/bc1.rs:4-47`. The loop state is (`d`, `outbuf`). -/
def decodeBc1Core (useAlpha : Bool) : BlockFn := fun data outbuf => do
  let q0 ← u16LE data 0
  let q1 ← u16LE data 2
  let (r0, g0, b0) := rgb565_le q0
  let (r1, g1, b1) := rgb565_le q1
  let (c2, c3) ← (if q0 > q1 then do
      let r2 ← mix16 2 1 3 r0 r1
      let g2 ← mix16 2 1 3 g0 g1
      let b2 ← mix16 2 1 3 b0 b1
      let r3 ← mix16 1 2 3 r0 r1
      let g3 ← mix16 1 2 3 g0 g1
      let b3 ← mix16 1 2 3 b0 b1
      pure (color r2 g2 b2 255, color r3 g3 b3 255)
    else do
      let r2 ← mix16 1 1 2 r0 r1
      let g2 ← mix16 1 1 2 g0 g1
      let b2 ← mix16 1 1 2 b0 b1
      pure (color r2 g2 b2 255, color 0 0 0 (if useAlpha then 0 else 255)))
  let c := [color r0 g0 b0 255, color r1 g1 b1 255, c2, c3]
  let bs ← slice data 4 8
  let d := fromLE (bytesOf bs)
  let (_, outbuf) ← forRange 16 (fun i (s : Nat × List UInt32) => do
      let (d, outbuf) := s
      let v ← idx c (d &&& 3)
      let outbuf ← setIdx outbuf i v
      pure (d >>> 2, outbuf)) (d, outbuf)
  pure outbuf

/-- `decode_bc1_block`: `src/bcn/bc1.rs:50-52` -/
def decodeBc1Block : BlockFn := decodeBc1Core false
/-- `decode_bc1a_block`: `src/bcn/bc1.rs:55-57` -/
def decodeBc1aBlock : BlockFn := decodeBc1Core true

/-- `decode_bc2_alpha(data, outbuf, channel)`: `src/bcn/bc2.rs:4-17`.
`outbuf[0..16]` is checked first, then updated element by element. -/
def decodeBc2Alpha (channel : Nat) : BlockFn := fun data outbuf => do
  let _ ← slice outbuf 0 16
  forRange 16 (fun i outbuf => do
      let byteIdx := i >>> 1
      let bitOff := (i &&& 1) <<< 2
      let b ← byte data byteIdx
      let s ← shrU 8 b bitOff
      let av := s &&& 0xF
      let hi ← shlU 8 av 4
      let av := hi ||| av
      let p ← idx outbuf i
      setIdx outbuf i (setChannel channel av p)) outbuf

/-- `decode_bc2_block`: `src/bcn/bc2.rs:20-23` -/
def decodeBc2Block : BlockFn := fun data outbuf => do
  let d ← sliceFrom data 8
  let outbuf ← decodeBc1Block d outbuf
  decodeBc2Alpha 3 data outbuf

/-- `(a0 * m + a1 * n) / d` on `u16`: the table entries of `src/bcn/bc3.rs:7-18`.
(`a * 1` is written `a` in the source.) -/
def mixA (m n d a b : Nat) : Out Nat := do
  let x ← mulU 16 a m
  let y ← mulU 16 b n
  let s ← addU 16 x y
  divU s d

/-- The eight-entry table of `decode_bc3_alpha`: `src/bcn/bc3.rs:6-20`. -/
def bc3Table (a0 a1 : Nat) : Out (List Nat) :=
  if a0 > a1 then do
    let a2 ← mixA 6 1 7 a0 a1
    let a3 ← mixA 5 2 7 a0 a1
    let a4 ← mixA 4 3 7 a0 a1
    let a5 ← mixA 3 4 7 a0 a1
    let a6 ← mixA 2 5 7 a0 a1
    let a7 ← mixA 1 6 7 a0 a1
    pure [a0, a1, a2, a3, a4, a5, a6, a7]
  else do
    let a2 ← mixA 4 1 5 a0 a1
    let a3 ← mixA 3 2 5 a0 a1
    let a4 ← mixA 2 3 5 a0 a1
    let a5 ← mixA 1 4 5 a0 a1
    pure [a0, a1, a2, a3, a4, a5, 0, 255]

/-- `decode_bc3_alpha(data, outbuf, channel)`: `src/bcn/bc3.rs:4-31`.
The loop runs over the whole of `outbuf`; its state is (`d`, `outbuf`). -/
def decodeBc3Alpha (channel : Nat) : BlockFn := fun data outbuf => do
  let a0 ← byte data 0
  let a1 ← byte data 1
  let a ← bc3Table a0 a1
  let bs ← slice data 0 8
  let d := fromLE (bytesOf bs) >>> 16
  let (_, outbuf) ← forRange outbuf.length (fun i (s : Nat × List UInt32) => do
      let (d, outbuf) := s
      let v ← idx a (d &&& 7)
      let p ← idx outbuf i
      let outbuf ← setIdx outbuf i (setChannel channel v p)
      pure (d >>> 3, outbuf)) (d, outbuf)
  pure outbuf

/-- `decode_bc3_block`: `src/bcn/bc3.rs:34-37` -/
def decodeBc3Block : BlockFn := fun data outbuf => do
  let d ← sliceFrom data 8
  let outbuf ← decodeBc1Block d outbuf
  decodeBc3Alpha 3 data outbuf

/-- `decode_bc4_block`: `src/bcn/bc4.rs:4-6` -/
def decodeBc4Block : BlockFn := decodeBc3Alpha 2

/-- `decode_bc5_block`: `src/bcn/bc5.rs:4-7` -/
def decodeBc5Block : BlockFn := fun data outbuf => do
  let outbuf ← decodeBc3Alpha 2 data outbuf
  let d ← sliceFrom data 8
  decodeBc3Alpha 1 d outbuf

/-- `decode_bc1`: `src/bcn.rs:21` -/
def decodeBc1 := blockDecoder 4 4 8 decodeBc1Block
/-- `decode_bc1a`: `src/bcn.rs:22` -/
def decodeBc1a := blockDecoder 4 4 8 decodeBc1aBlock
/-- `decode_bc2`: `src/bcn.rs:23` -/
def decodeBc2 := blockDecoder 4 4 16 decodeBc2Block
/-- `decode_bc3`: `src/bcn.rs:24` -/
def decodeBc3 := blockDecoder 4 4 16 decodeBc3Block
/-- `decode_bc4`: `src/bcn.rs:25` -/
def decodeBc4 := blockDecoder 4 4 8 decodeBc4Block
/-- `decode_bc5`: `src/bcn.rs:26` -/
def decodeBc5 := blockDecoder 4 4 16 decodeBc5Block

end Verif.Model
