import Verif.Model.Bcn

/-!
# Model of ATC (`src/atc.rs`)
-/

namespace Verif.Model

open Verif

variable [Build]

/-- `expand_quantized(v, bits)`: `src/atc.rs:9-12` -/
def atcExpand (v bits : Nat) : Out Nat := do
  let n ← subU 8 8 bits
  let v ← shlU 8 v n
  let w ← shrU 8 v bits
  pure (v ||| w)

/-- `interop_colors(c0, c1)`: `src/atc.rs:30-32` -/
def interopColors (c0 c1 : Nat) : Out Nat := do
  let x ← mulU 16 5 c0
  let y ← mulU 16 3 c1
  let s ← addU 16 x y
  let q ← divU s 8
  pure (asU 8 q)

/-- `max(0, ((a as u16).overflowing_sub(b as u16).0 / 4) as u8)`: `src/atc.rs:61-72` -/
def atcDark (a b : Nat) : Nat := max 0 (asU 8 ((a + 2 ^ 16 - b) % 2 ^ 16 / 4))

/-- The three channels (blue, green, red) of the first endpoint: `src/atc.rs:21-23`, `53-55`. -/
def atcFirst (c0 : Nat) : Out (Nat × Nat × Nat) := do
  let b ← atcExpand (asU 8 (c0 >>> 0 &&& 0x1f)) 5
  let g ← atcExpand (asU 8 (c0 >>> 5 &&& 0x1f)) 5
  let r ← atcExpand (asU 8 (c0 >>> 10 &&& 0x1f)) 5
  pure (b, g, r)

/-- The three channels (blue, green, red) of the second endpoint: `src/atc.rs:25-27`, `57-59`. -/
def atcSecond (c1 : Nat) : Out (Nat × Nat × Nat) := do
  let b ← atcExpand (asU 8 (c1 >>> 0 &&& 0x1f)) 5
  let g ← atcExpand (asU 8 (c1 >>> 5 &&& 0x3f)) 6
  let r ← atcExpand (asU 8 (c1 >>> 11 &&& 0x1f)) 5
  pure (b, g, r)

/-- The array `colors` after the branches: `src/atc.rs:16-73`. Entries 3, 7, 11, 15 stay 0. -/
def atcColors (c0 c1 : Nat) : Out (List Nat) :=
  if 0 = c0 &&& 0x8000 then do
    let (b0, g0, r0) ← atcFirst c0
    let (b1, g1, r1) ← atcSecond c1
    let c4 ← interopColors b0 b1
    let c5 ← interopColors g0 g1
    let c6 ← interopColors r0 r1
    let c8 ← interopColors b1 b0
    let c9 ← interopColors g1 g0
    let c10 ← interopColors r1 r0
    pure [b0, g0, r0, 0, c4, c5, c6, 0, c8, c9, c10, 0, b1, g1, r1, 0]
  else do
    let (b0, g0, r0) ← atcFirst c0
    let (b1, g1, r1) ← atcSecond c1
    pure [0, 0, 0, 0, atcDark b0 b1, atcDark g0 g1, atcDark r0 r1, 0, b0, g0, r0, 0, b1, g1, r1, 0]

/-- `decode_atc_rgb4_block`: `src/atc.rs:15-81`. The loop state is (`next`, `outbuf`). -/
def decodeAtcRgb4Block : BlockFn := fun data outbuf => do
  let c0 ← u16LE data 0
  let c1 ← u16LE data 2
  let colors ← atcColors c0 c1
  let (_, outbuf) ← forRange 16 (fun i (s : Nat × List UInt32) => do
      let (next, outbuf) := s
      let b ← byte data (next >>> 3)
      let b ← shrU 8 b (next &&& 7)
      let k ← mulU 8 (b &&& 3) 4
      let k2 ← addU 64 k 2
      let r ← idx colors k2
      let k1 ← addU 64 k 1
      let g ← idx colors k1
      let b ← idx colors k
      let outbuf ← setIdx outbuf i (color r g b 255)
      let next ← addU 64 next 2
      pure (next, outbuf)) (8 * 4, outbuf)
  pure outbuf

/-- `decode_atc_rgba8_block`: `src/atc.rs:84-87` -/
def decodeAtcRgba8Block : BlockFn := fun data outbuf => do
  let d ← sliceFrom data 8
  let outbuf ← decodeAtcRgb4Block d outbuf
  decodeBc3Alpha 3 data outbuf

/-- `block_decoder!("atc_rgb4", 4, 4, 8, decode_atc_rgb4_block)`: `src/atc.rs:89` -/
def decodeAtcRgb4 := blockDecoder 4 4 8 decodeAtcRgb4Block
/-- `block_decoder!("atc_rgba8", 4, 4, 16, decode_atc_rgba8_block)`: `src/atc.rs:90` -/
def decodeAtcRgba8 := blockDecoder 4 4 16 decodeAtcRgba8Block

end Verif.Model
