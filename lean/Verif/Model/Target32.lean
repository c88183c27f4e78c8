import Verif.Model.Bcn
import Verif.Model.Etc
import Verif.Model.Atc
import Verif.Model.Bc6
import Verif.Model.Bc7

/-!
# The block decoders on targets with a 32-bit `usize`

The rest of the model is for 64-bit targets. On a 32-bit target two things change: the sizes in
`copy_block_buffer` and `block_decoder!` are 32-bit numbers, and `decode_bc3_alpha`,
`decode_etc2_a8_block`, `decode_eac_block` and `decode_eac_signed_block` keep the 48 index bits of a block
in a `usize`.

Simplification: the other block functions are taken over from the 64-bit model. They use `usize` only
for indices, bit positions and 16- or 32-bit index words, which are below `2 ^ 32` in both models.
-/

namespace Verif.Model

open Verif

variable [Build]

/-- `copy_block_buffer(bx, by, w, h, bw, bh, buffer, image)`: `src/color.rs:82-107`.
The same as
`copyBlockBuffer`, with 32-bit `usize`. -/
def copyBlockBuffer32 (bx by' w h bw bh : Nat) (buffer image : List UInt32) :
    Out (List UInt32) := do
  let x ← mulU 32 bw bx
  let bx1 ← addU 32 bx 1
  let right ← mulU 32 bw bx1
  let copyWidth ← (if right > w then subU 32 w x else pure bw)
  let y0 ← mulU 32 by' bh
  let by1 ← addU 32 by' 1
  let bottom ← mulU 32 bh by1
  let copyHeight ← (if bottom > h then subU 32 h y0 else pure bh)
  let yEnd ← addU 32 y0 copyHeight
  let (_, image) ← forRange (yEnd - y0) (fun i (s : Nat × List UInt32) => do
      let (bufferOffset, image) := s
      let y := y0 + i
      let row ← mulU 32 y w
      let imageOffset ← addU 32 row x
      let imageEnd ← addU 32 imageOffset copyWidth
      let bufferEnd ← addU 32 bufferOffset copyWidth
      let src ← slice buffer bufferOffset bufferEnd
      let image ← copyFromSlice image imageOffset imageEnd src
      let bufferOffset ← addU 32 bufferOffset bw
      pure (bufferOffset, image)) (0, image)
  pure image

/-- The body of a function generated by `block_decoder!`: `src/macros.rs:6-40`.
The same as
`blockDecoder`, with 32-bit `usize`. -/
def blockDecoder32 (bw bh raw : Nat) (f : BlockFn)
    (data : List UInt8) (width height : Nat) (image : List UInt32) :
    Out (Except String Unit × List UInt32) := do
  let nbx ← divCeil width bw
  let nby ← divCeil height bh
  let buffer := List.replicate (bw * bh) (color 0 0 0 255)
  let blocks ← mulU 32 nbx nby
  let need ← mulU 32 blocks raw
  if data.length < need then
    pure (.error "Not enough data to decode image!", image)
  else do
    let pixels ← mulU 32 width height
    if image.length < pixels then
      pure (.error "Image buffer is too small!", image)
    else do
      let (_, _, image) ← forRange nby (fun by' s =>
        forRange nbx (fun bx (s : List UInt32 × Nat × List UInt32) => do
          let (buffer, dataOffset, image) := s
          let block ← sliceFrom data dataOffset
          let buffer ← f block buffer
          let image ← copyBlockBuffer32 bx by' width height bw bh buffer image
          let dataOffset ← addU 32 dataOffset raw
          pure (buffer, dataOffset, image)) s) (buffer, 0, image)
      pure (.ok (), image)

/-- `decode_bc3_alpha(data, outbuf, channel)`: `src/bcn/bc3.rs:4-31`, where `as usize` in line 23 drops
the upper 16 of the 48 index bits. -/
def decodeBc3Alpha32 (channel : Nat) : BlockFn := fun data outbuf => do
  let a0 ← byte data 0
  let a1 ← byte data 1
  let a ← bc3Table a0 a1
  let bs ← slice data 0 8
  let d := asU 32 (fromLE (bytesOf bs) >>> 16)
  let (_, outbuf) ← forRange outbuf.length (fun i (s : Nat × List UInt32) => do
      let (d, outbuf) := s
      let v ← idx a (d &&& 7)
      let p ← idx outbuf i
      let outbuf ← setIdx outbuf i (setChannel channel v p)
      pure (d >>> 3, outbuf)) (d, outbuf)
  pure outbuf

/-- `decode_etc2_a8_block`: `src/etc/etc2.rs:311-332`, where `as usize` in line 317 drops the upper 32
bits. -/
def decodeEtc2A8Block32 : BlockFn := fun data outbuf => do
  let d0 ← byte data 0
  let d1 ← byte data 1
  if d1 &&& 0xf0 > 0 then do
    let multiplier : Int := ((d1 >>> 4 : Nat) : Int)
    let table ← idx etc2AlphaModTable (d1 &&& 0xf)
    let bs ← slice data 0 8
    let l := asU 32 (fromBE (bytesOf bs))
    let (_, outbuf) ← forRange 16 (fun i (s : Nat × List UInt32) => do
        let (l, outbuf) := s
        let t ← idx table (l &&& 7)
        let m ← mulI 32 multiplier t
        let a ← addI 32 d0 m
        let pos ← idx writeOrderTableRev i
        let p ← idx outbuf pos
        let outbuf ← setIdx outbuf pos (setAlpha (etcClamp a) p)
        pure (l >>> 3, outbuf)) (l, outbuf)
    pure outbuf
  else
    pure ((outbuf.take 16).map (setAlpha d0) ++ outbuf.drop 16)

/-- The common part of `decode_eac_block` and `decode_eac_signed_block`: `src/etc/eac.rs:6-25`, `30-49`,
where `as usize` in lines 11 and 35 drops the upper 32 bits. -/
def eacCore32 (base bias : Int) (data : List UInt8) (channel : Nat) (outbuf : List UInt32) :
    Out (List UInt32) := do
  let d1 ← byte data 1
  let multiplier := d1 >>> 1 &&& 0x78
  let multiplier := if multiplier = 0 then 1 else multiplier
  let table ← idx etc2AlphaModTable (d1 &&& 0xf)
  let bs ← slice data 0 8
  let l := asU 32 (fromLE (bytesOf bs))
  let (_, outbuf) ← forRange 16 (fun i (s : Nat × List UInt32) => do
      let (l, outbuf) := s
      let b8 ← mulI 32 base 8
      let t ← idx table (l &&& 7)
      let m ← mulI 32 multiplier t
      let v ← addI 32 b8 m
      let val ← addI 32 v bias
      let block ← setIdx [0, 0, 0, 0] channel (eacClamp val)
      let pos ← idx writeOrderTableRev i
      let p ← idx outbuf pos
      let outbuf ← setIdx outbuf pos (p ||| UInt32.ofNat (fromLE block))
      pure (l >>> 3, outbuf)) (l, outbuf)
  pure outbuf

/-- `decode_bc3_block`: `src/bcn/bc3.rs:34-37` -/
def decodeBc3Block32 : BlockFn := fun data outbuf => do
  let d ← sliceFrom data 8
  let outbuf ← decodeBc1Block d outbuf
  decodeBc3Alpha32 3 data outbuf

/-- `decode_bc4_block`: `src/bcn/bc4.rs:4-6` -/
def decodeBc4Block32 : BlockFn := decodeBc3Alpha32 2

/-- `decode_bc5_block`: `src/bcn/bc5.rs:4-7` -/
def decodeBc5Block32 : BlockFn := fun data outbuf => do
  let outbuf ← decodeBc3Alpha32 2 data outbuf
  let d ← sliceFrom data 8
  decodeBc3Alpha32 1 d outbuf

/-- `decode_atc_rgba8_block`: `src/atc.rs:84-87` -/
def decodeAtcRgba8Block32 : BlockFn := fun data outbuf => do
  let d ← sliceFrom data 8
  let outbuf ← decodeAtcRgb4Block d outbuf
  decodeBc3Alpha32 3 data outbuf

/-- `decode_etc2_rgba8_block`: `src/etc/etc2.rs:335-338` -/
def decodeEtc2Rgba8Block32 : BlockFn := fun data outbuf => do
  let d ← sliceFrom data 8
  let outbuf ← decodeEtc2RgbBlock d outbuf
  decodeEtc2A8Block32 data outbuf

/-- `decode_eac_block(data, color, outbuf)`: `src/etc/eac.rs:5-25` -/
def decodeEacBlock32 (data : List UInt8) (channel : Nat) (outbuf : List UInt32) :
    Out (List UInt32) := do
  let d0 ← byte data 0
  eacCore32 d0 4 data channel outbuf

/-- `decode_eac_signed_block(data, color, outbuf)`: `src/etc/eac.rs:28-49` -/
def decodeEacSignedBlock32 (data : List UInt8) (channel : Nat) (outbuf : List UInt32) :
    Out (List UInt32) := do
  let d0 ← byte data 0
  eacCore32 (asI 8 d0) 1023 data channel outbuf

/-- `decode_eacr_block`: `src/etc/eac.rs:52-55` -/
def decodeEacrBlock32 : BlockFn := fun data outbuf => do
  let outbuf ← fillRange outbuf 0 16 (color 0 0 0 255)
  decodeEacBlock32 data 2 outbuf

/-- `decode_eacr_signed_block`: `src/etc/eac.rs:58-61` -/
def decodeEacrSignedBlock32 : BlockFn := fun data outbuf => do
  let outbuf ← fillRange outbuf 0 16 (color 0 0 0 255)
  decodeEacSignedBlock32 data 2 outbuf

/-- `decode_eacrg_block`: `src/etc/eac.rs:64-68` -/
def decodeEacrgBlock32 : BlockFn := fun data outbuf => do
  let outbuf ← fillRange outbuf 0 16 (color 0 0 0 255)
  let outbuf ← decodeEacBlock32 data 2 outbuf
  let d ← sliceFrom data 8
  decodeEacBlock32 d 1 outbuf

/-- `decode_eacrg_signed_block`: `src/etc/eac.rs:71-75` -/
def decodeEacrgSignedBlock32 : BlockFn := fun data outbuf => do
  let outbuf ← fillRange outbuf 0 16 (color 0 0 0 255)
  let outbuf ← decodeEacSignedBlock32 data 2 outbuf
  let d ← sliceFrom data 8
  decodeEacSignedBlock32 d 1 outbuf

end Verif.Model
