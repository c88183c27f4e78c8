import Verif.Rust

/-!
# Model of `src/color.rs` and of the whole-image driver `block_decoder!` (`src/macros.rs`)
-/

namespace Verif.Model

open Verif

/-- `color(r, g, b, a)`: `src/color.rs:25-28`. The arguments are `u8` values. -/
def color (r g b a : Nat) : UInt32 := UInt32.ofNat (fromLE [b, g, r, a])

/-- `rgb565_le(d)`: `src/color.rs:43-50`. `d` is a `u16` value. -/
def rgb565_le (d : Nat) : Nat × Nat × Nat :=
  ( asU 8 ((d >>> 8) &&& 0xf8) ||| asU 8 (d >>> 13),
    asU 8 ((d >>> 3) &&& 0xfc) ||| asU 8 ((d >>> 9) &&& 3),
    asU 8 (asU 16 (d <<< 3)) ||| asU 8 ((d >>> 2) &&& 7) )

variable [Build]

/-- `copy_block_buffer(bx, by, w, h, bw, bh, buffer, image)`: `src/color.rs:82-107`.
The loop state is (`buffer_offset`, `image`). -/
def copyBlockBuffer (bx by' w h bw bh : Nat) (buffer image : List UInt32) :
    Out (List UInt32) := do
  let x ← mulU 64 bw bx
  let bx1 ← addU 64 bx 1
  let right ← mulU 64 bw bx1
  let copyWidth ← (if right > w then subU 64 w x else pure bw)
  let y0 ← mulU 64 by' bh
  let by1 ← addU 64 by' 1
  let bottom ← mulU 64 bh by1
  let copyHeight ← (if bottom > h then subU 64 h y0 else pure bh)
  let yEnd ← addU 64 y0 copyHeight
  let (_, image) ← forRange (yEnd - y0) (fun i (s : Nat × List UInt32) => do
      let (bufferOffset, image) := s
      let y := y0 + i
      let row ← mulU 64 y w
      let imageOffset ← addU 64 row x
      let imageEnd ← addU 64 imageOffset copyWidth
      let bufferEnd ← addU 64 bufferOffset copyWidth
      let src ← slice buffer bufferOffset bufferEnd
      let image ← copyFromSlice image imageOffset imageEnd src
      let bufferOffset ← addU 64 bufferOffset bw
      pure (bufferOffset, image)) (0, image)
  pure image

/-- A block decoding function `fn(data: &[u8], outbuf: &mut [u32])`: what `block_decoder!` is given,
`src/macros.rs:3`. -/
abbrev BlockFn := List UInt8 → List UInt32 → Out (List UInt32)

/-- The body of a function generated by `block_decoder!`: `src/macros.rs:6-40`.
Returns the `Result` together with the final contents of `image`.
The loop state is (`buffer`, `data_offset`, `image`). -/
def blockDecoder (bw bh raw : Nat) (f : BlockFn)
    (data : List UInt8) (width height : Nat) (image : List UInt32) :
    Out (Except String Unit × List UInt32) := do
  let nbx ← divCeil width bw
  let nby ← divCeil height bh
  let buffer := List.replicate (bw * bh) (color 0 0 0 255)
  let blocks ← mulU 64 nbx nby
  let need ← mulU 64 blocks raw
  if data.length < need then
    pure (.error "Not enough data to decode image!", image)
  else do
    let pixels ← mulU 64 width height
    if image.length < pixels then
      pure (.error "Image buffer is too small!", image)
    else do
      let (_, _, image) ← forRange nby (fun by' s =>
        forRange nbx (fun bx (s : List UInt32 × Nat × List UInt32) => do
          let (buffer, dataOffset, image) := s
          let block ← sliceFrom data dataOffset
          let buffer ← f block buffer
          let image ← copyBlockBuffer bx by' width height bw bh buffer image
          let dataOffset ← addU 64 dataOffset raw
          pure (buffer, dataOffset, image)) s) (buffer, 0, image)
      pure (.ok (), image)

end Verif.Model
