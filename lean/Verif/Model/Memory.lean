import Verif.Model.Bcn
import Verif.Model.Astc
import Verif.Model.Pvrtc
import Verif.Model.Crunch
import Verif.Model.UnityCrunch

/-!
# The decoders as programs that write to memory

The other modules model a decoder as a function from the old image to the new one; when it panics,
nothing is said about the image. Here the same functions are modelled as programs that change the
caller's image step by step and record which elements they write, so that one can also speak about
the image a panic leaves behind. `Proofs/Memory.lean` shows that both models agree.

The image is written in one place only, in `copy_block_buffer`, and never read.
-/

namespace Verif.Model

open Verif

/-- The caller's image (the `image` of `src/color.rs:91`), and the ranges `image[a..b]` that were written
so far. -/
structure Mem where
  image : List UInt32
  writes : List (Nat × Nat)

/-- A program that works on the caller's image, such as `src/color.rs:82-107`. It leaves a memory behind even if it panics. -/
def Run (α : Type) : Type := Mem → Mem × Out α

namespace Run

/-- Sequencing of the statements of `src/macros.rs:6-40` and others: a panic aborts the rest and leaves the memory as it is then. -/
def bind {α β : Type} (x : Run α) (f : α → Run β) : Run β := fun m =>
  match x m with
  | (m, .ok a) => f a m
  | (m, .panic) => (m, .panic)

instance : Monad Run where
  pure a := fun m => (m, .ok a)
  bind := bind

/-- Code that does not touch the image, such as `src/macros.rs:10-12`. -/
def lift {α : Type} (x : Out α) : Run α := fun m => (m, x)

/-- `image.len()`, as in `src/macros.rs:18`. -/
def size : Run Nat := fun m => (m, .ok m.image.length)

/-- `image[a..b].copy_from_slice(src)`: `src/color.rs:102-103`. -/
def write (a b : Nat) (src : List UInt32) : Run Unit := fun m =>
  match copyFromSlice m.image a b src with
  | .ok image => (⟨image, m.writes ++ [(a, b)]⟩, .ok ())
  | .panic => (m, .panic)

/-- `for i in 0..n { s = f(i, s) }`, as in `src/macros.rs:23`. -/
def forRange {σ : Type} (n : Nat) (f : Nat → σ → Run σ) (s : σ) : Run σ :=
  match n with
  | 0 => pure s
  | n + 1 => forRange n f s >>= f n

end Run

variable [Build]

/-- `copy_block_buffer(bx, by, w, h, bw, bh, buffer, image)`: `src/color.rs:82-107`. The loop state
is `buffer_offset`. -/
def copyBlockBufferR (bx by' w h bw bh : Nat) (buffer : List UInt32) : Run Unit := do
  let x ← Run.lift (mulU 64 bw bx)
  let bx1 ← Run.lift (addU 64 bx 1)
  let right ← Run.lift (mulU 64 bw bx1)
  let copyWidth ← Run.lift (if right > w then subU 64 w x else pure bw)
  let y0 ← Run.lift (mulU 64 by' bh)
  let by1 ← Run.lift (addU 64 by' 1)
  let bottom ← Run.lift (mulU 64 bh by1)
  let copyHeight ← Run.lift (if bottom > h then subU 64 h y0 else pure bh)
  let yEnd ← Run.lift (addU 64 y0 copyHeight)
  let _ ← Run.forRange (yEnd - y0) (fun i bufferOffset => do
      let row ← Run.lift (mulU 64 (y0 + i) w)
      let imageOffset ← Run.lift (addU 64 row x)
      let imageEnd ← Run.lift (addU 64 imageOffset copyWidth)
      let bufferEnd ← Run.lift (addU 64 bufferOffset copyWidth)
      let src ← Run.lift (slice buffer bufferOffset bufferEnd)
      let _ ← Run.write imageOffset imageEnd src
      Run.lift (addU 64 bufferOffset bw)) 0
  pure ()

/-- The body of a function generated by `block_decoder!`: `src/macros.rs:6-40`. The loop state is
(`buffer`, `data_offset`). -/
def blockDecoderR (bw bh raw : Nat) (f : BlockFn) (data : List UInt8) (width height : Nat) :
    Run (Except String Unit) := do
  let nbx ← Run.lift (divCeil width bw)
  let nby ← Run.lift (divCeil height bh)
  let blocks ← Run.lift (mulU 64 nbx nby)
  let need ← Run.lift (mulU 64 blocks raw)
  if data.length < need then pure (.error "Not enough data to decode image!")
  else do
    let pixels ← Run.lift (mulU 64 width height)
    let len ← Run.size
    if len < pixels then pure (.error "Image buffer is too small!")
    else do
      let _ ← Run.forRange nby (fun by' s =>
        Run.forRange nbx (fun bx (s : List UInt32 × Nat) => do
          let block ← Run.lift (sliceFrom data s.2)
          let buffer ← Run.lift (f block s.1)
          let _ ← copyBlockBufferR bx by' width height bw bh buffer
          let dataOffset ← Run.lift (addU 64 s.2 raw)
          pure (buffer, dataOffset)) s) (List.replicate (bw * bh) (color 0 0 0 255), 0)
      pure (.ok ())

/-- `decode_astc(data, width, height, block_width, block_height, image)`: `src/astc.rs:1774-1818`.
The loop state is (`buffer`, `data_offset`). -/
def decodeAstcR (data : List UInt8) (width height bw bh : Nat) : Run (Except String Unit) := do
  let nbx ← Run.lift (divCeil width bw)
  let nby ← Run.lift (divCeil height bh)
  let blocks ← Run.lift (mulU 64 nbx nby)
  let need ← Run.lift (mulU 64 blocks 16)
  if data.length < need then pure (.error "Not enough data to decode image!")
  else do
    let pixels ← Run.lift (mulU 64 width height)
    let len ← Run.size
    if len < pixels then pure (.error "Image buffer is too small!")
    else do
      let size ← Run.lift (mulU 64 bw bh)
      if size > 144 then pure (.error "Block size is too big!")
      else do
        let _ ← Run.forRange nby (fun by' s =>
          Run.forRange nbx (fun bx (s : List UInt32 × Nat) => do
            let block ← Run.lift (sliceFrom data s.2)
            let buffer ← Run.lift (decodeAstcBlock block bw bh s.1)
            let _ ← copyBlockBufferR bx by' width height bw bh buffer
            let dataOffset ← Run.lift (addU 64 s.2 16)
            pure (buffer, dataOffset)) s) (List.replicate 144 0, 0)
        pure (.ok ())

/-- `decode_pvrtc(data, width, height, image, is2bpp)`: `src/pvrtc.rs:371-451`. The loop state is
(`local_info`, `buffer`). -/
def decodePvrtcR (is2 : Bool) (data : List UInt8) (width height : Nat) :
    Run (Except String Unit) := do
  let bw := if is2 then 8 else 4
  let nbx ← Run.lift (divCeil width bw)
  let nby ← Run.lift (divCeil height 4)
  let n ← Run.lift (mulU 64 nbx nby)
  let minDim := min nbx nby
  let need ← Run.lift (mulU 64 n bw)
  if data.length < need then pure (.error "The data buffer is too small!")
  else do
    let pixels ← Run.lift (mulU 64 width height)
    let len ← Run.size
    if len < pixels then pure (.error "The image buffer is too small!")
    else do
      let badX ← Run.lift (pvNotPow2 nbx)
      let bad ← Run.lift (if badX then pure true else pvNotPow2 nby)
      if bad then pure (.error "The number of blocks of each side must be a power of 2!")
      else do
        let infos ← Run.lift (pvInfos is2 data n)
        let _ ← Run.forRange nby (fun by' s => do
          let posY ← Run.lift (pvPos by' nby)
          Run.forRange nbx (fun bx (s : List PvInfo × List UInt32) => do
            let posX ← Run.lift (pvPos bx nbx)
            let loc ← Run.lift (pvLocal infos posX posY minDim s.1)
            let m ← Run.lift (mortonIndex bx by' minDim)
            let m8 ← Run.lift (mulU 64 m 8)
            let _ ← Run.lift (sliceFrom data m8)
            let buffer ← Run.lift (if is2 then applicateColor2 loc s.2 else applicateColor4 loc s.2)
            let _ ← copyBlockBufferR bx by' width height bw 4 buffer
            pure (loc, buffer)) s) (List.replicate 9 PvInfo.zero, List.replicate 32 0)
        pure (.ok ())

/-- `decode_crunch(data, width, height, image)`: `src/crunch.rs:45-68` -/
def decodeCrunchR (data : List UInt8) (width height : Nat) : Run (Except String Unit) :=
  match Crn.crunchUnpackLevel data (asU 32 data.length) 0 with
  | .panic => Run.lift .panic
  | .fail msg => pure (.error msg)
  | .ok h =>
    match h.format with
    | .dxt1 => blockDecoderR 4 4 8 decodeBc1Block h.dxtData width height
    | .dxt5 | .dxt5CcxY | .dxt5XGbr | .dxt5Agbr | .dxt5XGxR =>
      blockDecoderR 4 4 16 decodeBc3Block h.dxtData width height
    | .dxt5a => blockDecoderR 4 4 8 decodeBc4Block h.dxtData width height
    | .dxnXy | .dxnYx => blockDecoderR 4 4 16 decodeBc5Block h.dxtData width height
    | _ => pure (.error "Invalid crunch format.")

/-- `decode_unity_crunch(data, width, height, image)`: `src/unitycrunch.rs:36-68` -/
def decodeUnityCrunchR (data : List UInt8) (width height : Nat) : Run (Except String Unit) :=
  match Crn.Unity.unityCrunchUnpackLevel data (asU 32 data.length) 0 with
  | .panic => Run.lift .panic
  | .fail msg => pure (.error msg)
  | .ok h =>
    match h.format with
    | .dxt1 => blockDecoderR 4 4 8 decodeBc1Block h.dxtData width height
    | .etc1 | .etc1s => blockDecoderR 4 4 8 decodeEtc1Block h.dxtData width height
    | .dxt5 | .dxt5CcxY | .dxt5XGbr | .dxt5Agbr | .dxt5XGxR =>
      blockDecoderR 4 4 16 decodeBc3Block h.dxtData width height
    | .dxt5a => blockDecoderR 4 4 8 decodeBc4Block h.dxtData width height
    | .dxnXy | .dxnYx => blockDecoderR 4 4 16 decodeBc5Block h.dxtData width height
    | .etc2 => blockDecoderR 4 4 8 decodeEtc2RgbBlock h.dxtData width height
    | .etc2a | .etc2as => blockDecoderR 4 4 16 decodeEtc2Rgba8Block h.dxtData width height
    | _ => pure (.error "Invalid crunch format.")

end Verif.Model
