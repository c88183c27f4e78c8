import Verif.Model.Target32
import Verif.Model.Pvrtc
import Verif.Model.Astc
import Verif.Model.Crunch
import Verif.Model.UnityCrunch

/-!
# PVRTC, ASTC and Crunch on targets with a 32-bit `usize`

The whole-image functions of `src/pvrtc.rs` and `src/astc.rs`, with 32-bit sizes and indices.

Simplifications: the functions that work within one block are taken over from the 64-bit model. In
`src/pvrtc.rs` their `usize` values are a 32-bit word of modulation bits, which is only shifted to the
right, and indices of arrays of at most 32 elements. In `src/astc.rs` they are indices, bit positions
and counts of at most 144 weights; in blocks that are not legal ASTC they may wrap around, so the model
is for legal blocks only. `Vec::with_capacity(num_blocks)` in `decode_pvrtc` is not
modelled: `texel_info` takes 44 bytes per block, and more than `2^31 - 1` bytes cannot be allocated on
such a target. The unpacking of Crunch files is taken over as well: its `usize` values are positions in
the file, in the tables and in the unpacked data, so the model is for files that keep to the format and
whose data fits in the address space.
-/

namespace Verif.Model

open Verif

variable [Build]

/-- The loop `while mask < min_dim` of `morton_index`: `src/pvrtc.rs:69-73`. It stops within 32
iterations unless `min_dim > 2^31`, when it runs forever or panics; the fuel is 64 and running out of
it is a panic. The state is (`offset`, `shift`, `mask`). -/
def mortonLoop32 (x y minDim : Nat) : Nat → Nat × Nat × Nat → Out (Nat × Nat × Nat)
  | 0, _ => .panic
  | fuel + 1, (offset, shift, mask) =>
    if mask < minDim then do
      let xs ← shlU 32 (x &&& mask) 1
      let v ← shlU 32 ((y &&& mask) ||| xs) shift
      let mask ← shlU 32 mask 1
      let shift ← addU 32 shift 1
      mortonLoop32 x y minDim fuel (offset ||| v, shift, mask)
    else pure (offset, shift, mask)

/-- `morton_index(x, y, min_dim)`: `src/pvrtc.rs:65-76` -/
def mortonIndex32 (x y minDim : Nat) : Out Nat := do
  let (offset, shift, _) ← mortonLoop32 x y minDim 64 (0, 0, 1)
  let hi ← shrU 32 (x ||| y) shift
  let s2 ← mulU 32 shift 2
  let hi ← shlU 32 hi s2
  pure (offset ||| hi)

/-- The test `(n & (n - 1)) != 0`: `src/pvrtc.rs:394` -/
def pvNotPow2_32 (n : Nat) : Out Bool := do
  let m ← subU 32 n 1
  pure (decide (n &&& m ≠ 0))

/-- The loop filling `texel_info`: `src/pvrtc.rs:398-399`, `412-417`. The state is (`data_offset`,
the infos so far). -/
def pvInfos32 (is2 : Bool) (data : List UInt8) (n : Nat) : Out (List PvInfo) := do
  let (_, infos) ← forRange n (fun _ (s : Nat × List PvInfo) => do
      let (dataOffset, infos) := s
      let d ← sliceFrom data dataOffset
      let info ← getTexelColors d PvInfo.zero
      let d ← sliceFrom data dataOffset
      let info ← (if is2 then getTexelWeights2 d info else getTexelWeights4 d info)
      let dataOffset ← addU 32 dataOffset 8
      pure (dataOffset, infos ++ [info])) (0, [])
  pure infos

/-- The positions of the neighbours of block `b` among `n`: `src/pvrtc.rs:425-427`, `430-432`. -/
def pvPos32 (b n : Nat) : Out (List Nat) := do
  let m ← (if b = 0 then subU 32 n 1 else subU 32 b 1)
  let last ← subU 32 n 1
  let p ← (if b = last then pure 0 else addU 32 b 1)
  pure [m, b, p]

/-- The loops filling `local_info`: `src/pvrtc.rs:434-440`. The state is (`c`, `local_info`). -/
def pvLocal32 (infos : List PvInfo) (posX posY : List Nat) (minDim : Nat) (loc : List PvInfo) :
    Out (List PvInfo) := do
  let (_, loc) ← forRange 3 (fun cy s =>
    forRange 3 (fun cx (s : Nat × List PvInfo) => do
      let (c, loc) := s
      let px ← idx posX cx
      let py ← idx posY cy
      let m ← mortonIndex32 px py minDim
      let info ← idx infos m
      let loc ← setIdx loc c info
      let c ← addU 32 c 1
      pure (c, loc)) s) (0, loc)
  pure loc

/-- `decode_pvrtc(data, width, height, image, is2bpp)`: `src/pvrtc.rs:371-451`. The arrays `pos_x`
and `pos_y` are overwritten completely before every use and are local variables here; the loop
state is (`local_info`, `buffer`, `image`). -/
def decodePvrtc32 (data : List UInt8) (width height : Nat) (image : List UInt32) (is2 : Bool) :
    Out (Except String Unit × List UInt32) := do
  let bw := if is2 then 8 else 4
  let nbx ← divCeil width bw
  let nby ← divCeil height 4
  let n ← mulU 32 nbx nby
  let minDim := min nbx nby
  let need ← mulU 32 n bw
  if data.length < need then pure (.error "The data buffer is too small!", image)
  else do
    let pixels ← mulU 32 width height
    if image.length < pixels then pure (.error "The image buffer is too small!", image)
    else do
      let badX ← pvNotPow2_32 nbx
      let bad ← (if badX then pure true else pvNotPow2_32 nby)
      if bad then
        pure (.error "The number of blocks of each side must be a power of 2!", image)
      else do
        let infos ← pvInfos32 is2 data n
        let (_, _, image) ← forRange nby (fun by' s => do
          let posY ← pvPos32 by' nby
          forRange nbx (fun bx (s : List PvInfo × List UInt32 × List UInt32) => do
            let (loc, buffer, image) := s
            let posX ← pvPos32 bx nbx
            let loc ← pvLocal32 infos posX posY minDim loc
            let m ← mortonIndex32 bx by' minDim
            let m8 ← mulU 32 m 8
            let _ ← sliceFrom data m8
            let buffer ← (if is2 then applicateColor2 loc buffer else applicateColor4 loc buffer)
            let image ← copyBlockBuffer32 bx by' width height bw 4 buffer image
            pure (loc, buffer, image)) s)
          (List.replicate 9 PvInfo.zero, List.replicate 32 0, image)
        pure (.ok (), image)

/-- `decode_astc(data, width, height, block_width, block_height, image)`: `src/astc.rs:1774-1818`.
The loop state is (`buffer`, `data_offset`, `image`). -/
def decodeAstc32 (data : List UInt8) (width height bw bh : Nat) (image : List UInt32) :
    Out (Except String Unit × List UInt32) := do
  let nbx ← divCeil width bw
  let nby ← divCeil height bh
  let buffer : List UInt32 := List.replicate 144 0
  let blocks ← mulU 32 nbx nby
  let need ← mulU 32 blocks 16
  if data.length < need then
    pure (.error "Not enough data to decode image!", image)
  else do
    let pixels ← mulU 32 width height
    if image.length < pixels then
      pure (.error "Image buffer is too small!", image)
    else do
      let size ← mulU 32 bw bh
      if size > 144 then pure (.error "Block size is too big!", image)
      else do
        let (_, _, image) ← forRange nby (fun by' s =>
          forRange nbx (fun bx (s : List UInt32 × Nat × List UInt32) => do
            let (buffer, dataOffset, image) := s
            let block ← sliceFrom data dataOffset
            let buffer ← decodeAstcBlock block bw bh buffer
            let image ← copyBlockBuffer32 bx by' width height bw bh buffer image
            let dataOffset ← addU 32 dataOffset 16
            pure (buffer, dataOffset, image)) s) (buffer, 0, image)
        pure (.ok (), image)

/-- `decode_crunch(data, width, height, image)`: `src/crunch.rs:45-68` -/
def decodeCrunch32 (data : List UInt8) (width height : Nat) (image : List UInt32) :
    Out (Except String Unit × List UInt32) :=
  match Crn.crunchUnpackLevel data (asU 32 data.length) 0 with
  | .panic => .panic
  | .fail msg => .ok (.error msg, image)
  | .ok h =>
    match h.format with
    | .dxt1 => blockDecoder32 4 4 8 decodeBc1Block h.dxtData width height image
    | .dxt5 | .dxt5CcxY | .dxt5XGbr | .dxt5Agbr | .dxt5XGxR =>
      blockDecoder32 4 4 16 decodeBc3Block32 h.dxtData width height image
    | .dxt5a => blockDecoder32 4 4 8 decodeBc4Block32 h.dxtData width height image
    | .dxnXy | .dxnYx => blockDecoder32 4 4 16 decodeBc5Block32 h.dxtData width height image
    | _ => .ok (.error "Invalid crunch format.", image)

/-- `decode_unity_crunch(data, width, height, image)`: `src/unitycrunch.rs:36-68` -/
def decodeUnityCrunch32 (data : List UInt8) (width height : Nat) (image : List UInt32) :
    Out (Except String Unit × List UInt32) :=
  match Crn.Unity.unityCrunchUnpackLevel data (asU 32 data.length) 0 with
  | .panic => .panic
  | .fail msg => .ok (.error msg, image)
  | .ok h =>
    match h.format with
    | .dxt1 => blockDecoder32 4 4 8 decodeBc1Block h.dxtData width height image
    | .etc1 | .etc1s => blockDecoder32 4 4 8 decodeEtc1Block h.dxtData width height image
    | .dxt5 | .dxt5CcxY | .dxt5XGbr | .dxt5Agbr | .dxt5XGxR =>
      blockDecoder32 4 4 16 decodeBc3Block32 h.dxtData width height image
    | .dxt5a => blockDecoder32 4 4 8 decodeBc4Block32 h.dxtData width height image
    | .dxnXy | .dxnYx => blockDecoder32 4 4 16 decodeBc5Block32 h.dxtData width height image
    | .etc2 => blockDecoder32 4 4 8 decodeEtc2RgbBlock h.dxtData width height image
    | .etc2a | .etc2as => blockDecoder32 4 4 16 decodeEtc2Rgba8Block32 h.dxtData width height image
    | _ => .ok (.error "Invalid crunch format.", image)

end Verif.Model
