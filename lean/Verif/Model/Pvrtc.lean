import Verif.Model.Image

/-!
# Model of PVRTC (`src/pvrtc.rs`), with the feature `alloc`

`usize` has 64 bits.
-/

namespace Verif.Model

open Verif

/-- `PVRTCTexelColor`: `src/pvrtc.rs:4-21` -/
structure PvColor where
  r : Nat
  g : Nat
  b : Nat
  a : Nat

/-- `PVRTCTexelColorInt`: `src/pvrtc.rs:23-40` -/
structure PvColorInt where
  r : Int
  g : Int
  b : Int
  a : Int

/-- `PVRTCTexelInfo`: `src/pvrtc.rs:42-59` -/
structure PvInfo where
  a : PvColor
  b : PvColor
  weight : List Int
  punchThrough : Nat

/-- `PVRTCTexelColorInt::default()`: `src/pvrtc.rs:31-40` -/
def PvColorInt.zero : PvColorInt := ⟨0, 0, 0, 0⟩
/-- `PVRTCTexelInfo::default()`: `src/pvrtc.rs:50-59` -/
def PvInfo.zero : PvInfo := ⟨⟨0, 0, 0, 0⟩, ⟨0, 0, 0, 0⟩, List.replicate 32 0, 0⟩

/-- `PVRTC1_STANDARD_WEIGHT`: `src/pvrtc.rs:61` -/
def pvStandardWeight : List Int := [0, 3, 5, 8]
/-- `PVRTC1_PUNCHTHROUGH_WEIGHT`: `src/pvrtc.rs:62` -/
def pvPunchWeight : List Int := [0, 4, 4, 8]

/-- `INTERP_WEIGHT` and `INTERP_WEIGHT_Y`: `src/pvrtc.rs:190`, `255` -/
def pvInterp4 : List (List Int) := [[2, 2, 0], [1, 3, 0], [0, 4, 0], [0, 3, 1]]
/-- `INTERP_WEIGHT_X`: `src/pvrtc.rs:245-254` -/
def pvInterp8 : List (List Int) :=
  [[4, 4, 0], [3, 5, 0], [2, 6, 0], [1, 7, 0], [0, 8, 0], [0, 7, 1], [0, 6, 2], [0, 5, 3]]

/-- `POSYA`: `src/pvrtc.rs:291` -/
def pvPosYA : List (Int × Int) := [(1, 24), (4, -8), (4, -8), (4, -8)]
/-- `POSYB`: `src/pvrtc.rs:292` -/
def pvPosYB : List (Int × Int) := [(4, 8), (4, 8), (4, 8), (7, -24)]
/-- `POSXL`: `src/pvrtc.rs:293-302` -/
def pvPosXL : List (Int × Int) :=
  [(3, 7), (4, -1), (4, -1), (4, -1), (4, -1), (4, -1), (4, -1), (4, -1)]
/-- `POSXR`: `src/pvrtc.rs:303-312` -/
def pvPosXR : List (Int × Int) :=
  [(4, 1), (4, 1), (4, 1), (4, 1), (4, 1), (4, 1), (4, 1), (5, -7)]

variable [Build]

/-- The loop `while mask < min_dim` of `morton_index`: `src/pvrtc.rs:69-73`. It stops within 64
iterations unless `min_dim > 2^63`; the fuel is 64 and running out of it is a panic. The state is
(`offset`, `shift`, `mask`). -/
def mortonLoop (x y minDim : Nat) : Nat → Nat × Nat × Nat → Out (Nat × Nat × Nat)
  | 0, _ => .panic
  | fuel + 1, (offset, shift, mask) =>
    if mask < minDim then do
      let xs ← shlU 64 (x &&& mask) 1
      let v ← shlU 64 ((y &&& mask) ||| xs) shift
      let mask ← shlU 64 mask 1
      let shift ← addU 64 shift 1
      mortonLoop x y minDim fuel (offset ||| v, shift, mask)
    else pure (offset, shift, mask)

/-- `morton_index(x, y, min_dim)`: `src/pvrtc.rs:65-76` -/
def mortonIndex (x y minDim : Nat) : Out Nat := do
  let (offset, shift, _) ← mortonLoop x y minDim 64 (0, 0, 1)
  let hi ← shrU 64 (x ||| y) shift
  let s2 ← mulU 64 shift 2
  let hi ← shlU 64 hi s2
  pure (offset ||| hi)

/-- The first colour of `get_texel_colors`: `src/pvrtc.rs:79`, `81-91` -/
def pvColorA (ca : Nat) : PvColor :=
  if ca &&& 0x8000 ≠ 0 then
    ⟨asU 8 (ca >>> 10 &&& 0x1f), asU 8 (ca >>> 5 &&& 0x1f), asU 8 ((ca &&& 0x1e) ||| (ca >>> 4 &&& 1)),
      0xf⟩
  else
    ⟨asU 8 ((ca >>> 7 &&& 0x1e) ||| (ca >>> 11 &&& 1)), asU 8 ((ca >>> 3 &&& 0x1e) ||| (ca >>> 7 &&& 1)),
      asU 8 ((asU 16 (ca <<< 1) &&& 0x1c) ||| (ca >>> 2 &&& 3)), asU 8 (ca >>> 11 &&& 0xe)⟩

/-- The second colour of `get_texel_colors`: `src/pvrtc.rs:80`, `92-102` -/
def pvColorB (cb : Nat) : PvColor :=
  if cb &&& 0x8000 ≠ 0 then
    ⟨asU 8 (cb >>> 10 &&& 0x1f), asU 8 (cb >>> 5 &&& 0x1f), asU 8 (cb &&& 0x1f), 0xf⟩
  else
    ⟨asU 8 ((cb >>> 7 &&& 0x1e) ||| (cb >>> 11 &&& 1)), asU 8 ((cb >>> 3 &&& 0x1e) ||| (cb >>> 7 &&& 1)),
      asU 8 ((asU 16 (cb <<< 1) &&& 0x1e) ||| (cb >>> 3 &&& 1)), asU 8 (cb >>> 11 &&& 0xe)⟩

/-- `get_texel_colors(data, info)`: `src/pvrtc.rs:78-103` -/
def getTexelColors (data : List UInt8) (info : PvInfo) : Out PvInfo := do
  let ba ← slice data 4 6
  let bb ← slice data 6 8
  pure { info with a := pvColorA (fromLE (bytesOf ba)), b := pvColorB (fromLE (bytesOf bb)) }

/-- `get_texel_weights_4bpp(data, info)`: `src/pvrtc.rs:105-125`. The loop states are
(`mod_bits`, `weight`, `punch_through_flag`) and (`mod_bits`, `weight`). -/
def getTexelWeights4 (data : List UInt8) (info : PvInfo) : Out PvInfo := do
  let d4 ← byte data 4
  let bs ← slice data 0 4
  let modBits := fromLE (bytesOf bs)
  if d4 &&& 1 ≠ 0 then do
    let (_, weight, flag) ← forRange 16 (fun i (s : Nat × List Int × Nat) => do
        let (modBits, weight, flag) := s
        let v ← idx pvPunchWeight (modBits &&& 3)
        let weight ← setIdx weight i v
        let flag ← (if modBits &&& 3 = 2 then do
            let bit ← shlU 32 1 i
            pure (flag ||| bit)
          else pure flag)
        pure (modBits >>> 2, weight, flag)) (modBits, info.weight, 0)
    pure { info with weight := weight, punchThrough := flag }
  else do
    let (_, weight) ← forRange 16 (fun i (s : Nat × List Int) => do
        let (modBits, weight) := s
        let v ← idx pvStandardWeight (modBits &&& 3)
        let weight ← setIdx weight i v
        pure (modBits >>> 2, weight)) (modBits, info.weight)
    pure { info with weight := weight, punchThrough := 0 }

/-- The value of `fillflag`: `src/pvrtc.rs:134-142` -/
def pvFillFlag (d0 d2 : Nat) : Int :=
  if d0 &&& 1 ≠ 0 then (if d2 &&& 0x10 ≠ 0 then -1 else -2) else -3

/-- The first loops of the interpolated mode: `src/pvrtc.rs:144-155`. The state is (`i`, `weight`). -/
def pvFill (flag : Int) (weight : List Int) : Out (List Int) := do
  let (_, weight) ← forRange 4 (fun y (s : Nat × List Int) => do
      let (i, weight) := s
      let i ← (if y &&& 1 = 0 then addU 64 i 1 else subU 64 i 1)
      forRange 4 (fun _ (s : Nat × List Int) => do
        let (i, weight) := s
        let weight ← setIdx weight i flag
        let i ← addU 64 i 2
        pure (i, weight)) (i, weight)) (0, weight)
  pure weight

/-- The second loops of the interpolated mode: `src/pvrtc.rs:157-169`. The state is
(`i`, `mod_bits`, `weight`). -/
def pvStore (modBits : Nat) (weight : List Int) : Out (List Int) := do
  let (_, _, weight) ← forRange 4 (fun y (s : Nat × Nat × List Int) => do
      let (i, modBits, weight) := s
      let i ← (if y &&& 1 = 0 then subU 64 i 1 else addU 64 i 1)
      forRange 4 (fun _ (s : Nat × Nat × List Int) => do
        let (i, modBits, weight) := s
        let v ← idx pvStandardWeight (modBits &&& 3)
        let weight ← setIdx weight i v
        let i ← addU 64 i 2
        pure (i, modBits >>> 2, weight)) (i, modBits, weight)) (1, modBits, weight)
  pure weight

/-- `info.weight[k] = (info.weight[k] + 3) & 8`: `src/pvrtc.rs:170`, `172` -/
def pvRound (k : Nat) (weight : List Int) : Out (List Int) := do
  let v ← idx weight k
  let v ← addI 8 v 3
  setIdx weight k (andI 8 v 8)

/-- `get_texel_weights_2bpp(data, info)`: `src/pvrtc.rs:127-180` -/
def getTexelWeights2 (data : List UInt8) (info : PvInfo) : Out PvInfo := do
  let d4 ← byte data 4
  let bs ← slice data 0 4
  let modBits := fromLE (bytesOf bs)
  if d4 &&& 1 ≠ 0 then do
    let d0 ← byte data 0
    let d2 ← (if d0 &&& 1 ≠ 0 then byte data 2 else pure 0)
    let weight ← pvFill (pvFillFlag d0 d2) info.weight
    let weight ← pvStore modBits weight
    let weight ← pvRound 0 weight
    let weight ← (if d0 &&& 1 ≠ 0 then pvRound 20 weight else pure weight)
    pure { info with weight := weight, punchThrough := 0 }
  else do
    let (_, weight) ← forRange 32 (fun i (s : Nat × List Int) => do
        let (modBits, weight) := s
        let weight ← setIdx weight i (if modBits &&& 1 ≠ 0 then 8 else 0)
        pure (modBits >>> 1, weight)) (modBits, info.weight)
    pure { info with weight := weight, punchThrough := 0 }

/-- `interpolate_color(c1, c2, w)`: `src/pvrtc.rs:182-187` (`/` truncates towards zero). -/
def interpolateColor (c1 c2 w : Int) : Out Nat := do
  let v ← subI 32 8 w
  let p ← mulI 32 c1 v
  let q ← mulI 32 c2 w
  let c ← addI 32 p q
  pure (asUI 8 (c.tdiv 8))

/-- The four statements `clr.x += c.x as i32 * interp_weight`: `src/pvrtc.rs:201-204`
(and 205-208, 266-273). -/
def pvAccumulate (acc : PvColorInt) (c : PvColor) (w : Int) : Out PvColorInt := do
  let r ← mulI 32 c.r w
  let r ← addI 32 acc.r r
  let g ← mulI 32 c.g w
  let g ← addI 32 acc.g g
  let b ← mulI 32 c.b w
  let b ← addI 32 acc.b b
  let a ← mulI 32 c.a w
  let a ← addI 32 acc.a a
  pure ⟨r, g, b, a⟩

/-- The loops over the neighbourhood: `src/pvrtc.rs:197-212`, `262-276`. Only iteration `i` of the
outer loops touches `clr_a[i]` and `clr_b[i]`, which are zero before; they are accumulated in local
variables here. The state is (`ac`, `clr_a[i]`, `clr_b[i]`). -/
def pvNeighbours (info : List PvInfo) (wx wy : List Int) : Out (PvColorInt × PvColorInt) := do
  let (_, a, b) ← forRange 3 (fun acy s =>
    forRange 3 (fun acx (s : Nat × PvColorInt × PvColorInt) => do
      let (ac, a, b) := s
      let p ← idx wx acx
      let q ← idx wy acy
      let w ← mulI 32 p q
      let t ← idx info ac
      let a ← pvAccumulate a t.a w
      let b ← pvAccumulate b t.b w
      let ac ← addU 64 ac 1
      pure (ac, a, b)) s) (0, PvColorInt.zero, PvColorInt.zero)
  pure (a, b)

/-- `(v >> s) + (v >> t)`: `src/pvrtc.rs:213-220`, `278-285`. (For `s = 0` the source has `v`.) -/
def pvScale (s t : Nat) (v : Int) : Out Int := do
  let p ← shrI 32 v s
  let q ← shrI 32 v t
  addI 32 p q

/-- The four scalings of one colour: `src/pvrtc.rs:213-216` (and 217-220, 278-285). `is2` selects
`applicate_color_2bpp`. -/
def pvScaleColor (is2 : Bool) (c : PvColorInt) : Out PvColorInt := do
  let (s, t, sa, ta) := if is2 then (2, 7, 1, 5) else (1, 6, 0, 4)
  let r ← pvScale s t c.r
  let g ← pvScale s t c.g
  let b ← pvScale s t c.b
  let a ← pvScale sa ta c.a
  pure ⟨r, g, b, a⟩

/-- The loops filling `clr_a` and `clr_b`: `src/pvrtc.rs:191-224`, `256-289`. The state is
(`i`, `clr_a`, `clr_b`). -/
def pvColors (is2 : Bool) (info : List PvInfo) : Out (List PvColorInt × List PvColorInt) := do
  let nx := if is2 then 8 else 4
  let n := if is2 then 32 else 16
  let (_, ca, cb) ← forRange 4 (fun y s =>
    forRange nx (fun x (s : Nat × List PvColorInt × List PvColorInt) => do
      let (i, ca, cb) := s
      let wx ← idx (if is2 then pvInterp8 else pvInterp4) x
      let wy ← idx pvInterp4 y
      let (a, b) ← pvNeighbours info wx wy
      let a ← pvScaleColor is2 a
      let b ← pvScaleColor is2 b
      let ca ← setIdx ca i a
      let cb ← setIdx cb i b
      let i ← addU 64 i 1
      pure (i, ca, cb)) s) (0, List.replicate n PvColorInt.zero, List.replicate n PvColorInt.zero)
  pure (ca, cb)

/-- One output pixel: `src/pvrtc.rs:229-238`, `355-364`. -/
def pvPixel (ca cb : List PvColorInt) (flag i : Nat) (w : Int) : Out UInt32 := do
  let a ← idx ca i
  let b ← idx cb i
  let r ← interpolateColor a.r b.r w
  let g ← interpolateColor a.g b.g w
  let bl ← interpolateColor a.b b.b w
  let al ← (if flag &&& 1 ≠ 0 then pure 0 else interpolateColor a.a b.a w)
  pure (color r g bl al)

/-- `applicate_color_4bpp(_data, info, buf)`: `src/pvrtc.rs:189-242`. The loop state is
(`punch_through_flag`, `buf`). -/
def applicateColor4 (info : List PvInfo) (buf : List UInt32) : Out (List UInt32) := do
  let (ca, cb) ← pvColors false info
  let self ← idx info 4
  let (_, buf) ← forRange 16 (fun i (s : Nat × List UInt32) => do
      let (flag, buf) := s
      let w ← idx self.weight i
      let p ← pvPixel ca cb flag i w
      let buf ← setIdx buf i p
      pure (flag >>> 1, buf)) (self.punchThrough, buf)
  pure buf

/-- `info[POS[k][0] as usize].weight[(i as i32 + POS[k][1]) as usize] as i32`:
`src/pvrtc.rs:322-324` (and the other places in 325-348). -/
def pvNeighbourWeight (info : List PvInfo) (pos : List (Int × Int)) (k i : Nat) : Out Int := do
  let (n, d) ← idx pos k
  let t ← idx info (asUI 64 n)
  let j ← addI 32 i d
  idx t.weight (asUI 64 j)

/-- The `match` on the weight: `src/pvrtc.rs:320-353`. The value returned is the new
`self_info.weight[i]`. -/
def pvResolve (info : List PvInfo) (x y i : Nat) (w : Int) : Out Int :=
  if w = -1 then do
    let p ← pvNeighbourWeight info pvPosYA y i
    let q ← pvNeighbourWeight info pvPosYB y i
    let s ← addI 32 p q
    let s ← addI 32 s 1
    pure (asI 8 (asUI 8 (s.tdiv 2)))
  else if w = -2 then do
    let p ← pvNeighbourWeight info pvPosXL x i
    let q ← pvNeighbourWeight info pvPosXR x i
    let s ← addI 32 p q
    let s ← addI 32 s 1
    pure (asI 8 (asUI 8 (s.tdiv 2)))
  else if w = -3 then do
    let p ← pvNeighbourWeight info pvPosYA y i
    let q ← pvNeighbourWeight info pvPosYB y i
    let s ← addI 32 p q
    let l ← pvNeighbourWeight info pvPosXL x i
    let s ← addI 32 s l
    let r ← pvNeighbourWeight info pvPosXR x i
    let s ← addI 32 s r
    let s ← addI 32 s 2
    pure (asI 8 (asUI 8 (s.tdiv 4)))
  else pure w

/-- `applicate_color_2bpp(_data, info, buf)`: `src/pvrtc.rs:244-369`. `self_info` is a copy of
`info[4]`; its weight `i` is only used in iteration `i`, so the updated value is a local variable
here. The loop state is (`i`, `punch_through_flag`, `buf`). -/
def applicateColor2 (info : List PvInfo) (buf : List UInt32) : Out (List UInt32) := do
  let (ca, cb) ← pvColors true info
  let self ← idx info 4
  let (_, _, buf) ← forRange 4 (fun y s =>
    forRange 8 (fun x (s : Nat × Nat × List UInt32) => do
      let (i, flag, buf) := s
      let w ← idx self.weight i
      let w ← pvResolve info x y i w
      let p ← pvPixel ca cb flag i w
      let buf ← setIdx buf i p
      let i ← addU 64 i 1
      pure (i, flag >>> 1, buf)) s) (0, self.punchThrough, buf)
  pure buf

/-- The test `(n & (n - 1)) != 0`: `src/pvrtc.rs:394` -/
def pvNotPow2 (n : Nat) : Out Bool := do
  let m ← subU 64 n 1
  pure (decide (n &&& m ≠ 0))

/-- The loop filling `texel_info`: `src/pvrtc.rs:398-399`, `412-417`. The state is (`data_offset`,
the infos so far). -/
def pvInfos (is2 : Bool) (data : List UInt8) (n : Nat) : Out (List PvInfo) := do
  let (_, infos) ← forRange n (fun _ (s : Nat × List PvInfo) => do
      let (dataOffset, infos) := s
      let d ← sliceFrom data dataOffset
      let info ← getTexelColors d PvInfo.zero
      let d ← sliceFrom data dataOffset
      let info ← (if is2 then getTexelWeights2 d info else getTexelWeights4 d info)
      let dataOffset ← addU 64 dataOffset 8
      pure (dataOffset, infos ++ [info])) (0, [])
  pure infos

/-- The positions of the neighbours of block `b` among `n`: `src/pvrtc.rs:425-427`, `430-432`. -/
def pvPos (b n : Nat) : Out (List Nat) := do
  let m ← (if b = 0 then subU 64 n 1 else subU 64 b 1)
  let last ← subU 64 n 1
  let p ← (if b = last then pure 0 else addU 64 b 1)
  pure [m, b, p]

/-- The loops filling `local_info`: `src/pvrtc.rs:434-440`. The state is (`c`, `local_info`). -/
def pvLocal (infos : List PvInfo) (posX posY : List Nat) (minDim : Nat) (loc : List PvInfo) :
    Out (List PvInfo) := do
  let (_, loc) ← forRange 3 (fun cy s =>
    forRange 3 (fun cx (s : Nat × List PvInfo) => do
      let (c, loc) := s
      let px ← idx posX cx
      let py ← idx posY cy
      let m ← mortonIndex px py minDim
      let info ← idx infos m
      let loc ← setIdx loc c info
      let c ← addU 64 c 1
      pure (c, loc)) s) (0, loc)
  pure loc

/-- `decode_pvrtc(data, width, height, image, is2bpp)`: `src/pvrtc.rs:371-451`. The arrays `pos_x`
and `pos_y` are overwritten completely before every use and are local variables here; the loop
state is (`local_info`, `buffer`, `image`). -/
def decodePvrtc (data : List UInt8) (width height : Nat) (image : List UInt32) (is2 : Bool) :
    Out (Except String Unit × List UInt32) := do
  let bw := if is2 then 8 else 4
  let nbx ← divCeil width bw
  let nby ← divCeil height 4
  let n ← mulU 64 nbx nby
  let minDim := min nbx nby
  let need ← mulU 64 n bw
  if data.length < need then pure (.error "The data buffer is too small!", image)
  else do
    let pixels ← mulU 64 width height
    if image.length < pixels then pure (.error "The image buffer is too small!", image)
    else do
      let badX ← pvNotPow2 nbx
      let bad ← (if badX then pure true else pvNotPow2 nby)
      if bad then
        pure (.error "The number of blocks of each side must be a power of 2!", image)
      else do
        let infos ← pvInfos is2 data n
        let (_, _, image) ← forRange nby (fun by' s => do
          let posY ← pvPos by' nby
          forRange nbx (fun bx (s : List PvInfo × List UInt32 × List UInt32) => do
            let (loc, buffer, image) := s
            let posX ← pvPos bx nbx
            let loc ← pvLocal infos posX posY minDim loc
            let m ← mortonIndex bx by' minDim
            let m8 ← mulU 64 m 8
            let _ ← sliceFrom data m8
            let buffer ← (if is2 then applicateColor2 loc buffer else applicateColor4 loc buffer)
            let image ← copyBlockBuffer bx by' width height bw 4 buffer image
            pure (loc, buffer, image)) s)
          (List.replicate 9 PvInfo.zero, List.replicate 32 0, image)
        pure (.ok (), image)

/-- `decode_pvrtc_2bpp`: `src/pvrtc.rs:528-535` -/
def decodePvrtc2bpp (data : List UInt8) (width height : Nat) (image : List UInt32) :=
  decodePvrtc data width height image true
/-- `decode_pvrtc_4bpp`: `src/pvrtc.rs:536-543` -/
def decodePvrtc4bpp (data : List UInt8) (width height : Nat) (image : List UInt32) :=
  decodePvrtc data width height image false

end Verif.Model
