import Verif.Spec.Image
import Verif.Spec.Bits

/-!
# Specification: PVRTC

Written from the PowerVR description of PVRTC. A block has 64 bits: 32 bits of modulation data, then
two colours of 16 bits, the lowest of which is the mode bit. The blocks are stored in twiddled order.
The two colours of a texel are bilinear blends of the colours of the four blocks whose centres
surround it; the texture wraps around. The modulation data says how to mix the two.
`w2` selects the 2 bits per pixel variant: blocks of 8×4 instead of 4×4 texels.
-/

namespace Verif.Spec.Pvrtc

/-- Twiddled number of block (`x`, `y`) in a grid whose shorter side is `2^m`: the low `m` bits of
the coordinates alternate, `y` first, then the rest of the longer coordinate follows. -/
def twiddle : Nat → Nat → Nat → Nat
  | 0, x, y => x + y
  | m + 1, x, y => y % 2 + 2 * (x % 2) + 4 * twiddle m (x / 2) (y / 2)

/-- Block (`bx`, `by'`) of a grid of `nx` × `ny` blocks. -/
def block (data : List UInt8) (nx ny bx by' : Nat) : List UInt8 :=
  blockBytes 8 data (twiddle (Nat.log2 (min nx ny)) bx by')

/-- Widen 4, 3 bits to 5 by repeating the high bits. -/
def widen4 (v : Nat) : Nat := v * 2 + v / 8
def widen3 (v : Nat) : Nat := v * 4 + v / 2

/-- Channel `ch` (0 red, 1 green, 2 blue: 5 bits; 3 alpha: 4 bits) of the first colour. -/
def colourA (blk : List UInt8) (ch : Nat) : Nat :=
  if field blk 47 1 = 1 then
    match ch with
    | 0 => field blk 42 5
    | 1 => field blk 37 5
    | 2 => widen4 (field blk 33 4)
    | _ => 15
  else
    match ch with
    | 0 => widen4 (field blk 40 4)
    | 1 => widen4 (field blk 36 4)
    | 2 => widen3 (field blk 33 3)
    | _ => 2 * field blk 44 3

/-- Channel `ch` of the second colour. -/
def colourB (blk : List UInt8) (ch : Nat) : Nat :=
  if field blk 63 1 = 1 then
    match ch with
    | 0 => field blk 58 5
    | 1 => field blk 53 5
    | 2 => field blk 48 5
    | _ => 15
  else
    match ch with
    | 0 => widen4 (field blk 56 4)
    | 1 => widen4 (field blk 52 4)
    | 2 => widen4 (field blk 48 4)
    | _ => 2 * field blk 60 3

/-- Along one axis with `nb` blocks of `n` texels: the last block whose centre is not after texel
`x` (wrapping around), the block after it, and the distance of `x` from the centre of the former. -/
def lower (n nb x : Nat) : Nat := (x + n * nb - n / 2) / n % nb
def upper (n nb x : Nat) : Nat := (lower n nb x + 1) % nb
def dist (n x : Nat) : Nat := (x + n / 2) % n

/-- Width of a block. -/
def bw (w2 : Bool) : Nat := if w2 then 8 else 4

/-- Bilinear blend at texel (`x`, `y`) of a value `c bx by` of the blocks, times `bw w2 * 4`. -/
def bilinear (w2 : Bool) (c : Nat → Nat → Nat) (nx ny x y : Nat) : Nat :=
  let x0 := lower (bw w2) nx x
  let x1 := upper (bw w2) nx x
  let y0 := lower 4 ny y
  let y1 := upper 4 ny y
  let u := dist (bw w2) x
  let v := dist 4 y
  (c x0 y0 * (bw w2 - u) + c x1 y0 * u) * (4 - v) + (c x0 y1 * (bw w2 - u) + c x1 y1 * u) * v

/-- Conversion of a blended channel to 8 bits. -/
def to8 (w2 : Bool) (ch s : Nat) : Nat :=
  match w2, ch with
  | false, 3 => s + s / 16
  | false, _ => s / 2 + s / 64
  | true, 3 => s / 2 + s / 32
  | true, _ => s / 4 + s / 128

/-- Eighths of the second colour for a 2-bit modulation value. -/
def standard (m : Nat) : Nat := match m with | 0 => 0 | 1 => 3 | 2 => 5 | _ => 8
/-- The same in the punch-through mode. -/
def punch (m : Nat) : Nat := match m with | 0 => 0 | 3 => 8 | _ => 4

/-- The mode bit. -/
def mode (blk : List UInt8) : Nat := field blk 32 1

/-- 4 bits per pixel: modulation of texel `t` of a block (in raster order). -/
def weight4 (blk : List UInt8) (t : Nat) : Nat :=
  if mode blk = 1 then punch (field blk (2 * t) 2) else standard (field blk (2 * t) 2)

/-- 4 bits per pixel: is texel `t` transparent? -/
def transparent4 (blk : List UInt8) (t : Nat) : Bool :=
  mode blk == 1 && field blk (2 * t) 2 == 2

/-- 2 bits per pixel: modulation of texel (`i`, `j`) of a block as far as the block stores it. In
mode 1 only the texels with `i + j` even are stored, with two bits, of which the low bits of the
first one and (if the former is set) of the middle one are flags. -/
def stored2 (blk : List UInt8) (i j : Nat) : Nat :=
  if mode blk = 1 then
    let k := j * 4 + i / 2
    let m := field blk (2 * k) 2
    if k = 0 ∨ (k = 10 ∧ field blk 0 1 = 1) then 8 * (m / 2) else standard m
  else 8 * field blk (8 * j + i) 1

/-- The stored modulation of texel (`x`, `y`) of the texture. -/
def storedAt (data : List UInt8) (nx ny x y : Nat) : Nat :=
  stored2 (block data nx ny (x / 8) (y / 4)) (x % 8) (y % 4)

/-- 2 bits per pixel: modulation of texel (`x`, `y`) of the texture. Texels that are not stored
get the average of the four neighbours, or of the vertical or horizontal ones, as the flags say. -/
def weight2 (data : List UInt8) (nx ny x y : Nat) : Nat :=
  let blk := block data nx ny (x / 8) (y / 4)
  let W := 8 * nx
  let H := 4 * ny
  let left := storedAt data nx ny ((x + W - 1) % W) y
  let right := storedAt data nx ny ((x + 1) % W) y
  let above := storedAt data nx ny x ((y + H - 1) % H)
  let below := storedAt data nx ny x ((y + 1) % H)
  if mode blk = 1 ∧ (x + y) % 2 = 1 then
    if field blk 0 1 = 0 then (above + below + left + right + 2) / 4
    else if field blk 20 1 = 1 then (above + below + 1) / 2
    else (left + right + 1) / 2
  else storedAt data nx ny x y

/-- The modulation of texel (`x`, `y`) of the texture, in eighths. -/
def weight (w2 : Bool) (data : List UInt8) (nx ny x y : Nat) : Nat :=
  if w2 then weight2 data nx ny x y
  else weight4 (block data nx ny (x / 4) (y / 4)) (y % 4 * 4 + x % 4)

/-- Is texel (`x`, `y`) of the texture punched out? -/
def transparent (w2 : Bool) (data : List UInt8) (nx ny x y : Nat) : Bool :=
  !w2 && transparent4 (block data nx ny (x / 4) (y / 4)) (y % 4 * 4 + x % 4)

/-- The first and second colour at texel (`x`, `y`), channel `ch`, with 8 bits. -/
def first (w2 : Bool) (data : List UInt8) (nx ny x y ch : Nat) : Nat :=
  to8 w2 ch (bilinear w2 (fun bx by' => colourA (block data nx ny bx by') ch) nx ny x y)
def second (w2 : Bool) (data : List UInt8) (nx ny x y ch : Nat) : Nat :=
  to8 w2 ch (bilinear w2 (fun bx by' => colourB (block data nx ny bx by') ch) nx ny x y)

/-- Channel `ch` of texel (`x`, `y`). -/
def channel (w2 : Bool) (data : List UInt8) (nx ny x y ch : Nat) : Nat :=
  let w := weight w2 data nx ny x y
  (first w2 data nx ny x y ch * (8 - w) + second w2 data nx ny x y ch * w) / 8

/-- The colour of texel (`x`, `y`) of a texture of `nx` × `ny` blocks. -/
def texel (w2 : Bool) (data : List UInt8) (nx ny x y : Nat) : UInt32 :=
  px (channel w2 data nx ny x y 0) (channel w2 data nx ny x y 1) (channel w2 data nx ny x y 2)
    (if transparent w2 data nx ny x y then 0 else channel w2 data nx ny x y 3)

/-- `n` is a power of two. -/
def IsPow2 (n : Nat) : Prop := ∃ p, n = 2 ^ p

/-- `after` is the decoded `w × h` texture stored into the buffer `before`. -/
structure IsDecoded (w2 : Bool) (data : List UInt8) (w h : Nat) (before after : List UInt32) :
    Prop where
  length_eq : after.length = before.length
  pixel : ∀ x y, x < w → y < h → after[y * w + x]? =
    some (texel w2 data (ceilDiv w (bw w2)) (ceilDiv h 4) x y)
  rest : ∀ i, w * h ≤ i → after[i]? = before[i]?

end Verif.Spec.Pvrtc
