import Verif.Rust

/-!
# Specification: pixels and whole images

Independent of the model (only the outcome type `Out` is shared). A compressed texture is a
sequence of blocks of `raw` bytes, in raster order, each covering `bw × bh` texels. `texel block i` is the colour a format gives to texel `i`
(counted in raster order within the block).
-/

namespace Verif.Spec

/-- A pixel word: blue in the low byte, then green, red, alpha. -/
def px (r g b a : Nat) : UInt32 := UInt32.ofNat (b + 2 ^ 8 * g + 2 ^ 16 * r + 2 ^ 24 * a)

/-- The channels of a pixel word. -/
def red (p : UInt32) : Nat := p.toNat / 2 ^ 16 % 2 ^ 8
def green (p : UInt32) : Nat := p.toNat / 2 ^ 8 % 2 ^ 8
def blue (p : UInt32) : Nat := p.toNat % 2 ^ 8
def alpha (p : UInt32) : Nat := p.toNat / 2 ^ 24

/-- `⌈a / b⌉` -/
def ceilDiv (a b : Nat) : Nat := (a + b - 1) / b

/-- Number of blocks covering a `w × h` image. -/
def numBlocks (bw bh w h : Nat) : Nat := ceilDiv w bw * ceilDiv h bh

/-- The bytes of block number `k`. -/
def blockBytes (raw : Nat) (data : List UInt8) (k : Nat) : List UInt8 :=
  (data.drop (k * raw)).take raw

/-- The colour that pixel (`x`, `y`) of a `w`-wide image must have: the texel
(`x mod bw`, `y mod bh`) of the block that covers it. -/
def pixelAt (bw bh raw : Nat) (texel : List UInt8 → Nat → UInt32) (data : List UInt8)
    (w x y : Nat) : UInt32 :=
  texel (blockBytes raw data (y / bh * ceilDiv w bw + x / bw)) (y % bh * bw + x % bw)

/-- `after` is the correctly decoded image that was stored into the buffer `before`:
same length, every pixel of the `w × h` image has its colour, nothing else is touched. -/
structure IsDecoded (bw bh raw : Nat) (texel : List UInt8 → Nat → UInt32) (data : List UInt8)
    (w h : Nat) (before after : List UInt32) : Prop where
  length_eq : after.length = before.length
  pixel : ∀ x y, x < w → y < h → after[y * w + x]? = some (pixelAt bw bh raw texel data w x y)
  rest : ∀ i, w * h ≤ i → after[i]? = before[i]?

/-- The bytes a `w × h` image needs. -/
def bytesNeeded (bw bh raw w h : Nat) : Nat := numBlocks bw bh w h * raw

/-- The sizes are representable by `usize`, and `image` obeys Rust's limit of `isize::MAX`
bytes per slice (every Rust slice does). -/
structure SizesOk (bw bh raw w h : Nat) (image : List UInt32) : Prop where
  image_len : image.length < 2 ^ 61
  bytes_fit : bytesNeeded bw bh raw w h < 2 ^ 64
  pixels_fit : w * h < 2 ^ 64

/-- The complete contract of a whole-image decoder `dec data w h image`, relative to the
colours `texel` a format defines and the set `Legal` of blocks it defines:
the outcome is decided by the sizes, in this order, and never is a panic. -/
structure DecodesLegal (dec : List UInt8 → Nat → Nat → List UInt32 →
      Out (Except String Unit × List UInt32))
    (bw bh raw : Nat) (Legal : List UInt8 → Prop) (texel : List UInt8 → Nat → UInt32) : Prop where
  not_enough_data : ∀ data w h image, SizesOk bw bh raw w h image →
    data.length < bytesNeeded bw bh raw w h →
    dec data w h image = .ok (.error "Not enough data to decode image!", image)
  image_too_small : ∀ data w h image, SizesOk bw bh raw w h image →
    bytesNeeded bw bh raw w h ≤ data.length → image.length < w * h →
    dec data w h image = .ok (.error "Image buffer is too small!", image)
  success : ∀ data w h image, SizesOk bw bh raw w h image →
    bytesNeeded bw bh raw w h ≤ data.length → w * h ≤ image.length →
    (∀ k, k < numBlocks bw bh w h → Legal (blockBytes raw data k)) →
    ∃ image', dec data w h image = .ok (.ok (), image') ∧
      IsDecoded bw bh raw texel data w h image image'

/-- The contract of a decoder whose format defines all blocks. -/
abbrev Decodes (dec : List UInt8 → Nat → Nat → List UInt32 →
      Out (Except String Unit × List UInt32))
    (bw bh raw : Nat) (texel : List UInt8 → Nat → UInt32) : Prop :=
  DecodesLegal dec bw bh raw (fun _ => True) texel

end Verif.Spec
