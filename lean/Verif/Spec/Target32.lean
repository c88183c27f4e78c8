import Verif.Spec.Formats

/-!
# Specification: the block decoders on targets with a 32-bit `usize`
-/

namespace Verif.Spec

/-- The sizes are representable by a 32-bit `usize`, and `image` obeys Rust's limit of `isize::MAX`
bytes per slice. -/
structure SizesOk32 (bw bh raw w h : Nat) (image : List UInt32) : Prop where
  image_len : image.length < 2 ^ 29
  bytes_fit : bytesNeeded bw bh raw w h < 2 ^ 32
  pixels_fit : w * h < 2 ^ 32

/-- The contract of a whole-image decoder, as `DecodesLegal`, with the limits of a 32-bit target. -/
structure DecodesLegal32 (dec : List UInt8 → Nat → Nat → List UInt32 →
      Out (Except String Unit × List UInt32))
    (bw bh raw : Nat) (Legal : List UInt8 → Prop) (texel : List UInt8 → Nat → UInt32) : Prop where
  not_enough_data : ∀ data w h image, SizesOk32 bw bh raw w h image →
    data.length < bytesNeeded bw bh raw w h →
    dec data w h image = .ok (.error "Not enough data to decode image!", image)
  image_too_small : ∀ data w h image, SizesOk32 bw bh raw w h image →
    bytesNeeded bw bh raw w h ≤ data.length → image.length < w * h →
    dec data w h image = .ok (.error "Image buffer is too small!", image)
  success : ∀ data w h image, SizesOk32 bw bh raw w h image →
    bytesNeeded bw bh raw w h ≤ data.length → w * h ≤ image.length →
    (∀ k, k < numBlocks bw bh w h → Legal (blockBytes raw data k)) →
    ∃ image', dec data w h image = .ok (.ok (), image') ∧
      IsDecoded bw bh raw texel data w h image image'

/-- A block with bytes number `a` to `b - 1` set to zero. -/
def zeroBytes (a b : Nat) (blk : List UInt8) : List UInt8 :=
  blk.take a ++ (List.replicate (b - a) 0 ++ blk.drop b)

/-- The part of a block that a 32-bit target sees: bytes that hold the last index bits count as
zero. -/
def Format.visible32 : Format → List UInt8 → List UInt8
  | .bc3 | .bc4 | .atcrgba => zeroBytes 6 8
  | .bc5 => fun blk => zeroBytes 6 8 (zeroBytes 14 16 blk)
  | .etc2rgba8 => zeroBytes 2 4
  | .eacr | .eacrs => zeroBytes 4 8
  | .eacrg | .eacrgs => fun blk => zeroBytes 4 8 (zeroBytes 12 16 blk)
  | _ => id

end Verif.Spec
