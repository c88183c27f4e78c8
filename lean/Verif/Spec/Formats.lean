import Verif.Spec.Bcn
import Verif.Spec.Bc7
import Verif.Spec.Bc6
import Verif.Spec.Etc
import Verif.Spec.Atc

/-!
# Specification: the block formats with a generated whole-image decoder

All of them use 4×4 blocks.
-/

namespace Verif.Spec

/-- One constructor per function generated by `block_decoder!`. -/
inductive Format where
  | bc1 | bc1a | bc2 | bc3 | bc4 | bc5 | bc6s | bc6u | bc7
  | etc1 | etc2rgb | etc2rgba1 | etc2rgba8 | eacr | eacrs | eacrg | eacrgs
  | atcrgb | atcrgba
deriving DecidableEq, Repr

/-- Bytes per block. -/
def Format.blockSize : Format → Nat
  | .bc1 | .bc1a | .bc4 | .etc1 | .etc2rgb | .etc2rgba1 | .eacr | .eacrs
  | .atcrgb => 8
  | .bc2 | .bc3 | .bc5 | .bc6s | .bc6u | .bc7 | .etc2rgba8 | .eacrg | .eacrgs
  | .atcrgba => 16

/-- The colour of texel `i` of a block. For BC6H this is what the code computes, which differs from the
BPTC specification on some blocks (C47); likewise for EAC R11, RG11 (C29) and ATC (C30). -/
def Format.texel : Format → List UInt8 → Nat → UInt32
  | .bc1 => bc1Texel false
  | .bc1a => bc1Texel true
  | .bc2 => bc2Texel
  | .bc3 => bc3Texel
  | .bc4 => bc4Texel
  | .bc5 => bc5Texel
  | .bc6s => Bc6.texelAsIs true
  | .bc6u => Bc6.texelAsIs false
  | .bc7 => Bc7.texel
  | .etc1 => Etc.etc1Texel
  | .etc2rgb => Etc.etc2RgbTexel
  | .etc2rgba1 => Etc.etc2Rgba1Texel
  | .etc2rgba8 => Etc.etc2Rgba8Texel
  | .eacr => Etc.eacrTexelAsIs false
  | .eacrs => Etc.eacrTexelAsIs true
  | .eacrg => Etc.eacrgTexelAsIs false
  | .eacrgs => Etc.eacrgTexelAsIs true
  | .atcrgb => Atc.rgbTexelAsIs
  | .atcrgba => Atc.rgbaTexelAsIs

/-- The blocks for which the code is known not to panic. -/
def Format.Legal : Format → List UInt8 → Prop
  | .bc6s, blk | .bc6u, blk => Bc6.modeOf blk ≠ 15
  | _, _ => True

/-- The bytes a `w × h` image needs. -/
abbrev Format.need (fmt : Format) (w h : Nat) : Nat := bytesNeeded 4 4 fmt.blockSize w h

/-- Sizes representable in `usize`. -/
abbrev Format.SizesOk (fmt : Format) (w h : Nat) (image : List UInt32) : Prop :=
  Spec.SizesOk 4 4 fmt.blockSize w h image

/-- All blocks of a `w × h` image are legal. -/
def Format.AllLegal (fmt : Format) (data : List UInt8) (w h : Nat) : Prop :=
  ∀ k, k < numBlocks 4 4 w h → fmt.Legal (blockBytes fmt.blockSize data k)

/-- The colour of pixel (`x`, `y`). -/
abbrev Format.pixelAt (fmt : Format) (data : List UInt8) (w x y : Nat) : UInt32 :=
  Spec.pixelAt 4 4 fmt.blockSize fmt.texel data w x y

end Verif.Spec
