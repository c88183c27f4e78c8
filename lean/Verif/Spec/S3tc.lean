import Verif.Spec.Bcn

/-!
# Specification: BC2 and BC3 as the S3TC specification defines them

"Color data is decoded as for DXT1, except that the two code bits always use the non-transparent
encodings: they are treated as though color0 > color1, regardless of their actual values."
(`EXT_texture_compression_s3tc`)
-/

namespace Verif.Spec

/-- Texel `i` of an 8-byte colour block whose palette always has four colours. -/
def s3tcColour (blk : List UInt8) (i : Nat) : UInt32 :=
  let q0 := field blk 0 16
  let q1 := field blk 16 16
  let k := field blk (32 + 2 * i) 2
  px (bc1Channel true (red565 q0) (red565 q1) k)
    (bc1Channel true (green565 q0) (green565 q1) k)
    (bc1Channel true (blue565 q0) (blue565 q1) k) 255

/-- Texel `i` of a BC2 block, by the S3TC specification. -/
def bc2TexelS3tc (blk : List UInt8) (i : Nat) : UInt32 :=
  withAlpha (s3tcColour (blk.drop 8) i) (17 * field blk (4 * i) 4)

/-- Texel `i` of a BC3 block, by the S3TC specification. -/
def bc3TexelS3tc (blk : List UInt8) (i : Nat) : UInt32 :=
  withAlpha (s3tcColour (blk.drop 8) i) (bc3Value blk i)

/-- The first colour of a BC2 or BC3 block is larger than the second. -/
def FirstColourLarger (blk : List UInt8) : Prop :=
  field (blk.drop 8) 16 16 < field (blk.drop 8) 0 16

instance (blk : List UInt8) : Decidable (FirstColourLarger blk) := by
  unfold FirstColourLarger; infer_instance

end Verif.Spec
