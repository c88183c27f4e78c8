import Verif.Spec.Image

/-!
# Specification: pictures that a format can hold

A decoder can show a picture if some data of the size that the format has for this picture is decoded
to it, whatever the image buffer contained.
-/

namespace Verif.Spec

/-- There are `bytes` bytes that `dec` decodes, for every image buffer that is large enough, to a picture
in which pixel (`x`, `y`) has the colour `colour x y`. -/
def Shows (dec : List UInt8 → Nat → Nat → List UInt32 → Out (Except String Unit × List UInt32))
    (bytes w h : Nat) (colour : Nat → Nat → UInt32) : Prop :=
  ∃ data : List UInt8, data.length = bytes ∧
    ∀ image : List UInt32, image.length < 2 ^ 61 → w * h ≤ image.length →
      ∃ image', dec data w h image = .ok (.ok (), image') ∧
        ∀ x y, x < w → y < h → image'[y * w + x]? = some (colour x y)

end Verif.Spec
