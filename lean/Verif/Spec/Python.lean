import Verif.Spec.Image

/-!
# Specification: images as Python `bytes`

Four bytes per pixel, in the order blue, green, red, alpha, row by row.
-/

namespace Verif.Spec

/-- `b` holds the `w × h` image whose pixel in column `x` and row `y` is `pixel x y`. -/
structure IsPythonImage (b : List UInt8) (w h : Nat) (pixel : Nat → Nat → UInt32) : Prop where
  length_eq : b.length = w * h * 4
  blue : ∀ x y, x < w → y < h → b[4 * (y * w + x)]? = some (UInt8.ofNat (blue (pixel x y)))
  green : ∀ x y, x < w → y < h → b[4 * (y * w + x) + 1]? = some (UInt8.ofNat (green (pixel x y)))
  red : ∀ x y, x < w → y < h → b[4 * (y * w + x) + 2]? = some (UInt8.ofNat (red (pixel x y)))
  alpha : ∀ x y, x < w → y < h → b[4 * (y * w + x) + 3]? = some (UInt8.ofNat (alpha (pixel x y)))

end Verif.Spec
