import Verif.Spec.Formats

/-!
# Specification: the channels that a format does not have
-/

namespace Verif.Spec

/-- The formats without an alpha channel. BC6H also has none; its reserved modes are another matter
(C23). -/
def Format.NoAlpha (fmt : Format) : Prop :=
  fmt ∈ [.bc1, .bc4, .bc5, .etc1, .etc2rgb, .eacr, .eacrs, .eacrg, .eacrgs, .atcrgb]

/-- The formats whose alpha channel has one bit. -/
def Format.OneBitAlpha (fmt : Format) : Prop := fmt ∈ [.bc1a, .etc2rgba1]

/-- The formats with a red channel only, and those with red and green only. -/
def Format.RedOnly (fmt : Format) : Prop := fmt ∈ [.bc4, .eacr, .eacrs]
def Format.RedGreenOnly (fmt : Format) : Prop := fmt ∈ [.bc5, .eacrg, .eacrgs]

end Verif.Spec
