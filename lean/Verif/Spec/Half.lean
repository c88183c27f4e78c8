/-!
# Specification: half-precision floats
-/

namespace Verif.Spec

/-- The value of a non-negative finite half float in units of `2^-24`: subnormal `m`, normal
`(1024 + m) · 2^(e-1)`. -/
def halfUnits (h : Nat) : Nat :=
  let e := h / 1024 % 32
  let m := h % 1024
  if e = 0 then m else (1024 + m) * 2 ^ (e - 1)

/-- A half float as an 8-bit channel: `floor(255 · v)` clamped to 0..255; negative values, −∞ and NaN
give 0, +∞ gives 255. -/
def halfToByte (h : Nat) : Nat :=
  if h / 1024 % 32 = 31 ∧ h % 1024 ≠ 0 then 0
  else if h / 32768 % 2 = 1 then 0
  else if h / 1024 % 32 = 31 then 255
  else min 255 (255 * halfUnits h / 2 ^ 24)

end Verif.Spec
