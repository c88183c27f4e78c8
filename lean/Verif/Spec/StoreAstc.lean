import Verif.Spec.Astc

/-!
# Specification: gradients between two colours in ASTC blocks
-/

namespace Verif.Spec.Astc

/-- The colour on the way from `p` to `q` after `w` of 64 steps, every channel as ASTC interpolates it. -/
def between (p q : UInt32) (w : Nat) : UInt32 :=
  px (ldr (red p) (red q) w) (ldr (green p) (green q) w) (ldr (blue p) (blue q) w) (ldr (alpha p) (alpha q) w)

end Verif.Spec.Astc
