import Verif.Spec.Image
import Verif.Spec.Bptc

/-!
# Specification: gradients between two colours
-/

namespace Verif.Spec

/-- The four channels of a colour are all even or all odd. -/
def SameParity (p : UInt32) : Prop :=
  green p % 2 = red p % 2 ∧ blue p % 2 = red p % 2 ∧ alpha p % 2 = red p % 2

/-- The colour on the way from `p` to `q` after `w` of 64 steps, every channel rounded. -/
def mixed (p q : UInt32) (w : Nat) : UInt32 :=
  px (Bptc.interpolate (red p) (red q) w) (Bptc.interpolate (green p) (green q) w)
    (Bptc.interpolate (blue p) (blue q) w) (Bptc.interpolate (alpha p) (alpha q) w)

/-- No channel of `p` differs from that of `q` by more than 1. -/
def WithinOne (p q : UInt32) : Prop :=
  (red p ≤ red q + 1 ∧ red q ≤ red p + 1) ∧ (green p ≤ green q + 1 ∧ green q ≤ green p + 1) ∧
    (blue p ≤ blue q + 1 ∧ blue q ≤ blue p + 1) ∧ (alpha p ≤ alpha q + 1 ∧ alpha q ≤ alpha p + 1)

end Verif.Spec
