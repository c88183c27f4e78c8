import Verif.Spec.Pvrtc

/-!
# Specification: the blocks a PVRTC texel is made of
-/

namespace Verif.Spec.Pvrtc

/-- The centre of block (`bx`, `by'`) is one of the four that surround texel (`x`, `y`). -/
def Surrounds (w2 : Bool) (nx ny x y bx by' : Nat) : Prop :=
  (bx = lower (bw w2) nx x ∨ bx = upper (bw w2) nx x) ∧ (by' = lower 4 ny y ∨ by' = upper 4 ny y)

/-- The blocks of `data2` are those of `data1` moved by `sx` to the right and `sy` down; what leaves
the grid of `nx` × `ny` blocks comes in again at the other side. -/
def Moved (nx ny sx sy : Nat) (data1 data2 : List UInt8) : Prop :=
  ∀ bx by', bx < nx → by' < ny →
    block data2 nx ny ((bx + sx) % nx) ((by' + sy) % ny) = block data1 nx ny bx by'

end Verif.Spec.Pvrtc
