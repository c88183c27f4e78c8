import Verif.Spec.Image

/-!
# Specification: cutting rectangles of blocks out of a texture
-/

namespace Verif.Spec

/-- The data of the `nx × ny` blocks from block (`ox`, `oy`) on, out of a texture with `cols` columns of blocks of
`raw` bytes, row by row. -/
def cutBlocks (raw cols : Nat) (data : List UInt8) (ox oy nx ny : Nat) : List UInt8 :=
  (List.range (nx * ny)).flatMap fun k => blockBytes raw data ((oy + k / nx) * cols + (ox + k % nx))

/-- `out'` is the part of `w' × h'` pixels from pixel (`left`, `top`) on of the picture `out` that is `w` pixels wide. -/
def IsPart (w : Nat) (out : List UInt32) (left top w' h' : Nat) (out' : List UInt32) : Prop :=
  ∀ x y, x < w' → y < h' → out'[y * w' + x]? = out[(top + y) * w + (left + x)]?

end Verif.Spec
