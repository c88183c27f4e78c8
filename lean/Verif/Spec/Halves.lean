import Verif.Spec.Formats

/-!
# Specification: taking the halves of the blocks from different textures
-/

namespace Verif.Spec

/-- Blocks of 16 bytes: the first half of every block of `first`, followed by the second half of the same block of
`second`. -/
def splice (n : Nat) (first second : List UInt8) : List UInt8 :=
  (List.range n).flatMap fun k => (blockBytes 16 first k).take 8 ++ (blockBytes 16 second k).drop 8

/-- Blocks of 16 bytes: every block of 8 bytes of `first`, followed by the same block of `second`. -/
def join (n : Nat) (first second : List UInt8) : List UInt8 :=
  (List.range n).flatMap fun k => blockBytes 8 first k ++ blockBytes 8 second k

/-- Pixel (`x`, `y`) of `out` is made by `f` from the pixels at the same place of `out1` and `out2`, for all
pixels of a picture of `w × h` pixels. -/
def Combines (f : UInt32 → UInt32 → UInt32) (w h : Nat) (out1 out2 out : List UInt32) : Prop :=
  ∀ x y, x < w → y < h → ∃ p q, out1[y * w + x]? = some p ∧ out2[y * w + x]? = some q ∧
    out[y * w + x]? = some (f p q)

/-- The colour of the second pixel with the alpha of the first one. -/
def alphaAndColour (p q : UInt32) : UInt32 := px (red q) (green q) (blue q) (alpha p)
/-- The colour of the second pixel with the red of the first one as alpha. -/
def redAsAlpha (p q : UInt32) : UInt32 := px (red q) (green q) (blue q) (red p)
/-- The red of the first pixel and the green of the second one. -/
def redAndGreen (p q : UInt32) : UInt32 := px (red p) (green q) 0 255
/-- The red of the first pixel, and the red of the second one as green. -/
def redAsGreen (p q : UInt32) : UInt32 := px (red p) (red q) 0 255

end Verif.Spec
