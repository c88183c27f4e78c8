import Verif.Spec.CrnRoundTrip

/-!
# Specification: pictures that can be shipped in Crunch files
-/

namespace Verif.Spec.Crn

/-- There is a file of a `w × h` texture with format code `code`, smaller than 4 GiB, that `crunch`, the
decoder of Crunch files, decodes in all the `builds` and for every image buffer that is large enough to a
picture in which pixel (`x`, `y`) has the colour `colour x y`. -/
def Ships (builds : Build → Prop) (crunch : Build → List UInt8 → Nat → Nat → List UInt32 →
    Out (Except String Unit × List UInt32)) (code w h : Nat) (colour : Nat → Nat → UInt32) : Prop :=
  ∃ file : List UInt8, file.length < 2 ^ 32 ∧ width file = w ∧ height file = h ∧ format file = code ∧
    ∀ b : Build, builds b → ∀ image : List UInt32, image.length < 2 ^ 61 → w * h ≤ image.length →
      ∃ image', crunch b file w h image = .ok (.ok (), image') ∧
        ∀ x y, x < w → y < h → image'[y * w + x]? = some (colour x y)

end Verif.Spec.Crn
