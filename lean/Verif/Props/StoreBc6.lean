import Verif.Proofs.StoreBc6
import Verif.Proofs.Formats
import Verif.Spec.Store

/-!
# Property C85: flat BC6H pictures come out exactly

`Verif.Spec.Shows dec bytes w h colour` says that some data of `bytes` bytes is decoded to the picture
`colour`. Block (`x / 4`, `y / 4`) covers pixel (`x`, `y`).
-/

namespace Verif.Props

open Verif Verif.Spec Verif.Proofs Verif.Proofs.Store

section
variable [Build] (w h : Nat)

/-- **C85** BC6H, unsigned: any opaque colour for every block, `c a b ch` is channel `ch` of block (`a`, `b`). -/
theorem C85_bc6_unsigned (hfit : bytesNeeded 4 4 16 w h < 2 ^ 64) (c : Nat → Nat → Nat → Nat)
    (hc : ∀ a b ch, c a b ch < 256) :
    Shows Model.decodeBc6Unsigned (bytesNeeded 4 4 16 w h) w h
      (fun x y => px (c (x / 4) (y / 4) 0) (c (x / 4) (y / 4) 1) (c (x / 4) (y / 4) 2) 255) :=
  shows_of (decoder_spec .bc6u) (by decide) (by decide) hfit (fun a b => B6.flat false (c a b))
    (fun _ _ => B6.flat_length _ _) (fun _ _ => B6.flat_mode _ _)
    (fun x y => B6.flat_texel false (hc _ _) (by omega))

/-- **C85** BC6H, signed: any opaque colour for every block. -/
theorem C85_bc6_signed (hfit : bytesNeeded 4 4 16 w h < 2 ^ 64) (c : Nat → Nat → Nat → Nat)
    (hc : ∀ a b ch, c a b ch < 256) :
    Shows Model.decodeBc6Signed (bytesNeeded 4 4 16 w h) w h
      (fun x y => px (c (x / 4) (y / 4) 0) (c (x / 4) (y / 4) 1) (c (x / 4) (y / 4) 2) 255) :=
  shows_of (decoder_spec .bc6s) (by decide) (by decide) hfit (fun a b => B6.flat true (c a b))
    (fun _ _ => B6.flat_length _ _) (fun _ _ => B6.flat_mode _ _)
    (fun x y => B6.flat_texel true (hc _ _) (by omega))

end

/- A gradient of 10 × 7 pixels in steps of one block. -/
example [Build] : Shows Model.decodeBc6Unsigned 96 10 7 (fun x y => px (x / 4 % 256) (y / 4 % 256) 77 255) := by
  exact C85_bc6_unsigned 10 7 (by decide) (fun a b ch => match ch with | 0 => a % 256 | 1 => b % 256 | _ => 77)
    (fun a b ch => by split <;> omega)

end Verif.Props
