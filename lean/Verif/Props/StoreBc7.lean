import Verif.Proofs.StoreBc7
import Verif.Props.Store

/-!
# Property C81: gradients in BC7 textures
-/

namespace Verif.Props

open Verif Verif.Spec Verif.Proofs Verif.Proofs.Store

section
variable [Build] (w h : Nat)

/-- **C81** BC7: two colours per block, whose channels are all even or all odd, and any of the 16 steps of
the gradient between them for every pixel. -/
theorem C81_bc7_gradient (hfit : bytesNeeded 4 4 16 w h < 2 ^ 64) (c : Nat → Nat → Bool → UInt32)
    (hc : ∀ a b s, SameParity (c a b s)) (step : Nat → Nat → Nat) (hs : ∀ x y, step x y < 16) :
    Shows Model.decodeBc7 (bytesNeeded 4 4 16 w h) w h
      (fun x y => mixed (c (x / 4) (y / 4) false) (c (x / 4) (y / 4) true) (Bptc.weights4.getD (step x y) 0)) := by
  refine shows_of (decoder_spec .bc7) (by decide) (by decide) hfit
    (fun a b => gradBlock (c a b) (inBlock step a b)) (fun _ _ => bytesLe_length _ _)
    (fun _ _ => trivial) (fun x y => ?_)
  refine (gradBlock_texel (step := inBlock step (x / 4) (y / 4)) (hc _ _) (fun i => hs _ _) (by omega)).trans ?_
  rw [inBlock_eq]; rfl

/-- **C81** BC7: two such colours per block, one of them for every pixel. -/
theorem C81_bc7_two (hfit : bytesNeeded 4 4 16 w h < 2 ^ 64) (c : Nat → Nat → Bool → UInt32)
    (hc : ∀ a b s, SameParity (c a b s)) (pick : Nat → Nat → Bool) :
    Shows Model.decodeBc7 (bytesNeeded 4 4 16 w h) w h (fun x y => c (x / 4) (y / 4) (pick x y)) := by
  have e := C81_bc7_gradient w h hfit c hc (fun x y => if pick x y then 15 else 0)
    (fun x y => by cases pick x y <;> decide)
  have hp : (fun x y => mixed (c (x / 4) (y / 4) false) (c (x / 4) (y / 4) true)
      (Bptc.weights4.getD (if pick x y then 15 else 0) 0)) = fun x y => c (x / 4) (y / 4) (pick x y) := by
    funext x y
    have m : ∀ p q : UInt32, mixed p q 0 = p ∧ mixed p q 64 = q := by
      intro p q
      have i0 : ∀ a b, Bptc.interpolate a b 0 = a := fun a b => by unfold Bptc.interpolate; omega
      have i1 : ∀ a b, Bptc.interpolate a b 64 = b := fun a b => by unfold Bptc.interpolate; omega
      unfold mixed
      rw [i0, i0, i0, i0, i1, i1, i1, i1]
      exact ⟨px_channels p, px_channels q⟩
    cases pick x y with
    | false => exact (m _ _).1
    | true => exact (m _ _).2
  rw [hp] at e
  exact e

/-- **C81** BC7: any two colours per block, one of them for every pixel, up to 1 in every channel. -/
theorem C81_bc7_close (hfit : bytesNeeded 4 4 16 w h < 2 ^ 64) (c : Nat → Nat → Bool → UInt32)
    (pick : Nat → Nat → Bool) :
    ∃ colour, Shows Model.decodeBc7 (bytesNeeded 4 4 16 w h) w h colour ∧
      ∀ x y, WithinOne (colour x y) (c (x / 4) (y / 4) (pick x y)) := by
  refine ⟨_, C81_bc7_two w h hfit (fun a b s => evenColour (c a b s)) (fun a b s => ?_) pick, fun x y => ?_⟩
  · obtain ⟨h1, h2, h3, h4⟩ := evenColour_channels (c a b s)
    unfold SameParity
    rw [h1, h2, h3, h4]
    omega
  · obtain ⟨h1, h2, h3, h4⟩ := evenColour_channels (c (x / 4) (y / 4) (pick x y))
    unfold WithinOne
    simp only [h1, h2, h3, h4]
    omega

end

/- A picture of 10 × 7 pixels with a diagonal gradient from transparent black to opaque white. -/
example [Build] : Shows Model.decodeBc7 96 10 7 (fun x y =>
    mixed (px 0 0 0 0) (px 255 255 255 255) (Bptc.weights4.getD (min 15 (x + y)) 0)) :=
  C81_bc7_gradient 10 7 (by decide) (fun _ _ s => if s then px 255 255 255 255 else px 0 0 0 0)
    (by intro _ _ s; cases s <;> (unfold SameParity; decide)) (fun x y => min 15 (x + y)) (by intro x y; omega)

/- A checkerboard of 10 × 7 pixels in two colours that BC1 cannot hold. -/
example [Build] : Shows Model.decodeBc7 96 10 7 (fun x y =>
    if (x + y) % 2 == 1 then px 101 201 7 99 else px 4 2 0 8) :=
  C81_bc7_two 10 7 (by decide) (fun _ _ s => if s then px 101 201 7 99 else px 4 2 0 8)
    (by intro _ _ s; cases s <;> (unfold SameParity; decide)) (fun x y => (x + y) % 2 == 1)

/- Two colours that are only reached approximately. -/
example [Build] : ∃ colour, Shows Model.decodeBc7 96 10 7 colour ∧
    ∀ x y, WithinOne (colour x y) (if x % 2 == 0 then px 1 2 3 4 else px 4 3 2 1) :=
  C81_bc7_close 10 7 (by decide) (fun _ _ s => if s then px 1 2 3 4 else px 4 3 2 1) (fun x _ => x % 2 == 0)

end Verif.Props
