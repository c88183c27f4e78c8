import Verif.Proofs.StoreGradient
import Verif.Props.Store

/-!
# Property C81: gradients in BC1 to BC5 textures
-/

namespace Verif.Props

open Verif Verif.Spec Verif.Proofs Verif.Proofs.Store

/-- `s` of `n` steps from `a` to `b`, rounded down. -/
def stepOf (n a b s : Nat) : Nat := (a * (n - s) + b * s) / n

/-- `s` of 3 steps from one RGB565 word to another, in every channel, with alpha `al`. -/
def rgb565Step (p q s : Nat) (al : Nat := 255) : UInt32 :=
  px (stepOf 3 (red565 p) (red565 q) s) (stepOf 3 (green565 p) (green565 q) s)
    (stepOf 3 (blue565 p) (blue565 q) s) al

section
variable [Build] (w h : Nat)

/-- **C81** BC1: two RGB565 colours per block, and any of the 4 steps between them for every pixel. -/
theorem C81_bc1_gradient (hfit : bytesNeeded 4 4 8 w h < 2 ^ 64) (c : Nat → Nat → Bool → Nat)
    (hc : ∀ a b s, c a b s < 2 ^ 16) (step : Nat → Nat → Nat) (hs : ∀ x y, step x y < 4) :
    Shows Model.decodeBc1 (bytesNeeded 4 4 8 w h) w h
      (fun x y => rgb565Step (c (x / 4) (y / 4) false) (c (x / 4) (y / 4) true) (step x y)) := by
  refine shows_of (decoder_spec .bc1) (by decide) (by decide) hfit
    (fun a b => bytesLe 8 (gradColours (c a b) (inBlock step a b))) (fun _ _ => bytesLe_length _ _)
    (fun _ _ => trivial) (fun x y => ?_)
  refine (gradColours_texel (step := inBlock step (x / 4) (y / 4)) (hc _ _) (fun _ => hs _ _)
    (leNat_bytesLe _ _ (gradColours_lt (hc _ _) (fun _ => hs _ _))) (by omega)).trans ?_
  rw [inBlock_eq]; rfl

/-- **C81** BC2: the same with any of 16 alpha values for every pixel. -/
theorem C81_bc2_gradient (hfit : bytesNeeded 4 4 16 w h < 2 ^ 64) (c : Nat → Nat → Bool → Nat)
    (hc : ∀ a b s, c a b s < 2 ^ 16) (step : Nat → Nat → Nat) (hs : ∀ x y, step x y < 4)
    (al : Nat → Nat → Nat) :
    Shows Model.decodeBc2 (bytesNeeded 4 4 16 w h) w h
      (fun x y => rgb565Step (c (x / 4) (y / 4) false) (c (x / 4) (y / 4) true) (step x y) (17 * (al x y % 16))) := by
  refine shows_of (decoder_spec .bc2) (by decide) (by decide) hfit
    (fun a b => pair (alphaBlock (inBlock al a b)) (gradColours (c a b) (inBlock step a b)))
    (fun _ _ => pair_length _ _) (fun _ _ => trivial) (fun x y => ?_)
  show bc2Texel _ _ = _
  have hs' : ∀ i, inBlock step (x / 4) (y / 4) i < 4 := fun _ => hs _ _
  have hlt := gradColours_lt (hc (x / 4) (y / 4)) hs'
  unfold bc2Texel
  rw [pair_drop, gradColours_texel (hc _ _) hs' (leNat_bytesLe _ _ hlt) (by omega),
    alpha_field (leNat_pair (alphaBlock_lt _) hlt) (by omega), inBlock_eq, inBlock_eq,
    withAlpha_px (third_lt (hs _ _) (red565_lt (hc _ _ _)) (red565_lt (hc _ _ _)))
      (third_lt (hs _ _) (green565_lt _) (green565_lt _)) (third_lt (hs _ _) (blue565_lt _) (blue565_lt _)) (by omega)]
  rfl

/-- **C81** BC3: the same with two alpha values per block, and any of the 8 steps between them for every
pixel. -/
theorem C81_bc3_gradient (hfit : bytesNeeded 4 4 16 w h < 2 ^ 64) (c v : Nat → Nat → Bool → Nat)
    (hc : ∀ a b s, c a b s < 2 ^ 16) (hv : ∀ a b s, v a b s < 2 ^ 8) (step : Nat → Nat → Nat)
    (hs : ∀ x y, step x y < 4) (stepAlpha : Nat → Nat → Nat) (ha : ∀ x y, stepAlpha x y < 8) :
    Shows Model.decodeBc3 (bytesNeeded 4 4 16 w h) w h
      (fun x y => rgb565Step (c (x / 4) (y / 4) false) (c (x / 4) (y / 4) true) (step x y)
        (stepOf 7 (v (x / 4) (y / 4) false) (v (x / 4) (y / 4) true) (stepAlpha x y))) := by
  refine shows_of (decoder_spec .bc3) (by decide) (by decide) hfit
    (fun a b => pair (gradValues (v a b) (inBlock stepAlpha a b)) (gradColours (c a b) (inBlock step a b)))
    (fun _ _ => pair_length _ _) (fun _ _ => trivial) (fun x y => ?_)
  show bc3Texel _ _ = _
  have hs' : ∀ i, inBlock step (x / 4) (y / 4) i < 4 := fun _ => hs _ _
  have ha' : ∀ i, inBlock stepAlpha (x / 4) (y / 4) i < 8 := fun _ => ha _ _
  have hlt := gradColours_lt (hc (x / 4) (y / 4)) hs'
  unfold bc3Texel
  rw [pair_drop, gradColours_texel (hc _ _) hs' (leNat_bytesLe _ _ hlt) (by omega),
    gradValues_value (hv _ _) ha' (leNat_pair (gradValues_lt (hv _ _) ha') hlt) (by omega), inBlock_eq, inBlock_eq,
    withAlpha_px (third_lt (hs _ _) (red565_lt (hc _ _ _)) (red565_lt (hc _ _ _)))
      (third_lt (hs _ _) (green565_lt _) (green565_lt _)) (third_lt (hs _ _) (blue565_lt _) (blue565_lt _)) (by omega)]
  rfl

/-- **C81** BC4: two values of red per block, and any of the 8 steps between them for every pixel. -/
theorem C81_bc4_gradient (hfit : bytesNeeded 4 4 8 w h < 2 ^ 64) (v : Nat → Nat → Bool → Nat)
    (hv : ∀ a b s, v a b s < 2 ^ 8) (step : Nat → Nat → Nat) (hs : ∀ x y, step x y < 8) :
    Shows Model.decodeBc4 (bytesNeeded 4 4 8 w h) w h
      (fun x y => px (stepOf 7 (v (x / 4) (y / 4) false) (v (x / 4) (y / 4) true) (step x y)) 0 0 255) := by
  refine shows_of (decoder_spec .bc4) (by decide) (by decide) hfit
    (fun a b => bytesLe 8 (gradValues (v a b) (inBlock step a b))) (fun _ _ => bytesLe_length _ _)
    (fun _ _ => trivial) (fun x y => ?_)
  show bc4Texel _ _ = _
  have hs' : ∀ i, inBlock step (x / 4) (y / 4) i < 8 := fun _ => hs _ _
  unfold bc4Texel
  rw [gradValues_single (hv _ _) hs' (by omega), inBlock_eq]
  rfl

/-- **C81** BC5: the same for red and for green. -/
theorem C81_bc5_gradient (hfit : bytesNeeded 4 4 16 w h < 2 ^ 64) (v u : Nat → Nat → Bool → Nat)
    (hv : ∀ a b s, v a b s < 2 ^ 8) (hu : ∀ a b s, u a b s < 2 ^ 8) (step : Nat → Nat → Nat)
    (hs : ∀ x y, step x y < 8) (step' : Nat → Nat → Nat) (hs' : ∀ x y, step' x y < 8) :
    Shows Model.decodeBc5 (bytesNeeded 4 4 16 w h) w h
      (fun x y => px (stepOf 7 (v (x / 4) (y / 4) false) (v (x / 4) (y / 4) true) (step x y))
        (stepOf 7 (u (x / 4) (y / 4) false) (u (x / 4) (y / 4) true) (step' x y)) 0 255) := by
  refine shows_of (decoder_spec .bc5) (by decide) (by decide) hfit
    (fun a b => pair (gradValues (v a b) (inBlock step a b)) (gradValues (u a b) (inBlock step' a b)))
    (fun _ _ => pair_length _ _) (fun _ _ => trivial) (fun x y => ?_)
  show bc5Texel _ _ = _
  have h1 : ∀ i, inBlock step (x / 4) (y / 4) i < 8 := fun _ => hs _ _
  have h2 : ∀ i, inBlock step' (x / 4) (y / 4) i < 8 := fun _ => hs' _ _
  have hlt := gradValues_lt (hu (x / 4) (y / 4)) h2
  unfold bc5Texel
  rw [pair_drop, gradValues_value (hv _ _) h1 (leNat_pair (gradValues_lt (hv _ _) h1) hlt) (by omega),
    gradValues_single (hu _ _) h2 (by omega), inBlock_eq, inBlock_eq]
  rfl

end

/- A diagonal gradient from black to white, 10 × 7 pixels. -/
example [Build] : Shows Model.decodeBc1 48 10 7 (fun x y => rgb565Step 0 0xffff (min 3 (x + y))) :=
  C81_bc1_gradient 10 7 (by decide) (fun _ _ s => if s then 0xffff else 0) (by intro _ _ s; cases s <;> decide)
    (fun x y => min 3 (x + y)) (by intro x y; omega)

example : rgb565Step 0 0xffff 1 = px 85 85 85 255 := by decide

/- The same with an alpha value that falls from left to right, in BC2 and in BC3. -/
example [Build] : Shows Model.decodeBc2 96 10 7
    (fun x y => rgb565Step 0 0xffff (min 3 (x + y)) (17 * ((15 - x) % 16))) :=
  C81_bc2_gradient 10 7 (by decide) (fun _ _ s => if s then 0xffff else 0) (by intro _ _ s; cases s <;> decide)
    (fun x y => min 3 (x + y)) (by intro x y; omega) (fun x _ => 15 - x)

example [Build] : Shows Model.decodeBc3 96 10 7
    (fun x y => rgb565Step 0 0xffff (min 3 (x + y)) (stepOf 7 255 9 (min 7 x))) :=
  C81_bc3_gradient 10 7 (by decide) (fun _ _ s => if s then 0xffff else 0) (fun _ _ s => if s then 9 else 255)
    (by intro _ _ s; cases s <;> decide) (by intro _ _ s; cases s <;> decide)
    (fun x y => min 3 (x + y)) (by intro x y; omega) (fun x _ => min 7 x) (by intro x y; omega)

/- Rising and falling values in BC4 and BC5. -/
example [Build] : Shows Model.decodeBc4 48 10 7 (fun x y => px (stepOf 7 3 201 (min 7 (x + y))) 0 0 255) :=
  C81_bc4_gradient 10 7 (by decide) (fun _ _ s => if s then 201 else 3) (by intro _ _ s; cases s <;> decide)
    (fun x y => min 7 (x + y)) (by intro x y; omega)

example [Build] : Shows Model.decodeBc5 96 10 7
    (fun x y => px (stepOf 7 3 201 (min 7 (x + y))) (stepOf 7 255 0 (min 7 x)) 0 255) :=
  C81_bc5_gradient 10 7 (by decide) (fun _ _ s => if s then 201 else 3) (fun _ _ s => if s then 0 else 255)
    (by intro _ _ s; cases s <;> decide) (by intro _ _ s; cases s <;> decide)
    (fun x y => min 7 (x + y)) (by intro x y; omega) (fun x _ => min 7 x) (by intro x y; omega)

end Verif.Props
