import Verif.Proofs.Store
import Verif.Props.Astc

/-!
# Property C81: which pictures come out exactly

`Verif.Spec.Shows dec bytes w h colour` says that some data of `bytes` bytes is decoded to the picture
`colour`. Block (`x / 4`, `y / 4`) covers pixel (`x`, `y`).
-/

namespace Verif.Props

open Verif Verif.Spec Verif.Proofs Verif.Proofs.Store

/-- The opaque colour of an RGB565 word, and the same with another alpha. -/
def rgb565 (q : Nat) (a : Nat := 255) : UInt32 := px (red565 q) (green565 q) (blue565 q) a

/-- Texel `i` of block (`a`, `b`) is this pixel. -/
def inBlock {α : Type} (f : Nat → Nat → α) (a b i : Nat) : α := f (4 * a + i % 4) (4 * b + i / 4)

theorem inBlock_eq {α : Type} (f : Nat → Nat → α) (x y : Nat) :
    inBlock f (x / 4) (y / 4) (y % 4 * 4 + x % 4) = f x y := by
  unfold inBlock
  rw [show 4 * (x / 4) + (y % 4 * 4 + x % 4) % 4 = x by omega,
    show 4 * (y / 4) + (y % 4 * 4 + x % 4) / 4 = y by omega]

section
variable [Build] (w h : Nat)

/-- **C81** BC1: two RGB565 colours per block, one of them for every pixel. -/
theorem C81_bc1 (hfit : bytesNeeded 4 4 8 w h < 2 ^ 64) (c : Nat → Nat → Bool → Nat)
    (hc : ∀ a b s, c a b s < 2 ^ 16) (pick : Nat → Nat → Bool) :
    Shows Model.decodeBc1 (bytesNeeded 4 4 8 w h) w h
      (fun x y => rgb565 (c (x / 4) (y / 4) (pick x y))) := by
  refine shows_of (decoder_spec .bc1) (by decide) (by decide) hfit
    (fun a b => bytesLe 8 (bc1Block (c a b) (inBlock pick a b))) (fun _ _ => bytesLe_length _ _)
    (fun _ _ => trivial) (fun x y => ?_)
  refine (bc1Texel_block (hc _ _) (leNat_bytesLe _ _ (bc1Block_lt (hc _ _) _)) false (by omega)).trans ?_
  rw [inBlock_eq]; rfl

/-- **C81** BC1A: one RGB565 colour per block, and any of its pixels transparent. -/
theorem C81_bc1a (hfit : bytesNeeded 4 4 8 w h < 2 ^ 64) (c : Nat → Nat → Nat)
    (hc : ∀ a b, c a b < 2 ^ 16) (cut : Nat → Nat → Bool) :
    Shows Model.decodeBc1a (bytesNeeded 4 4 8 w h) w h
      (fun x y => if cut x y then 0 else rgb565 (c (x / 4) (y / 4))) := by
  refine shows_of (decoder_spec .bc1a) (by decide) (by decide) hfit
    (fun a b => bytesLe 8 (cutBlock (c a b) (inBlock cut a b))) (fun _ _ => bytesLe_length _ _)
    (fun _ _ => trivial) (fun x y => ?_)
  refine (bc1aTexel_block (hc _ _) (leNat_bytesLe _ _ (cutBlock_lt (hc _ _) _)) (by omega)).trans ?_
  rw [inBlock_eq]; rfl

/-- **C81** BC2: two RGB565 colours per block, and any of 16 alpha values for every pixel. -/
theorem C81_bc2 (hfit : bytesNeeded 4 4 16 w h < 2 ^ 64) (c : Nat → Nat → Bool → Nat)
    (hc : ∀ a b s, c a b s < 2 ^ 16) (pick : Nat → Nat → Bool) (al : Nat → Nat → Nat) :
    Shows Model.decodeBc2 (bytesNeeded 4 4 16 w h) w h
      (fun x y => rgb565 (c (x / 4) (y / 4) (pick x y)) (17 * (al x y % 16))) := by
  refine shows_of (decoder_spec .bc2) (by decide) (by decide) hfit
    (fun a b => pair (alphaBlock (inBlock al a b)) (bc1Block (c a b) (inBlock pick a b)))
    (fun _ _ => pair_length _ _) (fun _ _ => trivial) (fun x y => ?_)
  show bc2Texel _ _ = _
  have hlt := bc1Block_lt (hc (x / 4) (y / 4)) (inBlock pick (x / 4) (y / 4))
  unfold bc2Texel
  rw [pair_drop, bc1Texel_block (hc _ _) (leNat_bytesLe _ _ hlt) false (by omega),
    alpha_field (leNat_pair (alphaBlock_lt _) hlt) (by omega), inBlock_eq, inBlock_eq,
    withAlpha_px (red565_lt (hc _ _ _)) (green565_lt _) (blue565_lt _) (by omega)]
  rfl

/-- **C81** BC3: two RGB565 colours and two alpha values per block, one of each for every pixel. -/
theorem C81_bc3 (hfit : bytesNeeded 4 4 16 w h < 2 ^ 64) (c v : Nat → Nat → Bool → Nat)
    (hc : ∀ a b s, c a b s < 2 ^ 16) (hv : ∀ a b s, v a b s < 2 ^ 8) (pick pickAlpha : Nat → Nat → Bool) :
    Shows Model.decodeBc3 (bytesNeeded 4 4 16 w h) w h
      (fun x y => rgb565 (c (x / 4) (y / 4) (pick x y)) (v (x / 4) (y / 4) (pickAlpha x y))) := by
  refine shows_of (decoder_spec .bc3) (by decide) (by decide) hfit
    (fun a b => pair (valueBlock (v a b) (inBlock pickAlpha a b)) (bc1Block (c a b) (inBlock pick a b)))
    (fun _ _ => pair_length _ _) (fun _ _ => trivial) (fun x y => ?_)
  show bc3Texel _ _ = _
  have hlt := bc1Block_lt (hc (x / 4) (y / 4)) (inBlock pick (x / 4) (y / 4))
  unfold bc3Texel
  rw [pair_drop, bc1Texel_block (hc _ _) (leNat_bytesLe _ _ hlt) false (by omega),
    bc3Value_block (hv _ _) (leNat_pair (valueBlock_lt (hv _ _) _) hlt) (by omega), inBlock_eq, inBlock_eq,
    withAlpha_px (red565_lt (hc _ _ _)) (green565_lt _) (blue565_lt _) (by omega)]
  rfl

/-- **C81** BC4: two values of red per block, one of them for every pixel. -/
theorem C81_bc4 (hfit : bytesNeeded 4 4 8 w h < 2 ^ 64) (v : Nat → Nat → Bool → Nat)
    (hv : ∀ a b s, v a b s < 2 ^ 8) (pick : Nat → Nat → Bool) :
    Shows Model.decodeBc4 (bytesNeeded 4 4 8 w h) w h
      (fun x y => px (v (x / 4) (y / 4) (pick x y)) 0 0 255) := by
  refine shows_of (decoder_spec .bc4) (by decide) (by decide) hfit
    (fun a b => bytesLe 8 (valueBlock (v a b) (inBlock pick a b))) (fun _ _ => bytesLe_length _ _)
    (fun _ _ => trivial) (fun x y => ?_)
  show bc4Texel _ _ = _
  unfold bc4Texel
  rw [bc3Value_single (hv _ _) (by omega),
    inBlock_eq]

/-- **C81** BC5: two values of red and two of green per block, one of each for every pixel. -/
theorem C81_bc5 (hfit : bytesNeeded 4 4 16 w h < 2 ^ 64) (v u : Nat → Nat → Bool → Nat)
    (hv : ∀ a b s, v a b s < 2 ^ 8) (hu : ∀ a b s, u a b s < 2 ^ 8) (pick pick' : Nat → Nat → Bool) :
    Shows Model.decodeBc5 (bytesNeeded 4 4 16 w h) w h
      (fun x y => px (v (x / 4) (y / 4) (pick x y)) (u (x / 4) (y / 4) (pick' x y)) 0 255) := by
  refine shows_of (decoder_spec .bc5) (by decide) (by decide) hfit
    (fun a b => pair (valueBlock (v a b) (inBlock pick a b)) (valueBlock (u a b) (inBlock pick' a b)))
    (fun _ _ => pair_length _ _) (fun _ _ => trivial) (fun x y => ?_)
  show bc5Texel _ _ = _
  have hlt := valueBlock_lt (hu (x / 4) (y / 4)) (inBlock pick' (x / 4) (y / 4))
  unfold bc5Texel
  rw [pair_drop, bc3Value_block (hv _ _) (leNat_pair (valueBlock_lt (hv _ _) _) hlt) (by omega),
    bc3Value_single (hu _ _) (by omega), inBlock_eq, inBlock_eq]

/-- **C81** BC7: any colour and alpha for every block. -/
theorem C81_bc7 (hfit : bytesNeeded 4 4 16 w h < 2 ^ 64) (c : Nat → Nat → UInt32) :
    Shows Model.decodeBc7 (bytesNeeded 4 4 16 w h) w h (fun x y => c (x / 4) (y / 4)) := by
  refine shows_of (decoder_spec .bc7) (by decide) (by decide) hfit
    (fun a b => bytesLe 16 (bc7Block (red (c a b)) (green (c a b)) (blue (c a b)) (alpha (c a b))))
    (fun _ _ => bytesLe_length _ _) (fun _ _ => trivial) (fun x y => ?_)
  refine (bc7_texel (Nat.mod_lt _ (by omega)) (Nat.mod_lt _ (by omega)) (Nat.mod_lt _ (by omega)) ?_
    (by omega)).trans (px_channels _)
  have := (c (x / 4) (y / 4)).toNat_lt
  unfold Spec.alpha; omega

/-- **C81** ASTC of every block size: any colour and alpha for every block. -/
theorem C81_astc (bw bh : Nat) (hbw : 2 ≤ bw) (hbh : 2 ≤ bh) (hb : bw * bh ≤ 144)
    (hfit : bytesNeeded bw bh 16 w h < 2 ^ 64) (c : Nat → Nat → UInt32) :
    Shows (fun data w h image => Model.decodeAstc data w h bw bh image) (bytesNeeded bw bh 16 w h) w h
      (fun x y => c (x / bw) (y / bh)) := by
  have hblk := fun p : UInt32 => astc_block (r := red p) (g := green p) (b := blue p) (a := alpha p)
    (Nat.mod_lt _ (by omega)) (Nat.mod_lt _ (by omega)) (Nat.mod_lt _ (by omega))
    (by have := p.toNat_lt; unfold Spec.alpha; omega)
  refine shows_of (C35_astc bw bh hbw hbh hb) (by omega) (by omega) hfit
    (fun a b => bytesLe 16 (astcBlock (red (c a b)) (green (c a b)) (blue (c a b)) (alpha (c a b))))
    (fun _ _ => bytesLe_length _ _) (fun _ _ => (hblk _).1) (fun x y => ?_)
  exact ((hblk _).2 _ _ _ _).trans (px_channels _)

end

/- A gradient of 10 × 7 pixels in steps of one block can be shown by BC7. -/
example [Build] : Shows Model.decodeBc7 96 10 7 (fun x y => px (x / 4) (y / 4) 77 (200 + x / 4)) :=
  C81_bc7 10 7 (by decide) (fun a b => px a b 77 (200 + a))

/- A checkerboard of 10 × 7 pixels in red and green can be shown by BC1. -/
example [Build] : Shows Model.decodeBc1 48 10 7
    (fun x y => if (x + y) % 2 = 1 then px 255 0 0 255 else px 0 255 0 255) := by
  have h := C81_bc1 10 7 (by decide) (fun _ _ s => if s then 0xf800 else 0x07e0)
    (by intro _ _ s; cases s <;> decide) (fun x y => (x + y) % 2 == 1)
  have e : (fun x y => rgb565 (if ((x + y) % 2 == 1) = true then 0xf800 else 0x07e0)) =
      fun x y => if (x + y) % 2 = 1 then px 255 0 0 255 else px 0 255 0 255 := by
    funext x y
    by_cases h : (x + y) % 2 = 1 <;> simp [h] <;> decide
  rw [← e]
  exact h

/- The other conditions can be met: blocks of 5 × 4 texels, a value per block. -/
example [Build] : Shows (fun data w h image => Model.decodeAstc data w h 5 4 image) 64 10 7
    (fun x y => px (x / 5) (y / 4) 3 4) :=
  C81_astc 10 7 5 4 (by decide) (by decide) (by decide) (by decide) (fun a b => px a b 3 4)

end Verif.Props
