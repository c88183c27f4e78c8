import Verif.Proofs.StoreAstc
import Verif.Props.Store

/-!
# Property C81: ASTC textures with a choice for every pixel
-/

namespace Verif.Props

open Verif Verif.Spec Verif.Proofs Verif.Proofs.Store Verif.Proofs.StoreAstc

/-- Texel `i` of the `bw × bh` block (`a`, `b`) is this pixel. -/
def inBlockOf {α : Type} (bw bh : Nat) (f : Nat → Nat → α) (a b i : Nat) : α :=
  f (bw * a + i % bw) (bh * b + i / bw)

theorem inBlockOf_eq {α : Type} {bw bh : Nat} (hbw : 0 < bw) (f : Nat → Nat → α) (x y : Nat) :
    inBlockOf bw bh f (x / bw) (y / bh) (y % bh * bw + x % bw) = f x y := by
  unfold inBlockOf
  have h := Nat.mod_lt x hbw
  rw [Nat.mul_comm (y % bh), Nat.mul_add_mod, Nat.mod_eq_of_lt h, Nat.mul_add_div hbw, Nat.div_eq_of_lt h,
    Nat.add_zero, Nat.div_add_mod, Nat.div_add_mod]

/-- All sizes together; `q` is the number of bits of a weight. -/
theorem shows_pairs [Build] {w h bw bh q m : Nat} (hs : (bw, bh, q, m) ∈ shapes)
    (hfit : bytesNeeded bw bh 16 w h < 2 ^ 64) (c : Nat → Nat → Bool → UInt32) (step : Nat → Nat → Nat)
    (hstep : ∀ x y, step x y < 2 ^ q) :
    Shows (fun data w h image => Model.decodeAstc data w h bw bh image) (bytesNeeded bw bh 16 w h) w h
      (fun x y => Astc.between (c (x / bw) (y / bh) false) (c (x / bw) (y / bh) true)
        (Astc.unquantWeight ⟨1, q⟩ (step x y, 0))) := by
  obtain ⟨-, -, hbw, hbh, hb, -⟩ := shapes_size _ hs
  simp only at hbw hbh hb
  have hst : ∀ a b i, inBlockOf bw bh step a b i < 2 ^ q := fun _ _ _ => hstep _ _
  refine shows_of (C35_astc bw bh hbw hbh hb) (by omega) (by omega) hfit
    (fun a b => pairBlock (bw * bh) q m (c a b) (inBlockOf bw bh step a b)) (fun _ _ => bytesLe_length _ _)
    (fun a b => (pairBlock_texel hs (hst a b) true (i := 0) (Nat.mul_pos (by omega) (by omega))).1) (fun x y => ?_)
  have hi : y % bh * bw + x % bw < bw * bh := by
    have h1 := Nat.mod_lt x (show 0 < bw by omega)
    have h2 := Nat.mul_le_mul_right bw (Nat.mod_lt y (show 0 < bh by omega))
    rw [Nat.succ_mul] at h2
    rw [Nat.mul_comm bw]
    omega
  refine (pairBlock_texel hs (hst _ _) _ hi).2.trans ?_
  rw [inBlockOf_eq (by omega)]

section
variable [Build] (w h : Nat)

/-- **C81** ASTC with blocks of 4 × 4 and 5 × 4 texels: two colours per block, and any of the 4 steps between
them for every pixel. -/
theorem C81_astc_gradient (bw bh : Nat) (hsize : (bw, bh) = (4, 4) ∨ (bw, bh) = (5, 4))
    (hfit : bytesNeeded bw bh 16 w h < 2 ^ 64) (c : Nat → Nat → Bool → UInt32) (step : Nat → Nat → Nat)
    (hstep : ∀ x y, step x y < 4) :
    Shows (fun data w h image => Model.decodeAstc data w h bw bh image) (bytesNeeded bw bh 16 w h) w h
      (fun x y => Astc.between (c (x / bw) (y / bh) false) (c (x / bw) (y / bh) true)
        ([0, 21, 43, 64].getD (step x y) 0)) := by
  have ht : ∀ s, s < 4 → Astc.unquantWeight ⟨1, 2⟩ (s, 0) = [0, 21, 43, 64].getD s 0 := by decide
  have e : (fun x y => Astc.between (c (x / bw) (y / bh) false) (c (x / bw) (y / bh) true)
      ([0, 21, 43, 64].getD (step x y) 0)) =
    fun x y => Astc.between (c (x / bw) (y / bh) false) (c (x / bw) (y / bh) true)
      (Astc.unquantWeight ⟨1, 2⟩ (step x y, 0)) := by
    funext x y
    rw [ht _ (hstep x y)]
  rw [e]
  simp only [Prod.mk.injEq] at hsize
  rcases hsize with ⟨rfl, rfl⟩ | ⟨rfl, rfl⟩
  · exact shows_pairs (q := 2) (m := 66 + 98304) (by decide) hfit c step hstep
  · exact shows_pairs (q := 2) (m := 194 + 98304) (by decide) hfit c step hstep

/-- **C81** ASTC with blocks of up to 6 × 6 and 8 × 5 texels: any two colours per block, one of them for every
pixel. -/
theorem C81_astc_two (bw bh : Nat)
    (hsize : (bw, bh) ∈ [(4, 4), (5, 4), (5, 5), (6, 5), (8, 5), (6, 6)])
    (hfit : bytesNeeded bw bh 16 w h < 2 ^ 64) (c : Nat → Nat → Bool → UInt32) (pick : Nat → Nat → Bool) :
    Shows (fun data w h image => Model.decodeAstc data w h bw bh image) (bytesNeeded bw bh 16 w h) w h
      (fun x y => c (x / bw) (y / bh) (pick x y)) := by
  obtain ⟨q, m, hs⟩ : ∃ q m, (bw, bh, q, m) ∈ shapes := by
    simp only [List.mem_cons, Prod.mk.injEq, List.not_mem_nil, or_false] at hsize
    rcases hsize with ⟨rfl, rfl⟩ | ⟨rfl, rfl⟩ | ⟨rfl, rfl⟩ | ⟨rfl, rfl⟩ | ⟨rfl, rfl⟩ | ⟨rfl, rfl⟩
    · exact ⟨2, 66 + 98304, by decide⟩
    · exact ⟨2, 194 + 98304, by decide⟩
    · exact ⟨1, 225 + 98304, by decide⟩
    · exact ⟨1, 353 + 98304, by decide⟩
    · exact ⟨1, 101 + 98304, by decide⟩
    · exact ⟨1, 260 + 98304, by decide⟩
  have hq : q = 1 ∨ q = 2 := by
    have : ∀ x ∈ shapes, x.2.2.1 = 1 ∨ x.2.2.1 = 2 := by decide
    exact this _ hs
  have hw : ∀ b : Bool, Astc.unquantWeight ⟨1, q⟩ (if b then 2 ^ q - 1 else 0, 0) = if b then 64 else 0 := by
    rcases hq with rfl | rfl <;> decide
  have key := shows_pairs hs hfit c (fun x y => if pick x y then 2 ^ q - 1 else 0) (fun x y => by
    have := Nat.two_pow_pos q
    show (if pick x y then 2 ^ q - 1 else 0) < 2 ^ q
    split <;> omega)
  have e : (fun x y => Astc.between (c (x / bw) (y / bh) false) (c (x / bw) (y / bh) true)
      (Astc.unquantWeight ⟨1, q⟩ (if pick x y then 2 ^ q - 1 else 0, 0))) =
    fun x y => c (x / bw) (y / bh) (pick x y) := by
    funext x y
    rw [hw]
    cases pick x y with
    | false => exact (between_ends _ _).1
    | true => exact (between_ends _ _).2
  rw [e] at key
  exact key

end

/- A checkerboard of 10 × 7 pixels, in blocks of 6 × 6. -/
example [Build] : Shows (fun data w h image => Model.decodeAstc data w h 6 6 image) 64 10 7
    (fun x y => if (x + y) % 2 == 1 then px 1 2 3 4 else px 200 100 50 25) :=
  C81_astc_two 10 7 6 6 (by decide) (by decide) (fun _ _ s => if s then px 1 2 3 4 else px 200 100 50 25)
    (fun x y => (x + y) % 2 == 1)

/- A gradient of 10 × 7 pixels, in blocks of 5 × 4. -/
example [Build] : Shows (fun data w h image => Model.decodeAstc data w h 5 4 image) 64 10 7
    (fun x y => Astc.between (px 255 0 9 255) (px 0 0 255 0) ([0, 21, 43, 64].getD (min 3 (x + y)) 0)) :=
  C81_astc_gradient 10 7 5 4 (by decide) (by decide) (fun _ _ s => if s then px 0 0 255 0 else px 255 0 9 255)
    (fun x y => min 3 (x + y)) (by intro x y; omega)

end Verif.Props
