import Verif.Proofs.Pvrtc
import Verif.Spec.PvrtcUsed

/-! # The blocks a PVRTC texel is made of -/

namespace Verif.Proofs.Pvrtc

open Verif
open Verif.Spec.Pvrtc (block lower upper bw storedAt bilinear Surrounds Moved)

theorem near_own {n nb x : Nat} (hn : n = 4 ∨ n = 8) (h : x / n < nb) :
    x / n = lower n nb x ∨ x / n = upper n nb x := by
  rw [lower_eq hn h, upper_eq hn h]
  by_cases hx : 2 * (x % n) < n
  · right; rw [if_pos hx]; rfl
  · left; rw [if_neg hx]; rfl

theorem near_prev {n nb x : Nat} (hn : n = 4 ∨ n = 8) (h : x / n < nb) :
    (x + n * nb - 1) % (n * nb) / n = lower n nb x ∨
      (x + n * nb - 1) % (n * nb) / n = upper n nb x := by
  rw [(wrapPrev hn h).1]
  by_cases hx : x % n = 0
  · left; rw [if_pos hx, lower_eq hn h, if_pos (by omega)]
  · rw [if_neg hx]; exact near_own hn h

theorem near_next {n nb x : Nat} (hn : n = 4 ∨ n = 8) (h : x / n < nb) :
    (x + 1) % (n * nb) / n = lower n nb x ∨ (x + 1) % (n * nb) / n = upper n nb x := by
  rw [(wrapNext hn h).1]
  by_cases hx : x % n = n - 1
  · right; rw [if_pos hx, upper_eq hn h, if_neg (by omega)]
  · rw [if_neg hx]; exact near_own hn h

section
variable {w2 : Bool} {d1 d2 : List UInt8} {nx ny x y : Nat}

theorem bilinear_local {c1 c2 : Nat → Nat → Nat}
    (h : ∀ bx by', Surrounds w2 nx ny x y bx by' → c1 bx by' = c2 bx by') :
    bilinear w2 c1 nx ny x y = bilinear w2 c2 nx ny x y := by
  unfold bilinear
  simp only
  rw [h _ _ ⟨.inl rfl, .inl rfl⟩, h _ _ ⟨.inr rfl, .inl rfl⟩, h _ _ ⟨.inl rfl, .inr rfl⟩,
    h _ _ ⟨.inr rfl, .inr rfl⟩]

/-- A texel depends only on the four blocks whose centres surround it. -/
theorem texel_local (hx : x / bw w2 < nx) (hy : y / 4 < ny)
    (h : ∀ bx by', Surrounds w2 nx ny x y bx by' → block d1 nx ny bx by' = block d2 nx ny bx by') :
    Spec.Pvrtc.texel w2 d1 nx ny x y = Spec.Pvrtc.texel w2 d2 nx ny x y := by
  have hf : ∀ ch, Spec.Pvrtc.first w2 d1 nx ny x y ch = Spec.Pvrtc.first w2 d2 nx ny x y ch := by
    intro ch
    unfold Spec.Pvrtc.first
    rw [bilinear_local fun bx by' hs => by rw [h bx by' hs]]
  have hg : ∀ ch, Spec.Pvrtc.second w2 d1 nx ny x y ch = Spec.Pvrtc.second w2 d2 nx ny x y ch := by
    intro ch
    unfold Spec.Pvrtc.second
    rw [bilinear_local fun bx by' hs => by rw [h bx by' hs]]
  have hy0 := near_own (Or.inl rfl) hy
  have ho : block d1 nx ny (x / bw w2) (y / 4) = block d2 nx ny (x / bw w2) (y / 4) :=
    h _ _ ⟨near_own (bw_cases w2) hx, hy0⟩
  have hw : Spec.Pvrtc.weight w2 d1 nx ny x y = Spec.Pvrtc.weight w2 d2 nx ny x y := by
    unfold Spec.Pvrtc.weight
    cases w2
    · simp only [Bool.false_eq_true, if_false]
      exact congrArg (Spec.Pvrtc.weight4 · _) ho
    · simp only [if_true]
      have hx : x / 8 < nx := hx
      have ho : block d1 nx ny (x / 8) (y / 4) = block d2 nx ny (x / 8) (y / 4) := ho
      unfold Spec.Pvrtc.weight2 storedAt
      simp only
      have h : ∀ bx by', (bx = lower 8 nx x ∨ bx = upper 8 nx x) ∧
          (by' = lower 4 ny y ∨ by' = upper 4 ny y) →
          block d1 nx ny bx by' = block d2 nx ny bx by' := h
      rw [ho, h _ _ ⟨near_prev (Or.inr rfl) hx, hy0⟩, h _ _ ⟨near_next (Or.inr rfl) hx, hy0⟩,
        h _ _ ⟨near_own (Or.inr rfl) hx, near_prev (Or.inl rfl) hy⟩,
        h _ _ ⟨near_own (Or.inr rfl) hx, near_next (Or.inl rfl) hy⟩]
  have ht : Spec.Pvrtc.transparent w2 d1 nx ny x y = Spec.Pvrtc.transparent w2 d2 nx ny x y := by
    unfold Spec.Pvrtc.transparent
    cases w2
    · exact congrArg (fun b => !false && Spec.Pvrtc.transparent4 b (y % 4 * 4 + x % 4)) ho
    · rfl
  unfold Spec.Pvrtc.texel Spec.Pvrtc.channel
  simp only [hf, hg, hw, ht]

theorem nbPos_move {n b s : Nat} (hb : b < n) (c : Nat) :
    nbPos n ((b + s) % n) c = (nbPos n b c + s) % n := by
  unfold nbPos
  split
  · rw [Nat.mod_add_mod, show (b + s) % n + n - 1 = (b + s) % n + (n - 1) by omega, Nat.mod_add_mod]
    congr 1
    omega
  · rfl
  · rw [Nat.mod_add_mod, Nat.mod_add_mod]
    congr 1
    omega

theorem around_move {sx sy bx by' : Nat} (h : Moved nx ny sx sy d1 d2) (hx : bx < nx) (hy : by' < ny)
    (cx cy : Nat) :
    around d2 nx ny ((bx + sx) % nx) ((by' + sy) % ny) cx cy = around d1 nx ny bx by' cx cy := by
  unfold around
  rw [nbPos_move hx, nbPos_move hy]
  exact h _ _ (nbPos_lt hx cx) (nbPos_lt hy cy)

theorem move_div {n nb x s : Nat} (hn : 0 < n) :
    (x + n * s) % (n * nb) / n = (x / n + s) % nb ∧ (x + n * s) % (n * nb) % n = x % n := by
  constructor
  · rw [Nat.mod_mul_right_div_self, Nat.add_mul_div_left _ _ hn]
  · rw [Nat.mod_mul_right_mod, Nat.add_mul_mod_self_left]

/-- Moving the blocks moves the texels. -/
theorem texel_move {sx sy : Nat} (h : Moved nx ny sx sy d1 d2) (hx : x / bw w2 < nx)
    (hy : y / 4 < ny) :
    Spec.Pvrtc.texel w2 d2 nx ny ((x + bw w2 * sx) % (bw w2 * nx)) ((y + 4 * sy) % (4 * ny)) =
      Spec.Pvrtc.texel w2 d1 nx ny x y := by
  have hb : 0 < bw w2 := by have := bw_cases w2; omega
  obtain ⟨e1, e2⟩ := move_div (x := x) (s := sx) (nb := nx) hb
  obtain ⟨e3, e4⟩ := move_div (n := 4) (x := y) (s := sy) (nb := ny) (by omega)
  rw [texel_eq (by rw [e1]; exact Nat.mod_lt _ (Nat.zero_lt_of_lt hx)) (by rw [e3]; exact Nat.mod_lt _ (Nat.zero_lt_of_lt hy)),
    texel_eq hx hy, e1, e2, e3, e4]
  have ha : around d2 nx ny ((x / bw w2 + sx) % nx) ((y / 4 + sy) % ny) =
      around d1 nx ny (x / bw w2) (y / 4) := by
    funext cx cy
    exact around_move h hx hy cx cy
  unfold paint
  rw [ha]

end

end Verif.Proofs.Pvrtc
