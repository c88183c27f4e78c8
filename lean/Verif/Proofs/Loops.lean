import Verif.Rust

/-! # Laws of counted loops -/

namespace Verif.Proofs

open Verif

theorem forRange_congr {σ : Type} {n : Nat} {f g : Nat → σ → Out σ} {s : σ}
    (h : ∀ i, i < n → ∀ s, f i s = g i s) : forRange n f s = forRange n g s := by
  induction n with
  | zero => rfl
  | succ n ih =>
    unfold forRange
    rw [ih (fun i hi => h i (by omega))]
    congr 1
    funext s
    exact h n (by omega) s

theorem Out.bind_assoc {α β γ : Type} (x : Out α) (f : α → Out β) (g : β → Out γ) :
    ((x >>= f) >>= g) = (x >>= fun a => f a >>= g) := by cases x <;> rfl

theorem Out.bind_ok {α : Type} (x : Out α) : (x >>= fun a => .ok a) = x := by cases x <;> rfl

theorem forRange_add {σ : Type} (m n : Nat) (f : Nat → σ → Out σ) (s : σ) :
    forRange (m + n) f s = (forRange m f s >>= forRange n (fun i => f (m + i))) := by
  induction n with
  | zero => simp only [Nat.add_zero]; exact (Out.bind_ok _).symm
  | succ n ih =>
    rw [← Nat.add_assoc]
    show (forRange (m + n) f s >>= f (m + n)) = _
    rw [ih, Out.bind_assoc]
    rfl

/-- Two nested loops over rows and columns are one loop over positions in raster order. -/
theorem forRange_nested {σ : Type} (n m : Nat) (g : Nat → σ → Out σ) (s : σ) :
    forRange n (fun y s => forRange m (fun x s => g (y * m + x) s) s) s = forRange (n * m) g s := by
  induction n with
  | zero => simp [forRange]
  | succ n ih =>
    rw [Nat.succ_mul, forRange_add (n * m) m g, ← ih]
    rfl

/-- Inversion of a loop that ended normally. -/
theorem forRange_ok_inv' {σ : Type} {n : Nat} {f : Nat → σ → Out σ} {s s' : σ}
    (h : forRange n f s = .ok s') {P : Nat → σ → Prop} (h0 : P 0 s)
    (hstep : ∀ i, i < n → ∀ s s', P i s → f i s = .ok s' → P (i + 1) s') : P n s' := by
  induction n generalizing s' with
  | zero => cases h; exact h0
  | succ n ih =>
    obtain ⟨s1, e1, e2⟩ := Out.bind_eq_ok.mp h
    exact hstep n (by omega) s1 s' (ih e1 (fun i hi => hstep i (by omega))) e2

end Verif.Proofs
