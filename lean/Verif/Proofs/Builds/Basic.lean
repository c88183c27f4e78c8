import Verif.Res

/-!
# Builds with and without overflow checks

A relation between a computation in a debug build and the same computation in a release build: the
debug build panics, or both have the same outcome.
-/

namespace Verif.Proofs.Builds

open Verif

/-- `x` panics or has the same outcome as `y`. -/
def LeO {α : Type} (x y : Out α) : Prop := x = .panic ∨ x = y

/-- `x` panics or has the same outcome as `y`, which may be a failure. -/
def LeR {α : Type} (x y : Res α) : Prop := x = .panic ∨ x = y

theorem LeO.same {α : Type} (x : Out α) : LeO x x := Or.inr rfl
theorem LeR.same {α : Type} (x : Res α) : LeR x x := Or.inr rfl

theorem LeO.seq {α β : Type} {x y : Out α} {f g : α → Out β} (h : LeO x y)
    (hf : ∀ a, LeO (f a) (g a)) : LeO (x >>= f) (y >>= g) := by
  rcases h with rfl | rfl
  · exact Or.inl rfl
  · cases x with
    | panic => exact Or.inl rfl
    | ok a => exact hf a

theorem LeR.seq {α β : Type} {x y : Res α} {f g : α → Res β} (h : LeR x y)
    (hf : ∀ a, LeR (f a) (g a)) : LeR (x >>= f) (y >>= g) := by
  rcases h with rfl | rfl
  · exact Or.inl rfl
  · cases x with
    | panic => exact Or.inl rfl
    | fail m => exact Or.inr rfl
    | ok a => exact hf a

theorem LeO.map {α β : Type} {x y : Out α} {f : α → β} (h : LeO x y) : LeO (f <$> x) (f <$> y) := by
  rcases h with rfl | rfl
  · exact Or.inl rfl
  · exact Or.inr rfl

theorem LeR.map {α β : Type} {x y : Res α} {f : α → β} (h : LeR x y) : LeR (f <$> x) (f <$> y) := by
  rcases h with rfl | rfl
  · exact Or.inl rfl
  · exact Or.inr rfl

theorem LeO.cond {α : Type} {c : Prop} [Decidable c] {x x' y y' : Out α} (h1 : LeO x x')
    (h2 : LeO y y') : LeO (if c then x else y) (if c then x' else y') := by
  split
  · exact h1
  · exact h2

theorem LeR.cond {α : Type} {c : Prop} [Decidable c] {x x' y y' : Res α} (h1 : LeR x x')
    (h2 : LeR y y') : LeR (if c then x else y) (if c then x' else y') := by
  split
  · exact h1
  · exact h2

theorem LeO.loop {σ : Type} {n : Nat} {f g : Nat → σ → Out σ} {s : σ}
    (h : ∀ i s, LeO (f i s) (g i s)) : LeO (forRange n f s) (forRange n g s) := by
  induction n with
  | zero => exact LeO.same _
  | succ n ih => exact LeO.seq ih (h n)

theorem LeR.loop {σ : Type} {n : Nat} {f g : Nat → σ → Res σ} {s : σ}
    (h : ∀ i s, LeR (f i s) (g i s)) : LeR (Res.forRange n f s) (Res.forRange n g s) := by
  induction n with
  | zero => exact LeR.same _
  | succ n ih => exact LeR.seq ih (h n)

theorem LeR.list {α σ : Type} {l : List α} {f g : α → σ → Res σ} {s : σ}
    (h : ∀ x s, LeR (f x s) (g x s)) : LeR (Res.forList l f s) (Res.forList l g s) := by
  induction l generalizing s with
  | nil => exact LeR.same _
  | cons x l ih => exact LeR.seq (h x s) (fun _ => ih)

theorem LeR.lift {α : Type} {x y : Out α} (h : LeO x y) : LeR (liftM x : Res α) (liftM y) := by
  rcases h with rfl | rfl
  · exact Or.inl rfl
  · exact Or.inr rfl

theorem LeR.orErr {α : Type} {m : String} {x y : Res α} (h : LeR x y) :
    LeR (Res.orErr m x) (Res.orErr m y) := by
  rcases h with rfl | rfl
  · exact Or.inl rfl
  · exact Or.inr rfl

/-! ## The operations that can overflow -/

theorem fitU_builds {w v : Nat} : LeO (@fitU Build.debug w v) (@fitU Build.release w v) := by
  unfold fitU
  split
  · exact LeO.same _
  · exact Or.inl rfl

theorem fitI_builds {w : Nat} {v : Int} :
    LeO (@fitI Build.debug w v) (@fitI Build.release w v) := by
  unfold fitI
  split
  · exact LeO.same _
  · exact Or.inl rfl

theorem addU_builds {w a b : Nat} : LeO (@addU Build.debug w a b) (@addU Build.release w a b) :=
  fitU_builds
theorem mulU_builds {w a b : Nat} : LeO (@mulU Build.debug w a b) (@mulU Build.release w a b) :=
  fitU_builds
theorem subU_builds {w a b : Nat} : LeO (@subU Build.debug w a b) (@subU Build.release w a b) := by
  unfold subU
  split
  · exact LeO.same _
  · exact Or.inl rfl
theorem shlU_builds {w a k : Nat} : LeO (@shlU Build.debug w a k) (@shlU Build.release w a k) := by
  unfold shlU
  split
  · exact LeO.same _
  · exact Or.inl rfl
theorem shrU_builds {w a k : Nat} : LeO (@shrU Build.debug w a k) (@shrU Build.release w a k) := by
  unfold shrU
  split
  · exact LeO.same _
  · exact Or.inl rfl
theorem addI_builds {w : Nat} {a b : Int} :
    LeO (@addI Build.debug w a b) (@addI Build.release w a b) := fitI_builds
theorem subI_builds {w : Nat} {a b : Int} :
    LeO (@subI Build.debug w a b) (@subI Build.release w a b) := fitI_builds
theorem mulI_builds {w : Nat} {a b : Int} :
    LeO (@mulI Build.debug w a b) (@mulI Build.release w a b) := fitI_builds
theorem negI_builds {w : Nat} {a : Int} :
    LeO (@negI Build.debug w a) (@negI Build.release w a) := fitI_builds
theorem shlI_builds {w : Nat} {a : Int} {k : Nat} :
    LeO (@shlI Build.debug w a k) (@shlI Build.release w a k) := by
  unfold shlI
  split
  · exact LeO.same _
  · exact Or.inl rfl
theorem shrI_builds {w : Nat} {a : Int} {k : Nat} :
    LeO (@shrI Build.debug w a k) (@shrI Build.release w a k) := by
  unfold shrI
  split
  · exact LeO.same _
  · exact Or.inl rfl

/-- One step through a definition: a sequence, a loop, a branch, or a part that does not depend on the
build. -/
macro "builds_step" : tactic => `(tactic| first
  | with_reducible exact LeO.same _
  | with_reducible exact LeR.same _
  | with_reducible exact addU_builds
  | with_reducible exact subU_builds
  | with_reducible exact mulU_builds
  | with_reducible exact shlU_builds
  | with_reducible exact shrU_builds
  | with_reducible exact addI_builds
  | with_reducible exact subI_builds
  | with_reducible exact mulI_builds
  | with_reducible exact negI_builds
  | with_reducible exact shlI_builds
  | with_reducible exact shrI_builds
  | with_reducible refine LeO.seq ?_ ?_
  | with_reducible refine LeR.seq ?_ ?_
  | with_reducible refine LeO.cond ?_ ?_
  | with_reducible refine LeR.cond ?_ ?_
  | with_reducible refine LeO.loop ?_
  | with_reducible refine LeR.loop ?_
  | with_reducible refine LeR.list ?_
  | with_reducible refine LeR.lift ?_
  | with_reducible refine LeR.orErr ?_
  | with_reducible refine LeO.map ?_
  | with_reducible refine LeR.map ?_
  | with_reducible intro _
  | split)

end Verif.Proofs.Builds
