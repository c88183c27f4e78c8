import Verif.Rust

/-!
# Outcomes of fallible Rust functions

The Crunch decoder is written with functions that return `bool` or `Result` and give up at the
first failure. `Res` adds that third outcome to `Out`.
-/

namespace Verif

/-- Outcome of a fallible Rust function: a value, a reported failure (`false` or `Err`), or a
panic. The message is the one carried by `Err`, and empty where the Rust code returns `false`. -/
inductive Res (α : Type) where
  | ok (a : α)
  | fail (msg : String)
  | panic
deriving DecidableEq, Repr

namespace Res

/-- Sequencing: a failure or a panic aborts the rest. -/
def bind {α β : Type} (x : Res α) (f : α → Res β) : Res β :=
  match x with
  | .ok a => f a
  | .fail e => .fail e
  | .panic => .panic

instance : Monad Res where
  pure := .ok
  bind := bind

/-- Code that cannot fail, run inside a fallible function. -/
def lift {α : Type} : Out α → Res α
  | .ok a => .ok a
  | .panic => .panic

instance : MonadLift Out Res where
  monadLift := lift

@[simp] theorem pure_eq {α : Type} (a : α) : (pure a : Res α) = .ok a := rfl
@[simp] theorem ok_bind {α β : Type} (a : α) (f : α → Res β) : (Res.ok a >>= f) = f a := rfl
@[simp] theorem fail_bind {α β : Type} (e : String) (f : α → Res β) :
    (Res.fail e >>= f) = .fail e := rfl
@[simp] theorem panic_bind {α β : Type} (f : α → Res β) : (Res.panic >>= f) = .panic := rfl
@[simp] theorem lift_ok {α : Type} (a : α) : (liftM (Out.ok a) : Res α) = .ok a := rfl
@[simp] theorem lift_panic {α : Type} : (liftM (Out.panic : Out α) : Res α) = .panic := rfl

theorem bind_eq_ok {α β : Type} {x : Res α} {f : α → Res β} {b : β} :
    (x >>= f) = .ok b ↔ ∃ a, x = .ok a ∧ f a = .ok b := by
  cases x <;> simp

theorem lift_eq_ok {α : Type} {x : Out α} {a : α} :
    (liftM x : Res α) = .ok a ↔ x = .ok a := by
  cases x <;> simp

/-- `match x { Ok(s) => s, Err(_) => return Err(msg) }` -/
def orErr {α : Type} (msg : String) : Res α → Res α
  | .ok a => .ok a
  | .fail _ => .fail msg
  | .panic => .panic

@[simp] theorem orErr_ok {α : Type} (msg : String) (a : α) :
    orErr msg (.ok a) = .ok a := rfl
@[simp] theorem orErr_panic {α : Type} (msg : String) :
    orErr msg (.panic : Res α) = .panic := rfl

/-- `for i in 0..n { s = f(i, s)?; }` -/
def forRange {σ : Type} (n : Nat) (f : Nat → σ → Res σ) (s : σ) : Res σ :=
  match n with
  | 0 => .ok s
  | n + 1 => do
    let s ← forRange n f s
    f n s

theorem forRange_inv {σ : Type} {n : Nat} {f : Nat → σ → Res σ} {s : σ} (P : Nat → σ → Prop)
    (h0 : P 0 s)
    (hstep : ∀ i, i < n → ∀ s, P i s → ∃ s', f i s = .ok s' ∧ P (i + 1) s') :
    ∃ s', forRange n f s = .ok s' ∧ P n s' := by
  induction n with
  | zero => exact ⟨s, rfl, h0⟩
  | succ n ih =>
    obtain ⟨s1, e1, p1⟩ := ih (fun i hi => hstep i (by omega))
    obtain ⟨s2, e2, p2⟩ := hstep n (by omega) s1 p1
    exact ⟨s2, by simp [forRange, e1, e2], p2⟩

/-- A loop that fails in iteration `m`. -/
theorem forRange_fail {σ : Type} {n m : Nat} {f : Nat → σ → Res σ} {s : σ} {msg : String}
    (P : Nat → σ → Prop) (hm : m < n) (h0 : P 0 s)
    (hstep : ∀ i, i < m → ∀ s, P i s → ∃ s', f i s = .ok s' ∧ P (i + 1) s')
    (hfail : ∀ s, P m s → f m s = .fail msg) : forRange n f s = .fail msg := by
  induction n with
  | zero => omega
  | succ n ih =>
    by_cases h : m < n
    · simp [forRange, ih h]
    · obtain rfl : m = n := by omega
      obtain ⟨s1, e1, p1⟩ := forRange_inv P h0 hstep
      simp [forRange, e1, hfail s1 p1]

/-- `for x in l { s = f(x, s)?; }` -/
def forList {α σ : Type} (l : List α) (f : α → σ → Res σ) (s : σ) : Res σ :=
  match l with
  | [] => .ok s
  | x :: l => do
    let s ← f x s
    forList l f s

end Res

end Verif
