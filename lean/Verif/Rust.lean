/-!
# Rust semantics used by the model

Rust integers are modelled by `Nat` (unsigned) and `Int` (signed) values; each arithmetic
operation carries the width of its Rust type. Overflow panics in builds with overflow checks and
wraps in builds without them. Panics are explicit outcomes.
-/

namespace Verif

/-- The build configuration: are arithmetic overflow checks on (debug) or off (release)? -/
class Build where
  overflowChecks : Bool

/-- A debug build (`overflow-checks = true`). -/
@[instance_reducible] def Build.debug : Build := ⟨true⟩
/-- A release build (`overflow-checks = false`). -/
@[instance_reducible] def Build.release : Build := ⟨false⟩

/-- Outcome of running a piece of Rust code: a value or a panic. -/
inductive Out (α : Type) where
  | ok (a : α)
  | panic
deriving DecidableEq, Repr

namespace Out

/-- Sequencing: a panic aborts the rest. -/
def bind {α β : Type} (x : Out α) (f : α → Out β) : Out β :=
  match x with
  | .ok a => f a
  | .panic => .panic

instance : Monad Out where
  pure := .ok
  bind := bind

@[simp] theorem pure_eq {α : Type} (a : α) : (pure a : Out α) = .ok a := rfl
@[simp] theorem ok_bind {α β : Type} (a : α) (f : α → Out β) : (Out.ok a >>= f) = f a := rfl
@[simp] theorem panic_bind {α β : Type} (f : α → Out β) : (Out.panic >>= f) = .panic := rfl
@[simp] theorem map_ok {α β : Type} (a : α) (f : α → β) : (f <$> Out.ok a) = .ok (f a) := rfl
@[simp] theorem map_panic {α β : Type} (f : α → β) : (f <$> (Out.panic : Out α)) = .panic := rfl

theorem bind_eq_ok {α β : Type} {x : Out α} {f : α → Out β} {b : β} :
    (x >>= f) = .ok b ↔ ∃ a, x = .ok a ∧ f a = .ok b := by
  cases x <;> simp

end Out

/-! ## Unsigned arithmetic -/

section Unsigned
variable [Build]

/-- Result of an unsigned operation of width `w` whose exact value is `v`. -/
def fitU (w : Nat) (v : Nat) : Out Nat :=
  if v < 2 ^ w then .ok v
  else if Build.overflowChecks then .panic else .ok (v % 2 ^ w)

/-- Rust `a + b` on an unsigned `w`-bit type. -/
def addU (w a b : Nat) : Out Nat := fitU w (a + b)
/-- Rust `a * b` on an unsigned `w`-bit type. -/
def mulU (w a b : Nat) : Out Nat := fitU w (a * b)
/-- Rust `a - b` on an unsigned `w`-bit type. -/
def subU (w a b : Nat) : Out Nat :=
  if b ≤ a then .ok (a - b)
  else if Build.overflowChecks then .panic else .ok ((2 ^ w + a - b) % 2 ^ w)
/-- Rust `a << k` on an unsigned `w`-bit type (`w` a power of two). -/
def shlU (w a k : Nat) : Out Nat :=
  if k < w then .ok ((a <<< k) % 2 ^ w)
  else if Build.overflowChecks then .panic else .ok ((a <<< (k % w)) % 2 ^ w)
/-- Rust `a >> k` on an unsigned `w`-bit type (`w` a power of two). -/
def shrU (w a k : Nat) : Out Nat :=
  if k < w then .ok (a >>> k)
  else if Build.overflowChecks then .panic else .ok (a >>> (k % w))
/-- Rust `a / b` on an unsigned type: division by zero panics. -/
def divU (a b : Nat) : Out Nat := if b = 0 then .panic else .ok (a / b)
/-- Rust `a.div_ceil(b)`. -/
def divCeil (a b : Nat) : Out Nat :=
  if b = 0 then .panic else .ok (a / b + if a % b = 0 then 0 else 1)

theorem fitU_ok {w v : Nat} (h : v < 2 ^ w) : fitU w v = .ok v := by simp [fitU, h]
theorem addU_ok {w a b : Nat} (h : a + b < 2 ^ w) : addU w a b = .ok (a + b) := fitU_ok h
theorem mulU_ok {w a b : Nat} (h : a * b < 2 ^ w) : mulU w a b = .ok (a * b) := fitU_ok h
theorem subU_ok {w a b : Nat} (h : b ≤ a) : subU w a b = .ok (a - b) := by simp [subU, h]
theorem shlU_ok {w a k : Nat} (h : k < w) : shlU w a k = .ok ((a <<< k) % 2 ^ w) := by
  simp [shlU, h]
theorem shrU_ok {w a k : Nat} (h : k < w) : shrU w a k = .ok (a >>> k) := by simp [shrU, h]
omit [Build] in
theorem divU_ok {a b : Nat} (h : b ≠ 0) : divU a b = .ok (a / b) := by simp [divU, h]
omit [Build] in
theorem divCeil_ok {a b : Nat} (h : b ≠ 0) : divCeil a b = .ok ((a + b - 1) / b) := by
  have hb : 0 < b := Nat.pos_of_ne_zero h
  simp only [divCeil, h, if_false]
  congr 1
  have e := Nat.div_add_mod a b
  have hlt := Nat.mod_lt a hb
  generalize hq : a / b = q at e
  generalize hr : a % b = r at e hlt
  subst e
  have e2 : b * q + r + b - 1 = (r + b - 1) + b * q := by omega
  rw [e2, Nat.add_mul_div_left _ _ hb, Nat.add_comm]
  congr 1
  split
  · next h0 => rw [Nat.div_eq_of_lt]; omega
  · next h0 =>
    have e3 : r + b - 1 = (r - 1) + b * 1 := by omega
    rw [e3, Nat.add_mul_div_left _ _ hb, Nat.div_eq_of_lt (by omega)]

end Unsigned

/-! ## Signed arithmetic -/

section Signed
variable [Build]

/-- Is `v` representable in a signed `w`-bit type? -/
def InI (w : Nat) (v : Int) : Prop := -(2 ^ (w - 1) : Int) ≤ v ∧ v < 2 ^ (w - 1)

instance (w : Nat) (v : Int) : Decidable (InI w v) := by unfold InI; infer_instance

/-- Result of a signed operation of width `w` whose exact value is `v`. -/
def fitI (w : Nat) (v : Int) : Out Int :=
  if InI w v then .ok v
  else if Build.overflowChecks then .panic else .ok (v.bmod (2 ^ w))

/-- Rust `a + b` on a signed `w`-bit type. -/
def addI (w : Nat) (a b : Int) : Out Int := fitI w (a + b)
/-- Rust `a - b` on a signed `w`-bit type. -/
def subI (w : Nat) (a b : Int) : Out Int := fitI w (a - b)
/-- Rust `a * b` on a signed `w`-bit type. -/
def mulI (w : Nat) (a b : Int) : Out Int := fitI w (a * b)
/-- Rust unary `-a` on a signed `w`-bit type. -/
def negI (w : Nat) (a : Int) : Out Int := fitI w (-a)
/-- Rust `a << k` on a signed `w`-bit type (`w` a power of two). -/
def shlI (w : Nat) (a : Int) (k : Nat) : Out Int :=
  if k < w then .ok ((a * 2 ^ k).bmod (2 ^ w))
  else if Build.overflowChecks then .panic else .ok ((a * 2 ^ (k % w)).bmod (2 ^ w))
/-- Rust `a >> k` (arithmetic) on a signed `w`-bit type (`w` a power of two). -/
def shrI (w : Nat) (a : Int) (k : Nat) : Out Int :=
  if k < w then .ok (a / 2 ^ k)
  else if Build.overflowChecks then .panic else .ok (a / 2 ^ (k % w))

theorem fitI_ok {w : Nat} {v : Int} (h : InI w v) : fitI w v = .ok v := by simp [fitI, h]

end Signed

/-- Rust cast `x as uW` (truncating) of an unsigned value. -/
def asU (w x : Nat) : Nat := x % 2 ^ w
/-- Rust cast `x as uW` (two's complement) of a signed value. -/
def asUI (w : Nat) (x : Int) : Nat := (x % 2 ^ w).toNat
/-- Rust cast `x as iW` of an unsigned value. -/
def asI (w x : Nat) : Int := (x : Int).bmod (2 ^ w)

/-- Rust `a & b` on a signed `w`-bit type: the and of the two's complement representations. -/
def andI (w : Nat) (a b : Int) : Int := asI w (asUI w a &&& asUI w b)
/-- Rust `a | b` on a signed `w`-bit type. -/
def orI (w : Nat) (a b : Int) : Int := asI w (asUI w a ||| asUI w b)
/-- Rust `a ^ b` on a signed `w`-bit type. -/
def xorI (w : Nat) (a b : Int) : Int := asI w (asUI w a ^^^ asUI w b)

/-! ## Slices -/

/-- `l[i]` -/
def idx {α : Type} (l : List α) (i : Nat) : Out α :=
  match l[i]? with
  | some a => .ok a
  | none => .panic
/-- `l[i] = a` -/
def setIdx {α : Type} (l : List α) (i : Nat) (a : α) : Out (List α) :=
  if i < l.length then .ok (l.set i a) else .panic
/-- `&l[k..]` -/
def sliceFrom {α : Type} (l : List α) (k : Nat) : Out (List α) :=
  if k ≤ l.length then .ok (l.drop k) else .panic
/-- `&l[a..b]` -/
def slice {α : Type} (l : List α) (a b : Nat) : Out (List α) :=
  if a ≤ b ∧ b ≤ l.length then .ok ((l.drop a).take (b - a)) else .panic
/-- `data[i]` for a byte slice, as a number. -/
def byte (data : List UInt8) (i : Nat) : Out Nat := UInt8.toNat <$> idx data i
/-- `l[a..b].fill(v)` -/
def fillRange {α : Type} (l : List α) (a b : Nat) (v : α) : Out (List α) :=
  if a ≤ b ∧ b ≤ l.length then .ok (l.take a ++ List.replicate (b - a) v ++ l.drop b) else .panic
/-- `dst[a..b].copy_from_slice(src)` -/
def copyFromSlice {α : Type} (dst : List α) (a b : Nat) (src : List α) : Out (List α) :=
  if a ≤ b ∧ b ≤ dst.length ∧ src.length = b - a then
    .ok (dst.take a ++ src ++ dst.drop b)
  else .panic

/-- `uN::from_le_bytes(bs)`: the little-endian number of a list of byte values. -/
def fromLE : List Nat → Nat
  | [] => 0
  | b :: bs => b + 256 * fromLE bs
/-- `uN::from_be_bytes(bs)`. -/
def fromBE (bs : List Nat) : Nat := fromLE bs.reverse

/-- The byte values of a byte list. -/
def bytesOf (data : List UInt8) : List Nat := data.map UInt8.toNat

theorem idx_ok {α : Type} {l : List α} {i : Nat} (h : i < l.length) : idx l i = .ok l[i] := by
  simp [idx, h]
theorem idx_of_some {α : Type} {l : List α} {i : Nat} {a : α} (h : l[i]? = some a) :
    idx l i = .ok a := by simp [idx, h]
theorem idx_panic {α : Type} {l : List α} {i : Nat} (h : l.length ≤ i) : idx l i = .panic := by
  simp [idx, List.getElem?_eq_none h]
theorem setIdx_ok {α : Type} {l : List α} {i : Nat} {a : α} (h : i < l.length) :
    setIdx l i a = .ok (l.set i a) := by simp [setIdx, h]
theorem sliceFrom_ok {α : Type} {l : List α} {k : Nat} (h : k ≤ l.length) :
    sliceFrom l k = .ok (l.drop k) := by simp [sliceFrom, h]
theorem byte_ok {data : List UInt8} {i : Nat} (h : i < data.length) :
    byte data i = .ok data[i].toNat := by simp [byte, idx_ok h]

/-! ## Loops -/

/-- `for i in 0..n { s = f(i, s) }` -/
def forRange {σ : Type} (n : Nat) (f : Nat → σ → Out σ) (s : σ) : Out σ :=
  match n with
  | 0 => .ok s
  | n + 1 => do
    let s ← forRange n f s
    f n s

/-- Loop rule: an invariant that holds initially and is preserved by every (non-panicking)
iteration holds at the end, and the loop does not panic. -/
theorem forRange_inv {σ : Type} {n : Nat} {f : Nat → σ → Out σ} {s : σ} (P : Nat → σ → Prop)
    (h0 : P 0 s)
    (hstep : ∀ i, i < n → ∀ s, P i s → ∃ s', f i s = .ok s' ∧ P (i + 1) s') :
    ∃ s', forRange n f s = .ok s' ∧ P n s' := by
  induction n with
  | zero => exact ⟨s, rfl, h0⟩
  | succ n ih =>
    obtain ⟨s1, e1, p1⟩ := ih (fun i hi => hstep i (by omega))
    obtain ⟨s2, e2, p2⟩ := hstep n (by omega) s1 p1
    exact ⟨s2, by simp [forRange, e1, e2], p2⟩

end Verif
