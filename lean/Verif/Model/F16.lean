import Verif.Rust

/-!
# Model of `src/f16.rs` and of the `f32` operations the crate uses

An `f32` is its 32-bit pattern. Arithmetic is IEEE 754 binary32 with round-to-nearest-even, computed
on exact integers: every finite `f32` is an integer multiple of `2^-149`.
-/

namespace Verif.Model

open Verif

/-! ## binary32 -/

/-- A decoded `f32` (the type of the values in `src/f16.rs:119-152`): finite values are `± n · 2^-149`. -/
inductive Fl where
  | nan
  | inf (neg : Bool)
  | fin (neg : Bool) (n : Nat)
deriving DecidableEq, Repr

/-- Decode a bit pattern, as `fp32_from_bits` does: `src/f16.rs:47-49`. -/
def Fl.ofBits (b : Nat) : Fl :=
  let neg := b / 2 ^ 31 % 2 == 1
  let e := b / 2 ^ 23 % 256
  let m := b % 2 ^ 23
  if e = 255 then (if m = 0 then .inf neg else .nan)
  else if e = 0 then .fin neg m
  else .fin neg ((2 ^ 23 + m) * 2 ^ (e - 1))

/-- Encode a value, as `fp32_to_bits` does: `src/f16.rs:52-54` (finite values must be representable). -/
def Fl.toBits : Fl → Nat
  | .nan => 0x7fc00000
  | .inf neg => neg.toNat * 2 ^ 31 + 0x7f800000
  | .fin neg n =>
    neg.toNat * 2 ^ 31 +
      (if n < 2 ^ 23 then n
       else (Nat.log2 n - 22) * 2 ^ 23 + (n / 2 ^ (Nat.log2 n - 23) - 2 ^ 23))

/-- Round `± n · 2^-(149 + k)` to the nearest `f32`, ties to even: the rounding of the
multiplication in `src/bcn/bc6.rs:330`. -/
def Fl.round (neg : Bool) (n k : Nat) : Fl :=
  let d := max k (Nat.log2 n + 1 - 24)
  let q := n / 2 ^ d
  let r := n % 2 ^ d
  let q := if 2 * r > 2 ^ d ∨ (2 * r = 2 ^ d ∧ q % 2 = 1) then q + 1 else q
  let v := q * 2 ^ (d - k)
  if v ≥ 2 ^ 277 then .inf neg else .fin neg v

/-- `a * b`, as in `src/bcn/bc6.rs:330`. -/
def Fl.mul : Fl → Fl → Fl
  | .nan, _ => .nan
  | _, .nan => .nan
  | .inf s, .inf t => .inf (s != t)
  | .inf s, .fin t n => if n = 0 then .nan else .inf (s != t)
  | .fin s n, .inf t => if n = 0 then .nan else .inf (s != t)
  | .fin s n, .fin t m => Fl.round (s != t) (n * m) 149

/-- `a - b`, as in `src/f16.rs:152` (a zero result is `+0`, as under round-to-nearest unless both operands say otherwise;
the crate only subtracts `0.5` from a value that is at least `0.5`). -/
def Fl.sub : Fl → Fl → Fl
  | .nan, _ => .nan
  | _, .nan => .nan
  | .inf s, .inf t => if s = t then .nan else .inf s
  | .inf s, .fin _ _ => .inf s
  | .fin _ _, .inf t => .inf (!t)
  | .fin s n, .fin t m =>
    if s ≠ t then Fl.round s (n + m) 0
    else if m ≤ n then Fl.round (s && m != n) (n - m) 0
    else Fl.round (!s) (m - n) 0

/-- `a < b`, as in `src/astc.rs:10`. -/
def Fl.lt : Fl → Fl → Bool
  | .nan, _ => false
  | _, .nan => false
  | .inf s, .inf t => s && !t
  | .inf s, .fin _ _ => s
  | .fin _ _, .inf t => !t
  | .fin false n, .fin false m => n < m
  | .fin true n, .fin true m => m < n
  | .fin true n, .fin false m => !(n == 0 && m == 0)
  | .fin false _, .fin true _ => false

/-- `f32::clamp(self, min, max)` from the standard library, used in `src/bcn/bc6.rs:330`. -/
def Fl.clamp (x lo hi : Fl) : Fl :=
  let x := if x.lt lo then lo else x
  if hi.lt x then hi else x

/-- `x as u8`, as in `src/bcn/bc6.rs:330`: truncates, saturates, NaN gives 0. -/
def Fl.asU8 : Fl → Nat
  | .nan => 0
  | .inf true => 0
  | .inf false => 255
  | .fin true _ => 0
  | .fin false n => min 255 (n / 2 ^ 149)

/-- The constant `0.0` of `src/bcn/bc6.rs:330`. -/
def Fl.zero : Fl := .fin false 0
/-- The constant `255.0` of `src/bcn/bc6.rs:330`. -/
def Fl.c255 : Fl := .fin false (255 * 2 ^ 149)
/-- The constant `0.5`, `magic_bias`: `src/f16.rs:151`. -/
def Fl.half : Fl := .fin false (2 ^ 148)

/-! ## `src/f16.rs` -/

variable [Build]

/-- `fp16_ieee_to_fp32_value(h: u16) -> f32`: `src/f16.rs:61-167`. The result is the bit pattern. -/
def fp16ToFp32 (h : Nat) : Out Nat := do
  let w ← shlU 32 h 16
  let sign := w &&& 0x80000000
  let twoW := asU 32 (w + w)
  let expOffset ← shlU 32 0xE0 23
  let expScale := Fl.ofBits 0x7800000
  let x ← shrU 32 twoW 4
  let x ← addU 32 x expOffset
  let normalized := Fl.mul (Fl.ofBits x) expScale
  let magicMask ← shlU 32 126 23
  let y ← shrU 32 twoW 17
  let denormalized := Fl.sub (Fl.ofBits (y ||| magicMask)) Fl.half
  let cutoff ← shlU 32 1 27
  let result := sign ||| (if twoW < cutoff then Fl.toBits denormalized else Fl.toBits normalized)
  pure result

/-- `f32_to_u8(f) = (f * 255.0).clamp(0.0, 255.0) as u8`: `src/bcn/bc6.rs:328-331` -/
def f32ToU8 (bits : Nat) : Nat :=
  ((Fl.mul (Fl.ofBits bits) Fl.c255).clamp Fl.zero Fl.c255).asU8

/-- `f16_to_u8(h: u16)`: `src/bcn/bc6.rs:333-337` -/
def f16ToU8 (h : Nat) : Out Nat := f32ToU8 <$> fp16ToFp32 h

end Verif.Model
