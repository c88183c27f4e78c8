import Verif.Model.Image
import Verif.Model.BitReader
import Verif.Model.BptcTables
import Verif.Model.F16

/-!
# Model of BC6H (`src/bcn/bc6.rs`)

The three endpoint arrays `ep_r`, `ep_g`, `ep_b` (four `u16` each) are stored in one list of twelve
numbers: channel `c` (0 red, 1 green, 2 blue), endpoint `k` is entry `4 c + k`.
-/

namespace Verif.Model

open Verif

/-- `struct Bc6hModeInfo`: `src/bcn/bc6.rs:5-10` -/
structure Bc6ModeInfo where
  transformed : Bool
  partition_bits : Nat
  endpoint_bits : Nat
  delta_bits : List Nat

/-- `S_BC6H_MODE_INFO`: `src/bcn/bc6.rs:12-273` -/
def bc6ModeInfo : List Bc6ModeInfo := [
  ⟨true, 5, 10, [5, 5, 5]⟩,
  ⟨true, 5, 7, [6, 6, 6]⟩,
  ⟨true, 5, 11, [5, 4, 4]⟩,
  ⟨false, 0, 10, [10, 10, 10]⟩,
  ⟨false, 0, 0, [0, 0, 0]⟩,
  ⟨false, 0, 0, [0, 0, 0]⟩,
  ⟨true, 5, 11, [4, 5, 4]⟩,
  ⟨true, 0, 11, [9, 9, 9]⟩,
  ⟨false, 0, 0, [0, 0, 0]⟩,
  ⟨false, 0, 0, [0, 0, 0]⟩,
  ⟨true, 5, 11, [4, 4, 5]⟩,
  ⟨true, 0, 12, [8, 8, 8]⟩,
  ⟨false, 0, 0, [0, 0, 0]⟩,
  ⟨false, 0, 0, [0, 0, 0]⟩,
  ⟨true, 5, 9, [5, 5, 5]⟩,
  ⟨true, 0, 16, [4, 4, 4]⟩,
  ⟨false, 0, 0, [0, 0, 0]⟩,
  ⟨false, 0, 0, [0, 0, 0]⟩,
  ⟨true, 5, 8, [6, 5, 5]⟩,
  ⟨false, 0, 0, [0, 0, 0]⟩,
  ⟨false, 0, 0, [0, 0, 0]⟩,
  ⟨false, 0, 0, [0, 0, 0]⟩,
  ⟨true, 5, 8, [5, 6, 5]⟩,
  ⟨false, 0, 0, [0, 0, 0]⟩,
  ⟨false, 0, 0, [0, 0, 0]⟩,
  ⟨false, 0, 0, [0, 0, 0]⟩,
  ⟨true, 5, 8, [5, 5, 6]⟩,
  ⟨false, 0, 0, [0, 0, 0]⟩,
  ⟨false, 0, 0, [0, 0, 0]⟩,
  ⟨false, 0, 0, [0, 0, 0]⟩,
  ⟨false, 5, 6, [6, 6, 6]⟩,
  ⟨false, 0, 0, [0, 0, 0]⟩]

/-- One statement `ep_c[k] |= bit.read(n) << s`, as in `src/bcn/bc6.rs:363`. -/
structure Bc6Stmt where
  c : Nat
  k : Nat
  n : Nat
  s : Nat

/-- The read statements of each `match mode` arm, in order: `src/bcn/bc6.rs:357-604` (five-bit modes)
and `608-655` (two-bit modes). Simplification: the straight-line code of each arm is represented as
the list of its statements. -/
def bc6Stmts : Nat → List Bc6Stmt
  | 0 => [ -- 609-629
    ⟨1, 2, 1, 4⟩, ⟨2, 2, 1, 4⟩, ⟨2, 3, 1, 4⟩, ⟨0, 0, 10, 0⟩, ⟨1, 0, 10, 0⟩, ⟨2, 0, 10, 0⟩,
    ⟨0, 1, 5, 0⟩, ⟨1, 3, 1, 4⟩, ⟨1, 2, 4, 0⟩, ⟨1, 1, 5, 0⟩, ⟨2, 3, 1, 0⟩, ⟨1, 3, 4, 0⟩,
    ⟨2, 1, 5, 0⟩, ⟨2, 3, 1, 1⟩, ⟨2, 2, 4, 0⟩, ⟨0, 2, 5, 0⟩, ⟨2, 3, 1, 2⟩, ⟨0, 3, 5, 0⟩,
    ⟨2, 3, 1, 3⟩]
  | 1 => [ -- 631-655
    ⟨1, 2, 1, 5⟩, ⟨1, 3, 1, 4⟩, ⟨1, 3, 1, 5⟩, ⟨0, 0, 7, 0⟩, ⟨2, 3, 1, 0⟩, ⟨2, 3, 1, 1⟩,
    ⟨2, 2, 1, 4⟩, ⟨1, 0, 7, 0⟩, ⟨2, 2, 1, 5⟩, ⟨2, 3, 1, 2⟩, ⟨1, 2, 1, 4⟩, ⟨2, 0, 7, 0⟩,
    ⟨2, 3, 1, 3⟩, ⟨2, 3, 1, 5⟩, ⟨2, 3, 1, 4⟩, ⟨0, 1, 6, 0⟩, ⟨1, 2, 4, 0⟩, ⟨1, 1, 6, 0⟩,
    ⟨1, 3, 4, 0⟩, ⟨2, 1, 6, 0⟩, ⟨2, 2, 4, 0⟩, ⟨0, 2, 6, 0⟩, ⟨0, 3, 6, 0⟩]
  | 2 => [ -- 358-377
    ⟨0, 0, 10, 0⟩, ⟨1, 0, 10, 0⟩, ⟨2, 0, 10, 0⟩, ⟨0, 1, 5, 0⟩, ⟨0, 0, 1, 10⟩,
    ⟨1, 2, 4, 0⟩, ⟨1, 1, 4, 0⟩, ⟨1, 0, 1, 10⟩, ⟨2, 3, 1, 0⟩, ⟨1, 3, 4, 0⟩, ⟨2, 1, 4, 0⟩,
    ⟨2, 0, 1, 10⟩, ⟨2, 3, 1, 1⟩, ⟨2, 2, 4, 0⟩, ⟨0, 2, 5, 0⟩, ⟨2, 3, 1, 2⟩, ⟨0, 3, 5, 0⟩,
    ⟨2, 3, 1, 3⟩]
  | 3 => [ -- 379-386
    ⟨0, 0, 10, 0⟩, ⟨1, 0, 10, 0⟩, ⟨2, 0, 10, 0⟩, ⟨0, 1, 10, 0⟩, ⟨1, 1, 10, 0⟩,
    ⟨2, 1, 10, 0⟩]
  | 6 => [ -- 388-409
    ⟨0, 0, 10, 0⟩, ⟨1, 0, 10, 0⟩, ⟨2, 0, 10, 0⟩, ⟨0, 1, 4, 0⟩, ⟨0, 0, 1, 10⟩,
    ⟨1, 3, 1, 4⟩, ⟨1, 2, 4, 0⟩, ⟨1, 1, 5, 0⟩, ⟨1, 0, 1, 10⟩, ⟨1, 3, 4, 0⟩, ⟨2, 1, 4, 0⟩,
    ⟨2, 0, 1, 10⟩, ⟨2, 3, 1, 1⟩, ⟨2, 2, 4, 0⟩, ⟨0, 2, 4, 0⟩, ⟨2, 3, 1, 0⟩, ⟨2, 3, 1, 2⟩,
    ⟨0, 3, 4, 0⟩, ⟨1, 2, 1, 4⟩, ⟨2, 3, 1, 3⟩]
  | 7 => [ -- 411-421
    ⟨0, 0, 10, 0⟩, ⟨1, 0, 10, 0⟩, ⟨2, 0, 10, 0⟩, ⟨0, 1, 9, 0⟩, ⟨0, 0, 1, 10⟩,
    ⟨1, 1, 9, 0⟩, ⟨1, 0, 1, 10⟩, ⟨2, 1, 9, 0⟩, ⟨2, 0, 1, 10⟩]
  | 10 => [ -- 423-444
    ⟨0, 0, 10, 0⟩, ⟨1, 0, 10, 0⟩, ⟨2, 0, 10, 0⟩, ⟨0, 1, 4, 0⟩, ⟨0, 0, 1, 10⟩,
    ⟨2, 2, 1, 4⟩, ⟨1, 2, 4, 0⟩, ⟨1, 1, 4, 0⟩, ⟨1, 0, 1, 10⟩, ⟨2, 3, 1, 0⟩, ⟨1, 3, 4, 0⟩,
    ⟨2, 1, 5, 0⟩, ⟨2, 0, 1, 10⟩, ⟨2, 2, 4, 0⟩, ⟨0, 2, 4, 0⟩, ⟨2, 3, 1, 1⟩, ⟨2, 3, 1, 2⟩,
    ⟨0, 3, 4, 0⟩, ⟨2, 3, 1, 4⟩, ⟨2, 3, 1, 3⟩]
  | 11 => [ -- 446-459
    ⟨0, 0, 10, 0⟩, ⟨1, 0, 10, 0⟩, ⟨2, 0, 10, 0⟩, ⟨0, 1, 8, 0⟩, ⟨0, 0, 1, 11⟩,
    ⟨0, 0, 1, 10⟩, ⟨1, 1, 8, 0⟩, ⟨1, 0, 1, 11⟩, ⟨1, 0, 1, 10⟩, ⟨2, 1, 8, 0⟩,
    ⟨2, 0, 1, 11⟩, ⟨2, 0, 1, 10⟩]
  | 14 => [ -- 461-481
    ⟨0, 0, 9, 0⟩, ⟨2, 2, 1, 4⟩, ⟨1, 0, 9, 0⟩, ⟨1, 2, 1, 4⟩, ⟨2, 0, 9, 0⟩, ⟨2, 3, 1, 4⟩,
    ⟨0, 1, 5, 0⟩, ⟨1, 3, 1, 4⟩, ⟨1, 2, 4, 0⟩, ⟨1, 1, 5, 0⟩, ⟨2, 3, 1, 0⟩, ⟨1, 3, 4, 0⟩,
    ⟨2, 1, 5, 0⟩, ⟨2, 3, 1, 1⟩, ⟨2, 2, 4, 0⟩, ⟨0, 2, 5, 0⟩, ⟨2, 3, 1, 2⟩, ⟨0, 3, 5, 0⟩,
    ⟨2, 3, 1, 3⟩]
  | 15 => [ -- 483-508
    ⟨0, 0, 10, 0⟩, ⟨1, 0, 10, 0⟩, ⟨2, 0, 10, 0⟩, ⟨0, 1, 4, 0⟩, ⟨0, 0, 1, 15⟩,
    ⟨0, 0, 1, 14⟩, ⟨0, 0, 1, 13⟩, ⟨0, 0, 1, 12⟩, ⟨0, 0, 1, 11⟩, ⟨0, 0, 1, 10⟩,
    ⟨1, 1, 4, 0⟩, ⟨1, 0, 1, 15⟩, ⟨1, 0, 1, 14⟩, ⟨1, 0, 1, 13⟩, ⟨1, 0, 1, 12⟩,
    ⟨1, 0, 1, 11⟩, ⟨1, 0, 1, 10⟩, ⟨2, 1, 4, 0⟩, ⟨2, 0, 1, 15⟩, ⟨2, 0, 1, 14⟩,
    ⟨2, 0, 1, 13⟩, ⟨2, 0, 1, 12⟩, ⟨2, 0, 1, 11⟩, ⟨2, 0, 1, 10⟩]
  | 18 => [ -- 510-530
    ⟨0, 0, 8, 0⟩, ⟨1, 3, 1, 4⟩, ⟨2, 2, 1, 4⟩, ⟨1, 0, 8, 0⟩, ⟨2, 3, 1, 2⟩, ⟨1, 2, 1, 4⟩,
    ⟨2, 0, 8, 0⟩, ⟨2, 3, 1, 3⟩, ⟨2, 3, 1, 4⟩, ⟨0, 1, 6, 0⟩, ⟨1, 2, 4, 0⟩, ⟨1, 1, 5, 0⟩,
    ⟨2, 3, 1, 0⟩, ⟨1, 3, 4, 0⟩, ⟨2, 1, 5, 0⟩, ⟨2, 3, 1, 1⟩, ⟨2, 2, 4, 0⟩, ⟨0, 2, 6, 0⟩,
    ⟨0, 3, 6, 0⟩]
  | 22 => [ -- 532-554
    ⟨0, 0, 8, 0⟩, ⟨2, 3, 1, 0⟩, ⟨2, 2, 1, 4⟩, ⟨1, 0, 8, 0⟩, ⟨1, 2, 1, 5⟩, ⟨1, 2, 1, 4⟩,
    ⟨2, 0, 8, 0⟩, ⟨1, 3, 1, 5⟩, ⟨2, 3, 1, 4⟩, ⟨0, 1, 5, 0⟩, ⟨1, 3, 1, 4⟩, ⟨1, 2, 4, 0⟩,
    ⟨1, 1, 6, 0⟩, ⟨1, 3, 4, 0⟩, ⟨2, 1, 5, 0⟩, ⟨2, 3, 1, 1⟩, ⟨2, 2, 4, 0⟩, ⟨0, 2, 5, 0⟩,
    ⟨2, 3, 1, 2⟩, ⟨0, 3, 5, 0⟩, ⟨2, 3, 1, 3⟩]
  | 26 => [ -- 556-578
    ⟨0, 0, 8, 0⟩, ⟨2, 3, 1, 1⟩, ⟨2, 2, 1, 4⟩, ⟨1, 0, 8, 0⟩, ⟨2, 2, 1, 5⟩, ⟨1, 2, 1, 4⟩,
    ⟨2, 0, 8, 0⟩, ⟨2, 3, 1, 5⟩, ⟨2, 3, 1, 4⟩, ⟨0, 1, 5, 0⟩, ⟨1, 3, 1, 4⟩, ⟨1, 2, 4, 0⟩,
    ⟨1, 1, 5, 0⟩, ⟨2, 3, 1, 0⟩, ⟨1, 3, 4, 0⟩, ⟨2, 1, 6, 0⟩, ⟨2, 2, 4, 0⟩, ⟨0, 2, 5, 0⟩,
    ⟨2, 3, 1, 2⟩, ⟨0, 3, 5, 0⟩, ⟨2, 3, 1, 3⟩]
  | 30 => [ -- 580-604
    ⟨0, 0, 6, 0⟩, ⟨1, 3, 1, 4⟩, ⟨2, 3, 1, 0⟩, ⟨2, 3, 1, 1⟩, ⟨2, 2, 1, 4⟩, ⟨1, 0, 6, 0⟩,
    ⟨1, 2, 1, 5⟩, ⟨2, 2, 1, 5⟩, ⟨2, 3, 1, 2⟩, ⟨1, 2, 1, 4⟩, ⟨2, 0, 6, 0⟩, ⟨1, 3, 1, 5⟩,
    ⟨2, 3, 1, 3⟩, ⟨2, 3, 1, 5⟩, ⟨2, 3, 1, 4⟩, ⟨0, 1, 6, 0⟩, ⟨1, 2, 4, 0⟩, ⟨1, 1, 6, 0⟩,
    ⟨1, 3, 4, 0⟩, ⟨2, 1, 6, 0⟩, ⟨2, 2, 4, 0⟩, ⟨0, 2, 6, 0⟩, ⟨0, 3, 6, 0⟩]
  | _ => []

variable [Build]

/-- `ep[j] = f(ep[j])`, as in `src/bcn/bc6.rs:663`. -/
def modIdx (ep : List Nat) (j : Nat) (f : Nat → Out Nat) : Out (List Nat) := do
  let x ← idx ep j
  let v ← f x
  setIdx ep j v

/-- Run the read statements of a mode, as in `src/bcn/bc6.rs:389-408`. Returns the bit position and the
endpoints. -/
def bc6Read (data : List UInt8) : List Bc6Stmt → Nat → List Nat → Out (Nat × List Nat)
  | [], pos, ep => .ok (pos, ep)
  | st :: rest, pos, ep => do
    let (v, pos) ← readBits data pos st.n
    let v ← shlU 16 v st.s
    let ep ← modIdx ep (4 * st.c + st.k) (fun x => pure (x ||| v))
    bc6Read data rest pos ep

/-- `sign_extend`: `src/bcn/bc6.rs:323-326` -/
def signExtend (value numBits : Nat) : Out Nat := do
  let k ← subU 64 numBits 1
  let mask ← shlU 16 1 k
  pure ((2 ^ 16 + (value ^^^ mask) - mask) % 2 ^ 16)

/-- `unquantize`: `src/bcn/bc6.rs:275-312` -/
def unquantize (value : Nat) (signed : Bool) (endpointBits : Nat) : Out Nat := do
  let k ← subU 64 endpointBits 1
  let maxValue ← shlU 16 1 k
  if signed then
    if endpointBits ≥ 16 then pure value
    else do
      let sign := value &&& 0x8000 ≠ 0
      let value := value &&& 0x7fff
      let unq ← (if value = 0 then pure 0 else do
        let lim ← subU 16 maxValue 1
        if value ≥ lim then pure 0x7fff
        else do
          let t ← shlU 32 value 15
          let t ← addU 32 t 0x4000
          let k ← subU 64 endpointBits 1
          let t ← shrU 32 t k
          pure (asU 16 t))
      if sign then do
        let t ← subU 16 0xffff unq
        addU 16 t 1
      else pure unq
  else if endpointBits ≥ 15 then pure value
  else if value = 0 then pure 0
  else if value = maxValue then pure 0xffff
  else do
    let t ← shlU 32 value 15
    let t ← addU 32 t 0x4000
    let k ← subU 64 endpointBits 1
    let t ← shrU 32 t k
    pure (asU 16 t)

/-- `finish_unquantize`: `src/bcn/bc6.rs:314-321` -/
def finishUnquantize (value : Nat) (signed : Bool) : Out Nat :=
  if signed then do
    let sign := value &&& 0x8000
    let t ← mulU 32 (value &&& 0x7fff) 31
    let t ← shrU 32 t 5
    pure (asU 16 t ||| sign)
  else do
    let t ← mulU 32 value 31
    let t ← shrU 32 t 6
    pure (asU 16 t)

/-- The body of the delta loop for endpoint `ii`: `src/bcn/bc6.rs:671-689`. -/
def bc6Delta (mi : Bc6ModeInfo) (signed : Bool) (ii : Nat) (ep : List Nat) : Out (List Nat) := do
  let ep ← (if signed || mi.transformed then do
      let d0 ← idx mi.delta_bits 0
      let ep ← modIdx ep ii (fun x => signExtend x d0)
      let d1 ← idx mi.delta_bits 1
      let ep ← modIdx ep (4 + ii) (fun x => signExtend x d1)
      let d2 ← idx mi.delta_bits 2
      modIdx ep (8 + ii) (fun x => signExtend x d2)
    else pure ep)
  if mi.transformed then do
    let one ← shlU 16 1 mi.endpoint_bits
    let mask ← subU 16 one 1
    let r0 ← idx ep 0
    let ep ← modIdx ep ii (fun x => pure (asU 16 (x + r0) &&& mask))
    let g0 ← idx ep 4
    let ep ← modIdx ep (4 + ii) (fun x => pure (asU 16 (x + g0) &&& mask))
    let b0 ← idx ep 8
    let ep ← modIdx ep (8 + ii) (fun x => pure (asU 16 (x + b0) &&& mask))
    if signed then do
      let ep ← modIdx ep ii (fun x => signExtend x mi.endpoint_bits)
      let ep ← modIdx ep (4 + ii) (fun x => signExtend x mi.endpoint_bits)
      modIdx ep (8 + ii) (fun x => signExtend x mi.endpoint_bits)
    else pure ep
  else pure ep

/-- From the endpoints as read to the unquantised endpoints: `src/bcn/bc6.rs:662-696`. -/
def bc6Endpoints (mi : Bc6ModeInfo) (signed : Bool) (ep : List Nat) : Out (List Nat) := do
  let ep ← (if signed then do
      let ep ← modIdx ep 0 (fun x => signExtend x mi.endpoint_bits)
      let ep ← modIdx ep 4 (fun x => signExtend x mi.endpoint_bits)
      modIdx ep 8 (fun x => signExtend x mi.endpoint_bits)
    else pure ep)
  let numSubsets := if mi.partition_bits ≠ 0 then 2 else 1
  let ep ← forRange (numSubsets * 2 - 1) (fun j ep => bc6Delta mi signed (j + 1) ep) ep
  forRange (numSubsets * 2) (fun ii ep => do
    let ep ← modIdx ep ii (fun x => unquantize x signed mi.endpoint_bits)
    let ep ← modIdx ep (4 + ii) (fun x => unquantize x signed mi.endpoint_bits)
    modIdx ep (8 + ii) (fun x => unquantize x signed mi.endpoint_bits)) ep

/-- One interpolated channel: `src/bcn/bc6.rs:730-745`; `c` is the channel, `s` twice the subset. -/
def bc6Channel (ep : List Nat) (c s fca fcb : Nat) (signed : Bool) : Out Nat := do
  let e0 ← idx ep (4 * c + s)
  let x ← mulU 32 e0 fca
  let e1 ← idx ep (4 * c + (s + 1))
  let y ← mulU 32 e1 fcb
  let t ← addU 32 x y
  let t ← addU 32 t 32
  let t ← shrU 32 t 6
  finishUnquantize (asU 16 t) signed

/-- Subset and anchor index of texel `i`: `src/bcn/bc6.rs:708-722`. -/
def bc6Subset (mi : Bc6ModeInfo) (partitionSetIdx i : Nat) : Out (Nat × Nat) :=
  if mi.partition_bits ≠ 0 then do
    let p ← idx bptcP2 partitionSetIdx
    let s ← shrU 64 p i
    let s := s &&& 1
    let anchor ← (if s ≠ 0 then idx bptcA2 partitionSetIdx else pure 0)
    pure (s, anchor)
  else pure (0, 0)

/-- One iteration of the texel loop: `src/bcn/bc6.rs:708-748`. The state is the bit position and
`outbuf`. -/
def bc6Texel (data : List UInt8) (mi : Bc6ModeInfo) (signed : Bool) (partitionSetIdx indexBits : Nat)
    (factors ep : List Nat) (i : Nat) (st : Nat × List UInt32) : Out (Nat × List UInt32) := do
  let (pos, outbuf) := st
  let (subsetIndex, indexAnchor) ← bc6Subset mi partitionSetIdx i
  let anchor := if i = indexAnchor then 1 else 0
  let num ← subU 64 indexBits anchor
  let (index, pos) ← readBits data pos num
  let fc ← idx factors index
  let fca ← subU 32 64 fc
  let s2 ← mulU 64 subsetIndex 2
  let rr ← bc6Channel ep 0 s2 fca fc signed
  let gg ← bc6Channel ep 1 s2 fca fc signed
  let bb ← bc6Channel ep 2 s2 fca fc signed
  let r8 ← f16ToU8 rr
  let g8 ← f16ToU8 gg
  let b8 ← f16ToU8 bb
  let outbuf ← setIdx outbuf i (color r8 g8 b8 255)
  pure (pos, outbuf)

/-- Everything after the mode is known: `src/bcn/bc6.rs:356-750`. -/
def bc6Body (data : List UInt8) (outbuf : List UInt32) (signed : Bool) (mode pos : Nat) :
    Out (List UInt32) := do
  let (pos, ep) ← bc6Read data (bc6Stmts mode) pos [0, 0, 0, 0, 0, 0, 0, 0, 0, 0, 0, 0]
  let mi ← idx bc6ModeInfo mode
  let ep ← bc6Endpoints mi signed ep
  let (partitionSetIdx, pos) ← (if mi.partition_bits ≠ 0 then readBits data pos 5 else pure (0, pos))
  let indexBits := if mi.partition_bits ≠ 0 then 3 else 4
  let k ← subU 64 indexBits 2
  let factors ← idx bptcFactors k
  let st ← forRange 4 (fun yy st =>
    forRange 4 (fun xx st =>
      bc6Texel data mi signed partitionSetIdx indexBits factors ep (yy * 4 + xx) st) st)
    (pos, outbuf)
  pure st.2

/-- `decode_bc6_block`: `src/bcn/bc6.rs:339-750` -/
def decodeBc6Block (signed : Bool) : BlockFn := fun data outbuf => do
  let (m, pos) ← readBits data 0 2
  let mode := asU 8 m
  if mode &&& 2 ≠ 0 then do
    let (v, pos) ← readBits data pos 3
    let v ← shlU 16 v 2
    let mode := mode ||| asU 8 v
    let mi ← idx bc6ModeInfo mode
    if mi.endpoint_bits = 0 then fillRange outbuf 0 16 0
    else bc6Body data outbuf signed mode pos
  else bc6Body data outbuf signed mode pos

/-- `decode_bc6_block_signed`: `src/bcn/bc6.rs:752-755` -/
def decodeBc6BlockSigned : BlockFn := decodeBc6Block true
/-- `decode_bc6_block_unsigned`: `src/bcn/bc6.rs:757-760` -/
def decodeBc6BlockUnsigned : BlockFn := decodeBc6Block false

/-- `decode_bc6_signed`: `src/bcn.rs:27` -/
def decodeBc6Signed := blockDecoder 4 4 16 decodeBc6BlockSigned
/-- `decode_bc6_unsigned`: `src/bcn.rs:28` -/
def decodeBc6Unsigned := blockDecoder 4 4 16 decodeBc6BlockUnsigned

/-- `decode_bc6`: `src/bcn.rs:31-42` -/
def decodeBc6 (data : List UInt8) (w h : Nat) (image : List UInt32) (signed : Bool) :
    Out (Except String Unit × List UInt32) :=
  if signed then decodeBc6Signed data w h image else decodeBc6Unsigned data w h image

end Verif.Model
