import Verif.Model.Pvrtc
import Verif.Model.Target32More
import Verif.Model.Bc7
import Verif.Model.Huffman

/-!
# The bodies of the unbounded loops

One iteration of each `loop` and `while` of the code whose number of iterations is not fixed in
advance. The model itself runs these loops with a bound (`mortonLoop`, `bc7Mode`, `Crn.Codec.fill`,
`Crn.findLen`, `Crn.lengthLoop`). `.inl s` goes on with the state `s`, `.inr b` leaves the loop.
-/

namespace Verif.Model

variable [Build]

/-- `while mask < min_dim`: `src/pvrtc.rs:69-73`; `usize` has `bits` bits. -/
def mortonBody (bits x y minDim : Nat) (s : Nat × Nat × Nat) :
    Res ((Nat × Nat × Nat) ⊕ (Nat × Nat × Nat)) :=
  if s.2.2 < minDim then do
    let xs ← shlU bits (x &&& s.2.2) 1
    let v ← shlU bits ((y &&& s.2.2) ||| xs) s.2.1
    let mask ← shlU bits s.2.2 1
    let shift ← addU bits s.2.1 1
    pure (.inl (s.1 ||| v, shift, mask))
  else pure (.inr s)

/-- `while 0 == bit.read(1) && mode < 8`: `src/bcn/bc7.rs:136-138`. The state is (`mode`, bit
position). -/
def bc7ModeBody (data : List UInt8) (s : Nat × Nat) : Res ((Nat × Nat) ⊕ (Nat × Nat)) := do
  let (b, pos) ← readBits data s.2 1
  if b = 0 ∧ s.1 < 8 then do
    let mode ← addU 64 s.1 1
    pure (.inl (mode, pos))
  else pure (.inr (s.1, pos))

/-- `while self.bit_count < num_bits as i32`: `src/crunch/crn_symbol_codec.rs:255-268` -/
def Crn.fillBody (numBits : Nat) (c : Crn.Codec) : Res (Crn.Codec ⊕ Crn.Codec) :=
  if c.bitCount < numBits then do
    let b ← byte c.buf c.next
    let next := c.next + 1
    let bitCount := c.bitCount + 8
    if bitCount > 32 then Res.fail ""
    else do
      let v ← shlU 32 b (32 - bitCount)
      pure (.inl { c with next, bitCount, bitBuf := c.bitBuf ||| v })
  else pure (.inr c)

/-- `loop { if k <= max_codes[len - 1] { break; } len += 1; }`:
`src/crunch/crn_symbol_codec.rs:226-231` -/
def Crn.findLenBody (maxCodes : List Nat) (k len : Nat) : Res (Nat ⊕ Nat) := do
  let i ← subU 32 len 1
  let m ← idx maxCodes i
  if k ≤ m then pure (.inr len)
  else do
    let len ← addU 32 len 1
    pure (.inl len)

/-- `while ofs < total_used_syms`: `src/crunch/crn_symbol_codec.rs:82-151` -/
def Crn.lengthBody (dm : Crn.DataModel) (total : Nat) (s : Nat × List Nat × Crn.Codec) :
    Res ((Nat × List Nat × Crn.Codec) ⊕ (List Nat × Crn.Codec)) :=
  if s.1 < total then do
    let s ← Crn.lengthStep dm total s
    pure (.inl s)
  else pure (.inr (s.2.1, s.2.2))

/-- `while i >= 1 { if num_codes[i] != 0 { break; } i -= 1; }`:
`src/crunch/crn_static_huffman_data_model.rs:164-172` -/
def Crn.lastUsedBody (numCodes : List Nat) (i : Nat) : Res (Nat ⊕ Nat) :=
  if i ≥ 1 then do
    let n ← idx numCodes i
    if n ≠ 0 then pure (.inr i) else pure (.inl (i - 1))
  else pure (.inr i)

/-- `while v > 0 { v >>= 1; l += 1; }`: `src/crunch/crn_utils.rs:14-17`. The state is (`v`, `l`). -/
def Crn.totalBitsBody (s : Nat × Nat) : Res ((Nat × Nat) ⊕ Nat) :=
  if s.1 > 0 then do
    let l ← addU 32 s.2 1
    pure (.inl (s.1 / 2, l))
  else pure (.inr s.2)

omit [Build] in
/-- `while i < n { ...; i += k; }`: `src/crunch/crn_symbol_codec.rs:144-147`, `src/astc.rs:514-521` and
`523-530`, `src/unitycrunch/crn_unpacker.rs:357-380`, `406-454` and `477-509`. The state is `i` and
what the body changes besides `i`; the body may use the value of `i` at its beginning. -/
def countBody {σ : Type} (n k : Nat) (f : Nat → σ → Res σ) (s : Nat × σ) : Res ((Nat × σ) ⊕ σ) :=
  if s.1 < n then do
    let t ← f s.1 s.2
    pure (.inl (s.1 + k, t))
  else pure (.inr s.2)

end Verif.Model
