import Verif.Model.Image
import Verif.Model.BitReader
import Verif.Model.BptcTables

/-!
# Model of BC7 (`src/bcn/bc7.rs`)
-/

namespace Verif.Model

open Verif

/-- `struct Bc7ModeInfo`: `src/bcn/bc7.rs:6-16` -/
structure Bc7ModeInfo where
  num_subsets : Nat
  partition_bits : Nat
  rotation_bits : Nat
  index_selection_bits : Nat
  color_bits : Nat
  alpha_bits : Nat
  endpoint_pbits : Nat
  shared_pbits : Nat
  index_bits0 : Nat
  index_bits1 : Nat

/-- `S_BP7_MODE_INFO`: `src/bcn/bc7.rs:18-124` -/
def bc7ModeInfo : List Bc7ModeInfo := [
  ⟨3, 4, 0, 0, 4, 0, 1, 0, 3, 0⟩,
  ⟨2, 6, 0, 0, 6, 0, 0, 1, 3, 0⟩,
  ⟨3, 6, 0, 0, 5, 0, 0, 0, 2, 0⟩,
  ⟨2, 6, 0, 0, 7, 0, 1, 0, 2, 0⟩,
  ⟨1, 0, 2, 1, 5, 6, 0, 0, 2, 3⟩,
  ⟨1, 0, 2, 0, 7, 8, 0, 0, 2, 2⟩,
  ⟨1, 0, 0, 0, 7, 7, 1, 0, 4, 0⟩,
  ⟨2, 6, 0, 0, 5, 5, 1, 0, 2, 0⟩]

variable [Build]

/-- `expand_quantized(v, bits)`: `src/bcn/bc7.rs:127-130`.
`overflowing_shr` on a `u8` shifts by `bits mod 8`. -/
def expandQuantized (v bits : Nat) : Out Nat := do
  let k ← subU 16 8 (asU 16 bits)
  let s ← shlU 16 v k
  let s := asU 8 s
  pure (s ||| (s >>> (bits % 8)))

/-- The `while` loop that finds the mode: `src/bcn/bc7.rs:134-140`. It reads at most nine bits;
`fuel` counts down from 9 (the value at fuel 0 is never reached from there).
Returns the mode and the bit position. -/
def bc7Mode (data : List UInt8) : Nat → Nat → Nat → Out (Nat × Nat)
  | 0, mode, pos => .ok (mode, pos)
  | fuel + 1, mode, pos => do
    let (b, pos) ← readBits data pos 1
    if b = 0 ∧ mode < 8 then bc7Mode data fuel (mode + 1) pos else pure (mode, pos)

/-- Read the endpoints of one channel: `src/bcn/bc7.rs:163-166` (red), `168-171` (green),
`173-176` (blue), `179-182` (alpha). The loop state is (bit position, endpoint array). -/
def bc7ReadEndpoints (data : List UInt8) (numSubsets bits pbits : Nat) (pos : Nat) (ep : List Nat) :
    Out (Nat × List Nat) :=
  forRange numSubsets (fun ii (s : Nat × List Nat) => do
    let (pos, ep) := s
    let (v, pos) ← readBits data pos bits
    let v ← shlU 16 v pbits
    let ep ← setIdx ep (ii * 2) (asU 8 v)
    let (v, pos) ← readBits data pos bits
    let v ← shlU 16 v pbits
    let ep ← setIdx ep (ii * 2 + 1) (asU 8 v)
    pure (pos, ep)) (pos, ep)

/-- `ep[j] |= v`, as in `src/bcn/bc7.rs:196`. -/
def orIdx (ep : List Nat) (j v : Nat) : Out (List Nat) := do
  let x ← idx ep j
  setIdx ep j (x ||| v)

/-- `ep[j] = expand_quantized(ep[j], bits)`, as in `src/bcn/bc7.rs:210`. -/
def expandIdx (ep : List Nat) (j bits : Nat) : Out (List Nat) := do
  let x ← idx ep j
  let v ← expandQuantized x bits
  setIdx ep j v

/-- The four endpoint arrays `ep_r`, `ep_g`, `ep_b`, `ep_a`: `src/bcn/bc7.rs:158-161`. -/
structure Endpoints where
  r : List Nat
  g : List Nat
  b : List Nat
  a : List Nat

/-- The P-bit loop: `src/bcn/bc7.rs:187-205`. -/
def bc7PBits (data : List UInt8) (mi : Bc7ModeInfo) (modePbits : Nat) (pos : Nat)
    (ep : Endpoints) : Out (Nat × Endpoints) :=
  if modePbits ≠ 0 then
    forRange mi.num_subsets (fun ii (s : Nat × Endpoints) => do
      let (pos, ep) := s
      let (v, pos) ← readBits data pos modePbits
      let pda := asU 8 v
      let (pdb, pos) ← (if mi.shared_pbits = 0 then do
          let (v, pos) ← readBits data pos modePbits
          pure (asU 8 v, pos)
        else pure (pda, pos))
      let r ← orIdx ep.r (ii * 2) pda
      let r ← orIdx r (ii * 2 + 1) pdb
      let g ← orIdx ep.g (ii * 2) pda
      let g ← orIdx g (ii * 2 + 1) pdb
      let b ← orIdx ep.b (ii * 2) pda
      let b ← orIdx b (ii * 2 + 1) pdb
      let a ← orIdx ep.a (ii * 2) pda
      let a ← orIdx a (ii * 2 + 1) pdb
      pure (pos, ⟨r, g, b, a⟩)) (pos, ep)
  else pure (pos, ep)

/-- Expansion of the colour endpoints: `src/bcn/bc7.rs:209-216`. -/
def bc7ExpandColor (numSubsets bits : Nat) (ep : Endpoints) : Out Endpoints :=
  forRange numSubsets (fun ii (ep : Endpoints) => do
    let r ← expandIdx ep.r (ii * 2) bits
    let r ← expandIdx r (ii * 2 + 1) bits
    let g ← expandIdx ep.g (ii * 2) bits
    let g ← expandIdx g (ii * 2 + 1) bits
    let b ← expandIdx ep.b (ii * 2) bits
    let b ← expandIdx b (ii * 2 + 1) bits
    pure ⟨r, g, b, ep.a⟩) ep

/-- Expansion of the alpha endpoints: `src/bcn/bc7.rs:221-224`. -/
def bc7ExpandAlpha (numSubsets bits : Nat) (a : List Nat) : Out (List Nat) :=
  forRange numSubsets (fun ii a => do
    let a ← expandIdx a (ii * 2) bits
    expandIdx a (ii * 2 + 1) bits) a

/-- The subset of texel `idx` and the anchor texel of that subset: `src/bcn/bc7.rs:244-264`. -/
def bc7Subset (numSubsets partitionSetIdx i : Nat) : Out (Nat × Nat) :=
  if numSubsets = 2 then do
    let p ← idx bptcP2 partitionSetIdx
    let s ← shrU 64 p i
    let s := s &&& 1
    let anchor ← (if s ≠ 0 then idx bptcA2 partitionSetIdx else pure 0)
    pure (s, anchor)
  else if numSubsets = 3 then do
    let p ← idx bptcP3 partitionSetIdx
    let s ← shrU 64 p (2 * i)
    let s := s &&& 3
    let anchor ← (if s ≠ 0 then do
        let k ← subU 64 s 1
        let row ← idx bptcA3 k
        idx row partitionSetIdx
      else pure 0)
    pure (s, anchor)
  else pure (0, 0)

/-- `((ep[s] as u16 * wa + ep[s + 1] as u16 * wb + 32) >> 6) as u8`:
`src/bcn/bc7.rs:302-313` -/
def bc7Lerp (ep : List Nat) (s wa wb : Nat) : Out Nat := do
  let e0 ← idx ep s
  let x ← mulU 16 e0 wa
  let e1 ← idx ep (s + 1)
  let y ← mulU 16 e1 wb
  let t ← addU 16 x y
  let t ← addU 16 t 32
  let t ← shrU 16 t 6
  pure (asU 8 t)

/-- One iteration of the texel loop: `src/bcn/bc7.rs:242-327`.
The state is ((`offset[0]`, `offset[1]`), `outbuf`). `factors` is the array of two rows. -/
def bc7Texel (data : List UInt8) (pos : Nat) (mi : Bc7ModeInfo) (partitionSetIdx rotationMode
    indexSelectionMode : Nat) (factors : List (List Nat)) (ep : Endpoints) (i : Nat)
    (s : (Nat × Nat) × List UInt32) : Out ((Nat × Nat) × List UInt32) := do
  let ((offset0, offset1), outbuf) := s
  let (subsetIndex, indexAnchor) ← bc7Subset mi.num_subsets partitionSetIdx i
  let anchor := if i = indexAnchor then 1 else 0
  let num0 ← subU 64 mi.index_bits0 anchor
  let num1 ← (if mi.index_bits1 ≠ 0 then subU 64 mi.index_bits1 anchor else pure 0)
  let index0 ← peek data pos offset0 num0
  let index1 ← (if mi.index_bits1 ≠ 0 then peek data pos offset1 num1 else pure index0)
  let index := [index0, index1]
  let offset0 ← addU 64 offset0 num0
  let offset1 ← addU 64 offset1 num1
  let row ← idx factors indexSelectionMode
  let k ← idx index indexSelectionMode
  let fc ← idx row k
  let other ← subU 64 1 indexSelectionMode
  let row ← idx factors other
  let k ← idx index other
  let fa ← idx row k
  let fca ← subU 16 64 fc
  let faa ← subU 16 64 fa
  let s2 ← mulU 64 subsetIndex 2
  let rr ← bc7Lerp ep.r s2 fca fc
  let gg ← bc7Lerp ep.g s2 fca fc
  let bb ← bc7Lerp ep.b s2 fca fc
  let aa ← bc7Lerp ep.a s2 faa fa
  let c := match rotationMode with
    | 1 => color aa gg bb rr
    | 2 => color rr aa bb gg
    | 3 => color rr gg aa bb
    | _ => color rr gg bb aa
  let outbuf ← setIdx outbuf i c
  pure ((offset0, offset1), outbuf)

/-- `decode_bc7_block`: `src/bcn/bc7.rs:132-330` -/
def decodeBc7Block : BlockFn := fun data outbuf => do
  let (mode, pos) ← bc7Mode data 9 0 0
  if mode = 8 then fillRange outbuf 0 16 0
  else do
    let mi ← idx bc7ModeInfo mode
    let modePbits := if mi.endpoint_pbits ≠ 0 then mi.endpoint_pbits else mi.shared_pbits
    let (partitionSetIdx, pos) ← readBits data pos mi.partition_bits
    let (rotationMode, pos) ← readBits data pos mi.rotation_bits
    let (indexSelectionMode, pos) ← readBits data pos mi.index_selection_bits
    let zeros := [0, 0, 0, 0, 0, 0]
    let (pos, epR) ← bc7ReadEndpoints data mi.num_subsets mi.color_bits modePbits pos zeros
    let (pos, epG) ← bc7ReadEndpoints data mi.num_subsets mi.color_bits modePbits pos zeros
    let (pos, epB) ← bc7ReadEndpoints data mi.num_subsets mi.color_bits modePbits pos zeros
    let (pos, epA) ← (if mi.alpha_bits > 0 then
        bc7ReadEndpoints data mi.num_subsets mi.alpha_bits modePbits pos zeros
      else pure (pos, [0xff, 0xff, 0xff, 0xff, 0xff, 0xff]))
    let (pos, ep) ← bc7PBits data mi modePbits pos ⟨epR, epG, epB, epA⟩
    let colorBits ← addU 64 mi.color_bits modePbits
    let ep ← bc7ExpandColor mi.num_subsets colorBits ep
    let epA ← (if mi.alpha_bits > 0 then do
        let alphaBits ← addU 64 mi.alpha_bits modePbits
        bc7ExpandAlpha mi.num_subsets alphaBits ep.a
      else pure ep.a)
    let ep : Endpoints := ⟨ep.r, ep.g, ep.b, epA⟩
    let k0 ← subU 64 mi.index_bits0 2
    let f0 ← idx bptcFactors k0
    let f1 ← (if mi.index_bits1 ≠ 0 then do
        let k1 ← subU 64 mi.index_bits1 2
        idx bptcFactors k1
      else do
        let k0 ← subU 64 mi.index_bits0 2
        idx bptcFactors k0)
    let a ← mulU 64 16 mi.index_bits0
    let a ← subU 64 a 1
    let offset1 ← mulU 64 mi.num_subsets a
    let (_, outbuf) ← forRange 4 (fun yy s => forRange 4 (fun xx s =>
        bc7Texel data pos mi partitionSetIdx (asU 8 rotationMode) indexSelectionMode [f0, f1] ep
          (yy * 4 + xx) s) s) ((0, offset1), outbuf)
    pure outbuf

/-- `decode_bc7`: `src/bcn.rs:29` -/
def decodeBc7 := blockDecoder 4 4 16 decodeBc7Block

end Verif.Model
