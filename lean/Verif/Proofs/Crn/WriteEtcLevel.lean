import Verif.Proofs.Crn.WriteEtc

/-! # Writing ETC blocks of Unity's variant of Crunch -/

namespace Verif.Proofs.Crn.Enc

open Verif Verif.Spec Verif.Spec.Crn Verif.Proofs.Crn

/-- Indices that are written with the uniform code of 13 bits. -/
structure IndicesOk (p : Unity.Indices) : Prop where
  endpointCode : p.endpointCode = uniform 13
  selectorCode : p.selectorCode = uniform 13
  endpoints : p.endpoints ≤ 2 ^ 13
  selectors : p.selectors ≤ 2 ^ 13

/-- The palette indices and the flip bits of the blocks of a level, in the order of the stream. Plane 0 has
the colours. -/
structure EtcStream (ps : List Unity.Indices) where
  e : Nat → Nat → Nat
  s : Nat → Nat → Nat
  second : Nat → Nat
  flip : Nat → Nat
  e_lt : ∀ n i p, ps[i]? = some p → e n i < p.endpoints
  s_lt : ∀ n i p, ps[i]? = some p → s n i < p.selectors
  second_lt : ∀ n p, ps[0]? = some p → second n < p.endpoints
  flip_lt : ∀ n, flip n < 2

namespace EtcStream
variable {colour : Unity.Indices} {others : List Unity.Indices} (L : EtcStream (colour :: others))

def prev (n i : Nat) : Nat := if n = 0 then 0 else if i = 0 then L.second (n - 1) else L.e (n - 1) i

/-- The reference for the second colour: always a new one. -/
def ref (n : Nat) : Nat := if L.flip n = 1 then 1 else 2

/-- The references of block `n`, in rows of `w` blocks. -/
def refs (w n : Nat) : Nat :=
  if n / w % 2 = 0 then 16 * L.ref n + 64 * L.ref (n + w) else 16 * L.ref (n - w) + 64 * L.ref n

def block (w n : Nat) : Unity.EtcBlock :=
  ⟨L.refs w n, (List.range (others.length + 1)).map (L.e n), L.second n, L.flip n,
    (List.range (others.length + 1)).map (L.s n)⟩

def ends (i : Nat) : Nat := ((colour :: others).getD i ⟨[], 0, [], 0⟩).endpoints

/-- The bits of block `n`. -/
def bits (w n : Nat) : List Bool :=
  (if n / w % 2 = 0 then codeBits (uniform 9) (L.refs w n) else []) ++
  (((List.range (others.length + 1)).flatMap fun i =>
      codeBits (uniform 13) (delta (ends (colour := colour) (others := others) i) (L.prev n i) (L.e n i))) ++
    (((List.range (others.length + 1)).flatMap fun i => codeBits (uniform 13) (L.s n i)) ++
      codeBits (uniform 13) (delta colour.endpoints (L.e n 0) (L.second n))))

theorem ref_lt (n : Nat) : 1 ≤ L.ref n ∧ L.ref n < 3 := by
  unfold ref
  split <;> omega

theorem prev_lt {i : Nat} {p : Unity.Indices} (h : (colour :: others)[i]? = some p) (n : Nat) :
    L.prev n i < p.endpoints := by
  have h1 := L.e_lt (n - 1) i p h
  unfold prev
  split
  · omega
  · split
    · rename_i hi
      subst hi
      exact L.second_lt _ p h
    · exact h1

theorem refs_arith (w n : Nat) : L.refs w n < 256 ∧ L.refs w n / 4 ^ (n / w % 2) % 4 = 0 ∧
    L.refs w n / 16 / 4 ^ (n / w % 2) % 4 = L.ref n := by
  have h1 := L.ref_lt n
  have h2 := L.ref_lt (n + w)
  have h3 := L.ref_lt (n - w)
  unfold refs
  by_cases h : n / w % 2 = 0
  · rw [if_pos h, h, Nat.pow_zero]
    omega
  · rw [if_neg h, show n / w % 2 = 1 by omega, Nat.pow_one]
    omega

theorem refs_above {w n : Nat} (hw : 0 < w) (h : n / w % 2 ≠ 0) : w ≤ n ∧ L.refs w (n - w) = L.refs w n := by
  have hn : w ≤ n := by
    rcases Nat.lt_or_ge n w with h' | h'
    · rw [Nat.div_eq_of_lt h'] at h; exact absurd rfl h
    · exact h'
  refine ⟨hn, ?_⟩
  have e : (n - w) / w = n / w - 1 := by
    have := Nat.add_div_right (n - w) hw
    rw [Nat.sub_add_cancel hn] at this
    rw [this, Nat.add_sub_cancel]
  have hpos : 1 ≤ n / w := Nat.div_pos hn hw
  unfold refs
  rw [e, if_pos (by omega), if_neg h, Nat.sub_add_cancel hn]

theorem writes (hp : ∀ p ∈ colour :: others, IndicesOk p) {w : Nat} (hw : 0 < w) (n : Nat) :
    Writes (Unity.etcBlock (uniform 9) colour others w ((List.range n).map (L.block w)))
      (L.block w n) (L.bits w n) := by
  have hE := Writes.forEach (r := Unity.nextEndpoint) (colour :: others) (L.prev n) (L.e n)
    (fun i => codeBits (uniform 13) (delta (ends (colour := colour) (others := others) i) (L.prev n i) (L.e n i))) (by
      intro i p h
      obtain ⟨h1, h2, h3, h4⟩ := hp p (List.mem_of_getElem? h)
      have e : ends (colour := colour) (others := others) i = p.endpoints := by
        unfold ends
        rw [List.getD_eq_getElem?_getD, h]; rfl
      rw [e]
      unfold Unity.nextEndpoint
      rw [h1]
      exact Writes.index h3 (L.prev_lt h n) (L.e_lt n i p h))
  have hS := Writes.forEach (r := fun p (_ : Nat) => Unity.selectorIndex p) (colour :: others)
    (fun _ => 0) (L.s n) (fun i => codeBits (uniform 13) (L.s n i)) (by
      intro i p h
      obtain ⟨h1, h2, h3, h4⟩ := hp p (List.mem_of_getElem? h)
      have hs := L.s_lt n i p h
      unfold Unity.selectorIndex
      rw [h2]
      have := (Writes.uniform (k := 13) (s := L.s n i) (by omega) (by omega) (by omega)).bind
        (f := fun s => do
          Crn.require (s < p.selectors)
          Pure.pure s) (b := L.s n i) (m := []) (Writes.require hs (Writes.pure _))
      rwa [List.append_nil] at this)
  have hlen : (colour :: others).length = others.length + 1 := rfl
  rw [hlen] at hE hS
  have hzero : (colour :: others).map (fun _ => 0) = (List.range (others.length + 1)).map fun _ => 0 := by
    rw [List.map_const', List.map_const', List.length_range]; rfl
  have hleft : (if n = 0 then (colour :: others).map (fun _ => 0) else
      (((List.range n).map (L.block w)).getD (n - 1) {}).last) =
        (List.range (others.length + 1)).map (L.prev n) := by
    by_cases h0 : n = 0
    · rw [if_pos h0, hzero]
      apply List.map_congr_left
      intro i _
      unfold prev
      rw [if_pos h0]
    · rw [if_neg h0, getD_range_map (by omega)]
      unfold Unity.EtcBlock.last block
      simp only
      rw [List.range_succ_eq_map, List.map_cons, List.map_cons, List.tail_cons, List.map_map, List.map_map]
      have e0 : L.prev n 0 = L.second (n - 1) := by
        unfold prev
        rw [if_neg h0, if_pos rfl]
      rw [e0]
      congr 1
      apply List.map_congr_left
      intro i _
      show L.e (n - 1) (i + 1) = L.prev n (i + 1)
      unfold prev
      rw [if_neg h0, if_neg (by omega)]
  obtain ⟨r1, r2, r3⟩ := L.refs_arith w n
  have hc := hp colour (by simp)
  unfold Unity.etcBlock bits
  simp only [List.length_map, List.length_range]
  have hR : Writes (if n / w % 2 = 0 then do
        let s ← Crn.symbol (uniform 9)
        Crn.require (s < 256)
        Pure.pure s
      else Pure.pure (((List.range n).map (L.block w)).getD (n - w) {}).refs) (L.refs w n)
      (if n / w % 2 = 0 then codeBits (uniform 9) (L.refs w n) else []) := by
    split
    · have := (Writes.uniform (k := 9) (s := L.refs w n) (by omega) (by omega) (by omega)).bind
        (f := fun s => do
          Crn.require (s < 256)
          Pure.pure s) (b := L.refs w n) (m := []) (Writes.require r1 (Writes.pure _))
      rwa [List.append_nil] at this
    · rename_i h
      obtain ⟨hn, he⟩ := L.refs_above hw h
      rw [getD_range_map (by omega), show (L.block w (n - w)).refs = L.refs w (n - w) from rfl, he]
      exact Writes.pure _
  refine hR.bind ?_
  rw [r2, r3, if_pos rfl, hleft]
  refine hE.bind ?_
  rw [hzero]
  refine hS.bind ?_
  have hhead : ((List.range (others.length + 1)).map (L.e n)).headD 0 = L.e n 0 := by
    rw [List.range_succ_eq_map]; rfl
  rw [hhead]
  have hrl := L.ref_lt n
  rw [if_neg (show ¬ L.ref n = 0 by omega)]
  have hflip : (if L.ref n < 2 then 1 else 0) = L.flip n := by
    have := L.flip_lt n
    unfold ref
    split <;> split <;> omega
  rw [hflip]
  have h2 : Writes (Unity.nextEndpoint colour (L.e n 0)) (L.second n)
      (codeBits (uniform 13) (delta colour.endpoints (L.e n 0) (L.second n))) := by
    unfold Unity.nextEndpoint
    rw [hc.endpointCode]
    exact Writes.index hc.endpoints (L.e_lt n 0 colour rfl) (L.second_lt n colour rfl)
  exact h2.map (f := fun second => (⟨L.refs w n, (List.range (others.length + 1)).map (L.e n), second, L.flip n,
    (List.range (others.length + 1)).map (L.s n)⟩ : Unity.EtcBlock))

/-- The bits of `n` blocks. -/
def allBits (w n : Nat) : List Bool := (List.range n).flatMap fun c => L.bits w (0 + c)

theorem all (hp : ∀ p ∈ colour :: others, IndicesOk p) {w : Nat} (hw : 0 < w) (n : Nat) :
    Writes (Unity.grow (Unity.etcBlock (uniform 9) colour others w) n [])
      ((List.range n).map (L.block w)) (L.allBits w n) := by
  have := Writes.grow (r := Unity.etcBlock (uniform 9) colour others w) (B := L.block w)
    (bits := L.bits w) n 0 (fun i _ _ => L.writes hp hw i)
  rw [Nat.zero_add] at this
  exact this

theorem bits_le (w n : Nat) : (L.bits w n).length ≤ 22 + 26 * (others.length + 1) := by
  unfold bits
  simp only [List.length_append]
  have h1 : (if n / w % 2 = 0 then codeBits (uniform 9) (L.refs w n) else []).length ≤ 9 := by
    split
    · exact codeBits_le
    · simp
  have h2 := flatMap_range_le (n := others.length + 1) (m := 13)
    (f := fun i => codeBits (uniform 13) (delta (ends (colour := colour) (others := others) i) (L.prev n i) (L.e n i)))
    (fun i _ => codeBits_le)
  have h3 := flatMap_range_le (n := others.length + 1) (m := 13)
    (f := fun i => codeBits (uniform 13) (L.s n i)) (fun i _ => codeBits_le)
  have h4 := codeBits_le (k := 13) (s := delta colour.endpoints (L.e n 0) (L.second n))
  omega

theorem allBits_le (w n : Nat) : (L.allBits w n).length ≤ n * (22 + 26 * (others.length + 1)) :=
  flatMap_range_le (fun _ _ => L.bits_le _ _)

theorem allBits_pos {w n : Nat} (h : 0 < n) : 0 < (L.allBits w n).length := by
  obtain ⟨m, rfl⟩ : ∃ m, n = m + 1 := ⟨n - 1, by omega⟩
  unfold allBits
  rw [List.range_succ_eq_map, List.flatMap_cons, List.length_append]
  have hr := (L.refs_arith w (0 + 0)).1
  have : 9 ≤ (L.bits w (0 + 0)).length := by
    unfold bits
    rw [List.length_append, if_pos (by simp), uniform_bits (by omega)]
    omega
  omega

end EtcStream

/-- The blocks of a level of one face that belong to the texture. -/
theorem levelBlocks_range {β : Type} (d : β) (B : Nat → β) (nx ny : Nat) :
    Unity.levelBlocks d 1 nx ny ((List.range (Unity.even ny * Unity.even nx)).map B) =
      (List.range ny).flatMap fun y => (List.range nx).map fun x => B (y * Unity.even nx + x) := by
  unfold Unity.levelBlocks
  rw [show List.range 1 = [0] from rfl, List.flatMap_cons, List.flatMap_nil, List.append_nil]
  apply flatMap_congr'
  intro y hy
  apply List.map_congr_left
  intro x hx
  have hy' : y < ny := by simpa using hy
  have hx' : x < nx := by simpa using hx
  have h1 : nx ≤ Unity.even nx := by unfold Unity.even; omega
  have h2 : ny ≤ Unity.even ny := by unfold Unity.even; omega
  have := Nat.mul_le_mul_right (Unity.even nx) (show y + 1 ≤ Unity.even ny by omega)
  rw [Nat.succ_mul] at this
  rw [Nat.zero_mul, Nat.zero_add, getD_range_map (by omega)]

end Verif.Proofs.Crn.Enc
