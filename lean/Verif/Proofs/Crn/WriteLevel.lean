import Verif.Proofs.Crn.WritePalettes

/-! # Writing the level of a Crunch file -/

namespace Verif.Proofs.Crn.Enc

open Verif Verif.Spec Verif.Spec.Crn Verif.Proofs.Crn

/-- A plane whose indices are written with the uniform code of 13 bits. -/
structure PlaneOk (p : Plane) : Prop where
  endpointCode : p.endpointCode = uniform 13
  selectorCode : p.selectorCode = uniform 13
  endpoints : p.endpoints.length ≤ 2 ^ 13
  selectors : p.selectors.length ≤ 2 ^ 13

theorem Writes.index {num a b : Nat} (hn : num ≤ 2 ^ 13) (ha : a < num) (hb : b < num) :
    Writes (Crn.nextPaletteIndex (Enc.uniform 13) num a) b (codeBits (Enc.uniform 13) (delta num a b)) := by
  unfold Crn.nextPaletteIndex
  have hd : delta num a b < num := Nat.mod_lt _ (by omega)
  have e : (a + delta num a b) % num = b := by
    unfold delta
    rw [Nat.add_mod_mod, show a + (b + num - a) = b + num by omega, Nat.add_mod_right, Nat.mod_eq_of_lt hb]
  have := (Writes.uniform (k := 13) (by omega) (by omega) (by omega)).bind
    (f := fun d => do
      Crn.require (a + d < 2 * num)
      Pure.pure ((a + d) % num)) (b := (a + delta num a b) % num) (m := [])
    (Writes.require (by omega) (Writes.pure _))
  rwa [List.append_nil, e] at this

/-- The palette indices of a level: for every chunk, block of the chunk and plane. -/
structure Level (planes : List Plane) where
  e : Nat → Nat → Nat → Nat
  s : Nat → Nat → Nat → Nat
  e_lt : ∀ c q i p, planes[i]? = some p → e c q i < p.endpoints.length
  s_lt : ∀ c q i p, planes[i]? = some p → s c q i < p.selectors.length

section
variable {planes : List Plane} (L : Level planes)

/-- The endpoint index of plane `i` before index `j` of chunk `c`. -/
def Level.prevE (c i j : Nat) : Nat :=
  if j = 0 then (if c = 0 then 0 else L.e (c - 1) 3 i) else L.e c (j - 1) i

/-- The selector index of plane `i` before index `j` of chunk `c`. -/
def Level.prevS (c i j : Nat) : Nat :=
  if j = 0 then (if c = 0 then 0 else L.s (c - 1) 3 i) else L.s c (j - 1) i

/-- The bytes of block `q` of chunk `c`. -/
def Level.block (c q : Nat) : List UInt8 :=
  (List.range planes.length).flatMap fun i =>
    (planes.getD i ⟨[], [], [], []⟩).block (L.e c q i) (L.s c q i)

/-- The state before chunk `c`. -/
def Level.state (c : Nat) : Chunk where
  pending := List.replicate ((3 - c % 3) % 3) 7
  endpoint := (List.range planes.length).map fun i => L.prevE c i 0
  selector := (List.range planes.length).map fun i => L.prevS c i 0
  blocks := if c = 0 then [] else (List.range 4).map fun q => L.block (c - 1) q

/-- The bits of chunk `c`. -/
def Level.bits (c : Nat) : List Bool :=
  (if c % 3 = 0 then codeBits (uniform 9) 511 else []) ++
  (((List.range planes.length).flatMap fun i => (List.range 4).flatMap fun j =>
      codeBits (uniform 13) (delta (planes.getD i ⟨[], [], [], []⟩).endpoints.length
        (L.prevE c i (0 + j)) (L.prevE c i (0 + j + 1)))) ++
    ((List.range 4).flatMap fun j => (List.range planes.length).flatMap fun i =>
      codeBits (uniform 13) (delta (planes.getD i ⟨[], [], [], []⟩).selectors.length
        (L.prevS c i (0 + j)) (L.prevS c i (0 + j + 1)))))

theorem Writes.encodings (c : Nat) :
    Writes (Crn.encodings (Enc.uniform 9) (List.replicate ((3 - c % 3) % 3) 7))
      (7 :: List.replicate ((3 - (c + 1) % 3) % 3) 7)
      (if c % 3 = 0 then codeBits (Enc.uniform 9) 511 else []) := by
  rcases (by omega : c % 3 = 0 ∨ c % 3 = 1 ∨ c % 3 = 2) with h | h | h
  · rw [h, show (c + 1) % 3 = 1 by omega]
    have := (Writes.uniform (k := 9) (s := 511) (by omega) (by omega) (by omega)).bind
      (f := fun s => do
        Crn.require (s < 512)
        Pure.pure [s % 8, s / 8 % 8, s / 64]) (b := [7, 7, 7]) (m := [])
      (Writes.require (by omega) (Writes.pure _))
    rw [List.append_nil] at this
    exact this
  · rw [h, show (c + 1) % 3 = 2 by omega]
    exact Writes.pure _
  · rw [h, show (c + 1) % 3 = 0 by omega]
    exact Writes.pure _

theorem getD_of {p : Plane} {i : Nat} (h : planes[i]? = some p) :
    planes.getD i ⟨[], [], [], []⟩ = p := by
  rw [List.getD_eq_getElem?_getD, h]; rfl

theorem Level.prevE_lt {i : Nat} {p : Plane} (h : planes[i]? = some p) (c j : Nat) :
    L.prevE c i j < p.endpoints.length := by
  have := L.e_lt (c - 1) 3 i p h
  have := L.e_lt c (j - 1) i p h
  unfold Level.prevE
  split
  · split <;> omega
  · assumption

theorem Level.prevS_lt {i : Nat} {p : Plane} (h : planes[i]? = some p) (c j : Nat) :
    L.prevS c i j < p.selectors.length := by
  have := L.s_lt (c - 1) 3 i p h
  have := L.s_lt c (j - 1) i p h
  unfold Level.prevS
  split
  · split <;> omega
  · assumption

theorem Level.endpoints (hp : ∀ p ∈ planes, PlaneOk p) (c : Nat) :
    Writes (Crn.forPlanes (fun p e =>
        Crn.scan (Crn.nextPaletteIndex p.endpointCode p.endpoints.length) (tileCount 7) e) planes
        ((List.range planes.length).map fun i => L.prevE c i 0))
      ((List.range planes.length).map fun i => (List.range 4).map fun j => L.prevE c i (0 + j + 1))
      ((List.range planes.length).flatMap fun i => (List.range 4).flatMap fun j =>
        codeBits (uniform 13) (delta (planes.getD i ⟨[], [], [], []⟩).endpoints.length
          (L.prevE c i (0 + j)) (L.prevE c i (0 + j + 1)))) := by
  refine Writes.forPlanes planes (fun i => L.prevE c i 0)
    (fun i => (List.range 4).map fun j => L.prevE c i (0 + j + 1)) _ (fun i p hi => ?_)
  obtain ⟨h1, h2, h3, h4⟩ := hp p (List.mem_of_getElem? hi)
  rw [h1, getD_of hi, show tileCount 7 = 4 by decide]
  exact Writes.scan (st := L.prevE c i)
    (bits := fun j => codeBits (uniform 13) (delta p.endpoints.length (L.prevE c i j) (L.prevE c i (j + 1))))
    4 0 (fun j _ _ => Writes.index h3 (L.prevE_lt hi _ _) (L.prevE_lt hi _ _))

theorem Level.selectors (hp : ∀ p ∈ planes, PlaneOk p) (c : Nat) :
    Writes (Crn.scan (Crn.forPlanes (fun p s =>
        Crn.nextPaletteIndex p.selectorCode p.selectors.length s) planes) 4
        ((List.range planes.length).map fun i => L.prevS c i 0))
      ((List.range 4).map fun j => (List.range planes.length).map fun i => L.prevS c i (0 + j + 1))
      ((List.range 4).flatMap fun j => (List.range planes.length).flatMap fun i =>
        codeBits (uniform 13) (delta (planes.getD i ⟨[], [], [], []⟩).selectors.length
          (L.prevS c i (0 + j)) (L.prevS c i (0 + j + 1)))) := by
  refine Writes.scan (st := fun j => (List.range planes.length).map fun i => L.prevS c i j)
    (bits := fun j => (List.range planes.length).flatMap fun i =>
        codeBits (uniform 13) (delta (planes.getD i ⟨[], [], [], []⟩).selectors.length
          (L.prevS c i j) (L.prevS c i (j + 1)))) 4 0 (fun j _ _ => ?_)
  refine Writes.forPlanes planes (fun i => L.prevS c i j) (fun i => L.prevS c i (j + 1)) _
    (fun i p hi => ?_)
  obtain ⟨h1, h2, h3, h4⟩ := hp p (List.mem_of_getElem? hi)
  rw [h2, getD_of hi]
  exact Writes.index h4 (L.prevS_lt hi _ _) (L.prevS_lt hi _ _)

theorem Level.prevE_succ (c i j : Nat) : L.prevE c i (0 + j + 1) = L.e c j i := by
  unfold Level.prevE; rw [if_neg (by omega)]; congr 1; omega

theorem Level.prevS_succ (c i j : Nat) : L.prevS c i (0 + j + 1) = L.s c j i := by
  unfold Level.prevS; rw [if_neg (by omega)]; congr 1; omega

theorem range_four {α : Type} (f : Nat → α) : (List.range 4).map f = [f 0, f 1, f 2, f 3] := rfl

theorem flatMap_congr' {α β : Type} {l : List α} {f g : α → List β} (h : ∀ a ∈ l, f a = g a) :
    l.flatMap f = l.flatMap g := by
  rw [List.flatMap_def, List.flatMap_def, List.map_congr_left h]

theorem tileOf_seven : ∀ q : Fin 4, tileOf 7 q = q := by decide

theorem getD_range_map {α : Type} {f : Nat → α} {n i : Nat} {d : α} (h : i < n) :
    ((List.range n).map f).getD i d = f i := by
  rw [List.getD_eq_getElem?_getD, List.getElem?_map, List.getElem?_range h]; rfl

theorem Level.chunk (hp : ∀ p ∈ planes, PlaneOk p) (c : Nat) :
    Writes (Crn.chunk (uniform 9) planes (L.state c)) (L.state (c + 1)) (L.bits c) := by
  unfold Crn.chunk Level.bits
  refine (Writes.encodings c).bind ?_
  show Writes (Crn.forPlanes _ planes _ >>= _) _ _
  refine (L.endpoints hp c).bind ?_
  have hs := (L.selectors hp c)
  have := hs.bind (f := fun ss => (Pure.pure {
    pending := (7 :: List.replicate ((3 - (c + 1) % 3) % 3) 7).tail
    endpoint := ((List.range planes.length).map fun i => (List.range 4).map fun j =>
      L.prevE c i (0 + j + 1)).map fun l => l.getLastD 0
    selector := ss.getLastD []
    blocks := (List.range 4).map fun q =>
      (List.range planes.length).flatMap fun i =>
        (planes.getD i ⟨[], [], [], []⟩).block
          ((((List.range planes.length).map fun i => (List.range 4).map fun j =>
            L.prevE c i (0 + j + 1)).getD i []).getD (tileOf 7 q) 0) ((ss.getD q []).getD i 0) } :
              Reader Chunk)) (b := L.state (c + 1)) (m := []) (by
      have hst : (⟨(7 :: List.replicate ((3 - (c + 1) % 3) % 3) 7).tail,
          ((List.range planes.length).map fun i => (List.range 4).map fun j =>
            L.prevE c i (0 + j + 1)).map fun l => l.getLastD 0,
          ((List.range 4).map fun j => (List.range planes.length).map fun i =>
            L.prevS c i (0 + j + 1)).getLastD [],
          (List.range 4).map fun q => (List.range planes.length).flatMap fun i =>
            (planes.getD i ⟨[], [], [], []⟩).block
              ((((List.range planes.length).map fun i => (List.range 4).map fun j =>
                L.prevE c i (0 + j + 1)).getD i []).getD (tileOf 7 q) 0)
              ((((List.range 4).map fun j => (List.range planes.length).map fun i =>
                L.prevS c i (0 + j + 1)).getD q []).getD i 0)⟩ : Chunk) = L.state (c + 1) := by
        unfold Level.state
        congr 1
        · rw [List.map_map]
          apply List.map_congr_left
          intro i _
          show ((List.range 4).map fun j => L.prevE c i (0 + j + 1)).getLastD 0 = _
          rw [range_four]
          rfl
        · rw [if_neg (by omega)]
          apply List.map_congr_left
          intro q hq
          have hq4 : q < 4 := by simpa using hq
          unfold Level.block
          rw [show c + 1 - 1 = c by omega]
          apply flatMap_congr'
          intro i hi
          have hi' : i < planes.length := by simpa using hi
          rw [getD_range_map hi', getD_range_map hq4, getD_range_map hi',
            show tileOf 7 q = q from tileOf_seven ⟨q, hq4⟩, getD_range_map hq4, L.prevE_succ, L.prevS_succ]
      rw [hst]
      exact Writes.pure _)
  rw [List.append_nil] at this
  exact this

theorem Level.state_zero : L.state 0 = firstChunk planes := by
  unfold Level.state firstChunk
  congr 1
  · apply List.ext_getElem <;> simp [Level.prevE]
  · apply List.ext_getElem <;> simp [Level.prevS]

/-- The bits of `n` chunks. -/
def Level.allBits (n : Nat) : List Bool := (List.range n).flatMap fun c => L.bits (0 + c)

theorem Level.all (hp : ∀ p ∈ planes, PlaneOk p) (n : Nat) :
    Writes (Crn.scan (Crn.chunk (uniform 9) planes) n (firstChunk planes))
      ((List.range n).map fun c => L.state (0 + c + 1)) (L.allBits n) := by
  rw [← L.state_zero]
  exact Writes.scan n 0 (fun c _ _ => L.chunk hp c)

theorem Level.bits_le (c : Nat) : (L.bits c).length ≤ 9 + 104 * planes.length := by
  unfold Level.bits
  rw [List.length_append, List.length_append]
  have h1 : (if c % 3 = 0 then codeBits (uniform 9) 511 else []).length ≤ 9 := by
    split
    · exact codeBits_le
    · simp
  have h2 := flatMap_range_le (n := planes.length) (m := 4 * 13)
    (f := fun i => (List.range 4).flatMap fun j =>
      codeBits (uniform 13) (delta (planes.getD i ⟨[], [], [], []⟩).endpoints.length
        (L.prevE c i (0 + j)) (L.prevE c i (0 + j + 1))))
    (fun i _ => flatMap_range_le (fun j _ => codeBits_le))
  have h3 := flatMap_range_le (n := 4) (m := planes.length * 13)
    (f := fun j => (List.range planes.length).flatMap fun i =>
      codeBits (uniform 13) (delta (planes.getD i ⟨[], [], [], []⟩).selectors.length
        (L.prevS c i (0 + j)) (L.prevS c i (0 + j + 1))))
    (fun i _ => flatMap_range_le (fun j _ => codeBits_le))
  omega

theorem Level.allBits_le (n : Nat) : (L.allBits n).length ≤ n * (9 + 104 * planes.length) :=
  flatMap_range_le (fun _ _ => L.bits_le _)

theorem Level.allBits_pos {n : Nat} (h : 0 < n) : 0 < (L.allBits n).length := by
  obtain ⟨m, rfl⟩ : ∃ m, n = m + 1 := ⟨n - 1, by omega⟩
  unfold Level.allBits
  rw [List.range_succ_eq_map, List.flatMap_cons, List.length_append]
  have : 9 ≤ (L.bits (0 + 0)).length := by
    unfold Level.bits
    rw [List.length_append, if_pos (by omega), uniform_bits (by omega)]
    omega
  omega

/-! ## From blocks to chunks -/

/-- The column and the row of block `q` of chunk `c`, in a level with `cx` chunks per row. -/
def columnOf (cx c q : Nat) : Nat := 2 * (if c / cx % 2 = 1 then cx - 1 - c % cx else c % cx) + q % 2
def rowOf (cx c q : Nat) : Nat := 2 * (c / cx) + q / 2

theorem chunk_of_block {nx ny x y : Nat} (hx : x < nx) (hy : y < ny) :
    let c := chunkNumber nx ny 0 y x
    let q := y % 2 * 2 + x % 2
    c < (ny + 1) / 2 * ((nx + 1) / 2) ∧ q < 4 ∧ columnOf ((nx + 1) / 2) c q = x ∧
      rowOf ((nx + 1) / 2) c q = y := by
  intro c q
  have hc : c = y / 2 * ((nx + 1) / 2) +
      if y / 2 % 2 = 1 then (nx + 1) / 2 - 1 - x / 2 else x / 2 := by
    show (0 * ((ny + 1) / 2) + y / 2) * ((nx + 1) / 2) + _ = _
    rw [Nat.zero_mul, Nat.zero_add]
  have hxx : x / 2 < (nx + 1) / 2 := by omega
  have hyy : y / 2 < (ny + 1) / 2 := by omega
  generalize (nx + 1) / 2 = cx at *
  generalize (ny + 1) / 2 = cy at *
  have hz : (if y / 2 % 2 = 1 then cx - 1 - x / 2 else x / 2) < cx := by split <;> omega
  have hd : c / cx = y / 2 := by
    rw [hc, Nat.add_comm, Nat.add_mul_div_right _ _ (by omega), Nat.div_eq_of_lt hz, Nat.zero_add]
  have hm : c % cx = if y / 2 % 2 = 1 then cx - 1 - x / 2 else x / 2 := by
    rw [hc, Nat.add_comm, Nat.add_mul_mod_self_right, Nat.mod_eq_of_lt hz]
  refine ⟨?_, by omega, ?_, ?_⟩
  · rw [hc]
    have := Nat.mul_le_mul_right cx (show y / 2 + 1 ≤ cy by omega)
    rw [Nat.succ_mul] at this
    omega
  · unfold columnOf
    rw [hd, hm]
    split <;> omega
  · unfold rowOf
    rw [hd]; omega

theorem Level.levelBlocks {nx ny n : Nat} (hn : n = (ny + 1) / 2 * ((nx + 1) / 2))
    (blk : Nat → Nat → List UInt8)
    (hb : ∀ c q, L.block c q = blk (columnOf ((nx + 1) / 2) c q) (rowOf ((nx + 1) / 2) c q)) :
    levelBlocks 1 nx ny ((List.range n).map fun c => L.state (0 + c + 1)) =
      (List.range ny).flatMap fun y => (List.range nx).map fun x => blk x y := by
  unfold Crn.levelBlocks
  rw [show List.range 1 = [0] from rfl, List.flatMap_cons, List.flatMap_nil, List.append_nil]
  apply flatMap_congr'
  intro y hy
  apply List.map_congr_left
  intro x hx
  have hy' : y < ny := by simpa using hy
  have hx' : x < nx := by simpa using hx
  obtain ⟨h1, h2, h3, h4⟩ := chunk_of_block hx' hy'
  rw [List.map_map, getD_range_map (by omega)]
  show (if 0 + chunkNumber nx ny 0 y x + 1 = 0 then [] else
    (List.range 4).map fun q => L.block (0 + chunkNumber nx ny 0 y x + 1 - 1) q).getD _ [] = _
  rw [if_neg (by omega), getD_range_map h2, hb,
    show 0 + chunkNumber nx ny 0 y x + 1 - 1 = chunkNumber nx ny 0 y x by omega, h3, h4]

end

end Verif.Proofs.Crn.Enc
