import Verif.Proofs.Crn.WriteFile
import Verif.Spec.UnityFile

/-! # Writing files of Unity's variant of Crunch -/

namespace Verif.Proofs.Crn.Enc

open Verif Verif.Spec Verif.Spec.Crn Verif.Proofs.Crn

/-! ## Selectors -/

/-- The bits for the change of selectors. -/
def xorBits (K k : Nat) : List Nat → List Nat → List Bool
  | a :: b :: l, c :: d :: m =>
    codeBits (uniform K) ((a ^^^ c) + k * (b ^^^ d)) ++ xorBits K k l m
  | _, _ => []

theorem xor_xor (a c : Nat) : a ^^^ (a ^^^ c) = c := by
  rw [← Nat.xor_assoc, Nat.xor_self, Nat.zero_xor]

theorem Writes.xorSelectors {K j : Nat} (h1 : 1 ≤ K) (hK : K ≤ 13) (hk : K = j + j) :
    ∀ n (l m : List Nat), l.length = 2 * n → m.length = 2 * n → (∀ v ∈ l, v < 2 ^ j) → (∀ v ∈ m, v < 2 ^ j) →
    Writes (Unity.xorSelectors (Enc.uniform K) (2 ^ j) l) m (xorBits K (2 ^ j) l m) := by
  intro n
  induction n with
  | zero =>
    intro l m hl hm _ _
    obtain rfl := List.eq_nil_of_length_eq_zero (l := l) (by omega)
    obtain rfl := List.eq_nil_of_length_eq_zero (l := m) (by omega)
    exact Writes.pure _
  | succ n ih =>
    intro l m hl hm vl vm
    match l, m, hl, hm with
    | a :: b :: l, c :: d :: m, hl, hm =>
      have hac := Nat.xor_lt_two_pow (vl a (by simp)) (vm c (by simp))
      have hbd := Nat.xor_lt_two_pow (vl b (by simp)) (vm d (by simp))
      have hpos := Nat.two_pow_pos j
      have hs : (a ^^^ c) + 2 ^ j * (b ^^^ d) < 2 ^ j * 2 ^ j := by
        have := Nat.mul_le_mul_left (2 ^ j) (show (b ^^^ d) + 1 ≤ 2 ^ j by omega)
        rw [Nat.mul_succ] at this
        omega
      have e : 2 ^ j * 2 ^ j = 2 ^ K := by rw [hk, Nat.pow_add]
      unfold Unity.xorSelectors xorBits
      refine (Writes.uniform h1 hK (by omega)).bind (Writes.require hs ?_)
      have hrest := ih l m (by simp at hl; omega) (by simp at hm; omega)
        (fun v hv => vl v (by simp [hv])) (fun v hv => vm v (by simp [hv]))
      rw [Nat.add_mul_mod_self_left, Nat.mod_eq_of_lt hac, Nat.add_mul_div_left _ _ hpos,
        Nat.div_eq_of_lt hac, Nat.zero_add, xor_xor, xor_xor]
      exact hrest.map

theorem xorBits_le {K k : Nat} : ∀ n (l m : List Nat), m.length = 2 * n →
    (xorBits K k l m).length ≤ n * K := by
  intro n
  induction n with
  | zero =>
    intro l m hm
    obtain rfl := List.eq_nil_of_length_eq_zero (l := m) (by omega)
    match l with
    | [] | [_] | _ :: _ :: _ => simp [xorBits]
  | succ n ih =>
    intro l m hm
    match l, m, hm with
    | a :: b :: l, c :: d :: m, hm =>
      unfold xorBits
      rw [List.length_append, Nat.succ_mul]
      have h1 := codeBits_le (k := K) (s := (a ^^^ c) + k * (b ^^^ d))
      have h2 := ih l m (by simp at hm; omega)
      omega
    | [], m, _ => simp [xorBits]
    | [_], m, _ => simp [xorBits]

/-- The bits of a palette of selectors. -/
def xorPaletteBits (K : Nat) (order : List Nat) (S : List (List UInt8)) : List Bool :=
  codeTable K ++ ((List.range S.length).flatMap fun i =>
    xorBits K order.length
      (before (List.replicate 16 0) (S.map fun s => selectorsOf order (leNat s)) (0 + i))
      (before (List.replicate 16 0) (S.map fun s => selectorsOf order (leNat s)) (0 + i + 1)))

theorem Writes.dxtSelectorPalette {K j bytes : Nat} {order : List Nat} (h1 : 1 ≤ K) (hK : K ≤ 13)
    (hj : order.length = 2 ^ j) (hk : K = j + j)
    (horder : ∀ d, d < order.length → order.idxOf d < order.length ∧ order.getD (order.idxOf d) 0 = d)
    (hbytes : 2 ^ (8 * bytes) ≤ order.length ^ 16)
    {S : List (List UInt8)} (hS : ∀ s ∈ S, s.length = bytes) :
    Writes (Unity.dxtSelectorPalette order bytes S.length) S (xorPaletteBits K order S) := by
  have hpos : 0 < order.length := by rw [hj]; exact Nat.two_pow_pos j
  have h := Writes.values (P := fun l : List Nat => l.length = 2 * 8 ∧ ∀ v ∈ l, v < order.length)
    (r := Unity.xorSelectors (Enc.uniform K) order.length)
    (bits := xorBits K order.length) (start := List.replicate 16 0)
    (l := S.map fun s => selectorsOf order (leNat s))
    (fun a b ha hb => by
      have ha2 := ha.2; have hb2 := hb.2
      rw [hj] at ha2 hb2 ⊢
      exact Writes.xorSelectors h1 hK hk 8 a b ha.1 hb.1 ha2 hb2)
    ⟨by simp, fun v hv => by rw [(List.mem_replicate.mp hv).2]; exact hpos⟩ (by
      intro a ha
      obtain ⟨s, hs, rfl⟩ := List.mem_map.mp ha
      exact selectorsOf_ok hpos (fun d hd => (horder d hd).1) _)
  rw [List.length_map] at h
  have h' : Writes (Unity.selectorEntries order.length S.length) (S.map fun s => selectorsOf order (leNat s))
      (xorPaletteBits K order S) := by
    unfold Unity.selectorEntries xorPaletteBits
    exact (Writes.prefixCode h1 hK).bind h
  have := h'.map (f := fun l => l.map fun v => leBytes bytes (packSelectors order v))
  have e : (S.map fun s => selectorsOf order (leNat s)).map
      (fun v => leBytes bytes (packSelectors order v)) = S := by
    rw [List.map_map]
    conv => rhs; rw [← List.map_id S]
    refine List.map_congr_left (fun a ha => ?_)
    show leBytes bytes (packSelectors order (selectorsOf order (leNat a))) = a
    have hl := leNat_lt a
    rw [hS a ha] at hl
    rw [selectorsOf, packSelectors_digits rfl hpos (fun d hd => (horder d hd).2),
      Nat.mod_eq_of_lt (by omega), leBytes_leNat (hS a ha)]
  rw [e] at this
  exact this

theorem xorPaletteBits_le {K : Nat} (hK : K ≤ 13) (order : List Nat) (S : List (List UInt8)) :
    (xorPaletteBits K order S).length ≤ 82 + 2 ^ K + S.length * (8 * K) := by
  unfold xorPaletteBits
  rw [List.length_append, codeTable_length hK]
  have := flatMap_range_le (n := S.length) (m := 8 * K) (f := fun i => xorBits K order.length
      (before (List.replicate 16 0) (S.map fun s => selectorsOf order (leNat s)) (0 + i))
      (before (List.replicate 16 0) (S.map fun s => selectorsOf order (leNat s)) (0 + i + 1)))
    (fun i _ => xorBits_le 8 _ _ (before_all (P := fun l : List Nat => l.length = 2 * 8) (by simp) (by
      intro a ha
      obtain ⟨s, _, rfl⟩ := List.mem_map.mp ha
      simp [selectorsOf]) _))
  omega

theorem Writes.unityColourSelectors {S : List (List UInt8)} (hS : ∀ s ∈ S, s.length = 4) :
    Writes (Unity.dxtSelectorPalette colourOrder 4 S.length) S (xorPaletteBits 4 colourOrder S) :=
  Writes.dxtSelectorPalette (j := 2) (by omega) (by omega) (by decide) (by omega) (by decide) (by decide) hS

theorem Writes.unityAlphaSelectors {S : List (List UInt8)} (hS : ∀ s ∈ S, s.length = 6) :
    Writes (Unity.dxtSelectorPalette alphaOrder 6 S.length) S (xorPaletteBits 6 alphaOrder S) :=
  Writes.dxtSelectorPalette (j := 3) (by omega) (by omega) (by decide) (by omega) (by decide) (by decide) hS

/-! ## Levels -/

theorem Writes.grow {α : Type} {r : List α → Reader α} {B : Nat → α} {bits : Nat → List Bool} :
    ∀ n m, (∀ i, m ≤ i → i < m + n → Writes (r ((List.range i).map B)) (B i) (bits i)) →
    Writes (Unity.grow r n ((List.range m).map B)) ((List.range (m + n)).map B)
      ((List.range n).flatMap fun i => bits (m + i)) := by
  intro n
  induction n with
  | zero => intro m _; exact Writes.pure _
  | succ n ih =>
    intro m h
    have h2 := ih (m + 1) (fun i h1 h2 => h i (by omega) (by omega))
    rw [List.range_succ, List.map_append, List.map_cons, List.map_nil,
      show m + 1 + n = m + (n + 1) by omega] at h2
    have e2 : (List.range n).flatMap (fun i => bits (m + 1 + i)) =
        ((List.range n).map Nat.succ).flatMap (fun i => bits (m + i)) := by
      rw [List.flatMap_map]; congr 1; funext i
      show bits (m + 1 + i) = bits (m + (i + 1)); congr 1; omega
    rw [show List.range (n + 1) = 0 :: (List.range n).map Nat.succ from List.range_succ_eq_map,
      List.flatMap_cons, ← e2]
    exact (h m (by omega) (by omega)).bind h2

theorem Writes.forEach {σ α β : Type} {r : σ → α → Reader β} : ∀ (ps : List σ) (A : Nat → α)
    (B : Nat → β) (bits : Nat → List Bool),
    (∀ i p, ps[i]? = some p → Writes (r p (A i)) (B i) (bits i)) →
    Writes (Unity.forEach r ps ((List.range ps.length).map A)) ((List.range ps.length).map B)
      ((List.range ps.length).flatMap bits) := by
  intro ps
  induction ps with
  | nil => intro A B bits _; exact Writes.pure _
  | cons p ps ih =>
    intro A B bits h
    rw [List.length_cons, List.range_succ_eq_map, List.flatMap_cons, List.map_cons, List.map_cons,
      List.map_map, List.map_map, List.flatMap_map]
    exact (h 0 p rfl).bind (ih (A ∘ Nat.succ) (B ∘ Nat.succ) (fun i => bits (i + 1))
      (fun i q hq => h (i + 1) q hq)).map

/-- The palette indices of the blocks of a level, in the order of the stream, for every plane. -/
structure Stream (planes : List Plane) where
  e : Nat → Nat → Nat
  s : Nat → Nat → Nat
  e_lt : ∀ n i p, planes[i]? = some p → e n i < p.endpoints.length
  s_lt : ∀ n i p, planes[i]? = some p → s n i < p.selectors.length

namespace Stream
variable {planes : List Plane} (L : Stream planes)

def prev (n i : Nat) : Nat := if n = 0 then 0 else L.e (n - 1) i

/-- Block `n`: it never refers to another one. -/
def block (n : Nat) : Unity.Block :=
  ⟨0, (List.range planes.length).map (L.e n), (List.range planes.length).map (L.s n)⟩

/-- The bits of block `n`, in rows of `w` blocks. -/
def bits (w n : Nat) : List Bool :=
  (if n % w % 2 = 0 ∧ n / w % 2 = 0 then codeBits (uniform 9) 0 else []) ++
  (((List.range planes.length).flatMap fun i =>
      codeBits (uniform 13) (delta (planes.getD i ⟨[], [], [], []⟩).endpoints.length (L.prev n i) (L.e n i))) ++
    ((List.range planes.length).flatMap fun i => codeBits (uniform 13) (L.s n i)))

theorem prev_lt {i : Nat} {p : Plane} (h : planes[i]? = some p) (n : Nat) :
    L.prev n i < p.endpoints.length := by
  have := L.e_lt (n - 1) i p h
  unfold prev
  split <;> omega

theorem refs_zero (n k : Nat) : (((List.range n).map L.block).getD k {}).refs = 0 := by
  rw [List.getD_eq_getElem?_getD, List.getElem?_map]
  cases (List.range n)[k]? <;> rfl

theorem indices_get {i : Nat} {p : Unity.Indices} (h : (planes.map Plane.indices)[i]? = some p) :
    ∃ q, planes[i]? = some q ∧ p = q.indices := by
  rw [List.getElem?_map] at h
  cases e : planes[i]? with
  | none => rw [e] at h; cases h
  | some q => rw [e] at h; cases h; exact ⟨q, rfl, rfl⟩

theorem writes (hp : ∀ p ∈ planes, PlaneOk p) (w n : Nat) :
    Writes (Unity.block (uniform 9) (planes.map Plane.indices) w ((List.range n).map L.block))
      (L.block n) (L.bits w n) := by
  have hE := Writes.forEach (r := Unity.nextEndpoint) (planes.map Plane.indices) (L.prev n) (L.e n)
    (fun i => codeBits (uniform 13)
      (delta (planes.getD i ⟨[], [], [], []⟩).endpoints.length (L.prev n i) (L.e n i))) (by
      intro i p h
      obtain ⟨q, hq, rfl⟩ := indices_get h
      obtain ⟨h1, h2, h3, h4⟩ := hp q (List.mem_of_getElem? hq)
      rw [getD_of hq]
      unfold Unity.nextEndpoint Plane.indices
      rw [h1]
      exact Writes.index h3 (L.prev_lt hq n) (L.e_lt n i q hq))
  have hS := Writes.forEach (r := fun p (_ : Nat) => Unity.selectorIndex p) (planes.map Plane.indices)
    (fun _ => 0) (L.s n) (fun i => codeBits (uniform 13) (L.s n i)) (by
      intro i p h
      obtain ⟨q, hq, rfl⟩ := indices_get h
      obtain ⟨h1, h2, h3, h4⟩ := hp q (List.mem_of_getElem? hq)
      have hs := L.s_lt n i q hq
      unfold Unity.selectorIndex Plane.indices
      rw [h2]
      have := (Writes.uniform (k := 13) (s := L.s n i) (by omega) (by omega) (by omega)).bind
        (f := fun s => do
          Crn.require (s < q.selectors.length)
          Pure.pure s) (b := L.s n i) (m := []) (Writes.require hs (Writes.pure _))
      rwa [List.append_nil] at this)
  rw [List.length_map] at hE hS
  have hzero : (planes.map Plane.indices).map (fun _ => 0) = (List.range planes.length).map fun _ => 0 := by
    apply List.ext_getElem <;> simp
  have hleft : (if n = 0 then (planes.map Plane.indices).map (fun _ => 0) else
      (((List.range n).map L.block).getD (n - 1) {}).endpoint) = (List.range planes.length).map (L.prev n) := by
    by_cases h0 : n = 0
    · rw [if_pos h0, hzero]
      apply List.map_congr_left
      intro i _
      unfold prev
      rw [if_pos h0]
    · rw [if_neg h0, getD_range_map (by omega)]
      show (List.range planes.length).map (L.e (n - 1)) = _
      apply List.map_congr_left
      intro i _
      unfold prev
      rw [if_neg h0]
  unfold Unity.block bits
  simp only [List.length_map, List.length_range]
  have hR : Writes (if n % w % 2 = 0 ∧ n / w % 2 = 0 then do
        let s ← Crn.symbol (uniform 9)
        Crn.require (s < 256)
        Pure.pure s
      else Pure.pure (((List.range n).map L.block).getD (n / w / 2 * 2 * w + n % w / 2 * 2) {}).refs) 0
      (if n % w % 2 = 0 ∧ n / w % 2 = 0 then codeBits (uniform 9) 0 else []) := by
    split
    · have := (Writes.uniform (k := 9) (s := 0) (by omega) (by omega) (by omega)).bind
        (f := fun s => do
          Crn.require (s < 256)
          Pure.pure s) (b := 0) (m := []) (Writes.require (by omega) (Writes.pure _))
      rwa [List.append_nil] at this
    · rw [L.refs_zero]; exact Writes.pure _
  refine hR.bind ?_
  rw [Nat.zero_div, Nat.zero_mod, if_pos rfl, hleft]
  refine hE.bind ?_
  rw [hzero]
  exact hS.map (f := fun selector => (⟨0, (List.range planes.length).map (L.e n), selector⟩ : Unity.Block))

/-- The bits of `n` blocks. -/
def allBits (w n : Nat) : List Bool := (List.range n).flatMap fun c => L.bits w (0 + c)

theorem all (hp : ∀ p ∈ planes, PlaneOk p) (w n : Nat) :
    Writes (Unity.grow (Unity.block (uniform 9) (planes.map Plane.indices) w) n [])
      ((List.range n).map L.block) (L.allBits w n) := by
  have := Writes.grow (r := Unity.block (uniform 9) (planes.map Plane.indices) w) (B := L.block)
    (bits := L.bits w) n 0 (fun i _ _ => L.writes hp w i)
  rw [Nat.zero_add] at this
  exact this

theorem bits_le (w n : Nat) : (L.bits w n).length ≤ 9 + 26 * planes.length := by
  unfold bits
  rw [List.length_append, List.length_append]
  have h1 : (if n % w % 2 = 0 ∧ n / w % 2 = 0 then codeBits (uniform 9) 0 else []).length ≤ 9 := by
    split
    · exact codeBits_le
    · simp
  have h2 := flatMap_range_le (n := planes.length) (m := 13)
    (f := fun i => codeBits (uniform 13)
      (delta (planes.getD i ⟨[], [], [], []⟩).endpoints.length (L.prev n i) (L.e n i)))
    (fun i _ => codeBits_le)
  have h3 := flatMap_range_le (n := planes.length) (m := 13)
    (f := fun i => codeBits (uniform 13) (L.s n i)) (fun i _ => codeBits_le)
  omega

theorem allBits_le (w n : Nat) : (L.allBits w n).length ≤ n * (9 + 26 * planes.length) :=
  flatMap_range_le (fun _ _ => L.bits_le _ _)

theorem allBits_pos {w n : Nat} (h : 0 < n) : 0 < (L.allBits w n).length := by
  obtain ⟨m, rfl⟩ : ∃ m, n = m + 1 := ⟨n - 1, by omega⟩
  unfold allBits
  rw [List.range_succ_eq_map, List.flatMap_cons, List.length_append]
  have : 9 ≤ (L.bits w (0 + 0)).length := by
    unfold bits
    rw [List.length_append, if_pos (by simp), uniform_bits (by omega)]
    omega
  omega

theorem levelBlocks (nx ny : Nat) :
    Unity.levelBlocks {} 1 nx ny ((List.range (Unity.even ny * Unity.even nx)).map L.block) =
      (List.range ny).flatMap fun y => (List.range nx).map fun x => L.block (y * Unity.even nx + x) := by
  unfold Unity.levelBlocks
  rw [show List.range 1 = [0] from rfl, List.flatMap_cons, List.flatMap_nil, List.append_nil]
  apply flatMap_congr'
  intro y hy
  apply List.map_congr_left
  intro x hx
  have hy' : y < ny := by simpa using hy
  have hx' : x < nx := by simpa using hx
  have h1 : nx ≤ Unity.even nx := by unfold Unity.even; omega
  have h2 : ny ≤ Unity.even ny := by unfold Unity.even; omega
  have := Nat.mul_le_mul_right (Unity.even nx) (show y + 1 ≤ Unity.even ny by omega)
  rw [Nat.succ_mul] at this
  rw [Nat.zero_mul, Nat.zero_add, getD_range_map (by omega)]

end Stream

end Verif.Proofs.Crn.Enc
