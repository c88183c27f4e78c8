import Verif.Proofs.Crn.Write
import Verif.Proofs.Blocks

/-! # Writing the palettes of a Crunch file -/

namespace Verif.Proofs.Crn.Enc

open Verif Verif.Spec Verif.Spec.Crn Verif.Proofs.Crn

theorem leBytes_leNat {n : Nat} {l : List UInt8} (h : l.length = n) : leBytes n (leNat l) = l := by
  apply List.ext_getElem
  · simp [leBytes, h]
  · intro i h1 h2
    have e := getElem_eq_leNat l i h2
    simp only [leBytes, List.getElem_map, List.getElem_range]
    apply UInt8.toNat_inj.mp
    rw [UInt8.toNat_ofNat', e, show (256 : Nat) = 2 ^ 8 from rfl, ← Nat.pow_mul]

/-- The symbol for the change of `a` to `b`, modulo `m`. -/
def delta (m a b : Nat) : Nat := (b + m - a) % m

theorem Writes.change {k a b : Nat} (h1 : 1 ≤ k) (h : k ≤ 13) (ha : a < 2 ^ k) (hb : b < 2 ^ k) :
    Writes (Crn.change (Enc.uniform k) (2 ^ k) a) b (codeBits (Enc.uniform k) (delta (2 ^ k) a b)) := by
  unfold Crn.change
  have hd : delta (2 ^ k) a b < 2 ^ k := Nat.mod_lt _ (Nat.two_pow_pos k)
  have e : (a + delta (2 ^ k) a b) % 2 ^ k = b := by
    unfold delta
    rw [Nat.add_mod_mod, show a + (b + 2 ^ k - a) = b + 2 ^ k by omega, Nat.add_mod_right,
      Nat.mod_eq_of_lt hb]
  have := (Writes.uniform h1 h hd).map (f := fun d => (a + d) % 2 ^ k)
  rwa [e] at this

/-! ## Colours -/

/-- The colour with the given 16 bits. -/
def colourOf (v : Nat) : Colour := ⟨v / 2048 % 32, v / 32 % 64, v % 32⟩

theorem colourOf_bytes {v : Nat} (h : v < 2 ^ 16) : (colourOf v).bytes = leBytes 2 v := by
  unfold Colour.bytes colourOf
  congr 1
  simp only
  omega

/-- The pair of colours of four bytes. -/
def coloursOf (e : List UInt8) : Colour × Colour :=
  (colourOf (leNat (e.take 2)), colourOf (leNat (e.drop 2)))

theorem coloursOf_bytes {e : List UInt8} (h : e.length = 4) :
    (coloursOf e).1.bytes ++ (coloursOf e).2.bytes = e := by
  have h1 : (e.take 2).length = 2 := by rw [List.length_take]; omega
  have h2 : (e.drop 2).length = 2 := by rw [List.length_drop]; omega
  have l1 := leNat_lt (e.take 2)
  have l2 := leNat_lt (e.drop 2)
  rw [h1] at l1
  rw [h2] at l2
  show (colourOf _).bytes ++ (colourOf _).bytes = e
  rw [colourOf_bytes l1, colourOf_bytes l2, leBytes_leNat h1, leBytes_leNat h2, List.take_append_drop]

/-- A colour within its bounds. -/
def ColourOk (c : Colour) : Prop := c.r < 32 ∧ c.g < 64 ∧ c.b < 32

theorem colourOf_ok (v : Nat) : ColourOk (colourOf v) := by
  unfold ColourOk colourOf; simp only; omega

def colourBits (p c : Colour) : List Bool :=
  codeBits (uniform 5) (delta 32 p.r c.r) ++ (codeBits (uniform 6) (delta 64 p.g c.g) ++
    codeBits (uniform 5) (delta 32 p.b c.b))

theorem Writes.colour {p c : Colour} (hp : ColourOk p) (hc : ColourOk c) :
    Writes (Crn.colour (Enc.uniform 5) (Enc.uniform 6) p) c (colourBits p c) :=
  (Writes.change (k := 5) (by omega) (by omega) hp.1 hc.1).bind
    ((Writes.change (k := 6) (by omega) (by omega) hp.2.1 hc.2.1).bind
      (Writes.change (k := 5) (by omega) (by omega) hp.2.2 hc.2.2).map)

/-- Entry `i - 1` of a list; the start value for `i = 0`. -/
def before {α : Type} (start : α) (l : List α) (i : Nat) : α := (start :: l).getD i start

theorem before_zero {α : Type} {start : α} {l : List α} : before start l 0 = start := rfl

theorem before_map {α : Type} (start : α) (l : List α) :
    (List.range l.length).map (fun i => before start l (0 + i + 1)) = l := by
  apply List.ext_getElem
  · simp
  · intro i h1 h2
    simp [before, h2]

theorem before_all {α : Type} {P : α → Prop} {start : α} {l : List α} (h0 : P start) (h : ∀ a ∈ l, P a)
    (i : Nat) : P (before start l i) := by
  unfold before
  rw [List.getD_eq_getElem?_getD]
  cases e : (start :: l)[i]? with
  | none => exact h0
  | some a =>
    rcases List.mem_cons.mp (List.mem_of_getElem? e) with rfl | h'
    · exact h0
    · exact h a h'

/-- Values read with the knowledge of the one before. -/
theorem Writes.values {α : Type} {P : α → Prop} {r : α → Reader α} {bits : α → α → List Bool} {start : α}
    {l : List α} (h : ∀ a b, P a → P b → Writes (r a) b (bits a b)) (h0 : P start) (hl : ∀ a ∈ l, P a) :
    Writes (Crn.scan r l.length start) l
      ((List.range l.length).flatMap fun i => bits (before start l (0 + i)) (before start l (0 + i + 1))) := by
  have := Writes.scan (r := r) (st := before start l)
    (bits := fun i => bits (before start l i) (before start l (i + 1))) l.length 0
    (fun i _ _ => h _ _ (before_all h0 hl _) (before_all h0 hl _))
  rwa [before_map, before_zero] at this

theorem flatMap_range_le {α : Type} {f : Nat → List α} {n m : Nat} (h : ∀ i, i < n → (f i).length ≤ m) :
    ((List.range n).flatMap f).length ≤ n * m := by
  induction n with
  | zero => simp
  | succ n ih =>
    rw [List.range_succ, List.flatMap_append, List.length_append, Nat.succ_mul]
    have h1 := ih (fun i hi => h i (by omega))
    have h2 := h n (by omega)
    simp only [List.flatMap_cons, List.flatMap_nil, List.append_nil]
    omega

theorem codeBits_le {k s : Nat} : (codeBits (uniform k) s).length ≤ k := by
  unfold codeBits
  rw [msbBits_length]
  unfold lenOf uniform
  rw [List.getD_eq_getElem?_getD, List.getElem?_replicate]
  split <;> simp

/-- The bits of a palette of pairs of colours. -/
def colourEndpointBits (E : List (List UInt8)) : List Bool :=
  codeTable 5 ++ (codeTable 6 ++ ((List.range E.length).flatMap fun i =>
    let p := before ({}, {}) (E.map coloursOf) (0 + i)
    let c := before ({}, {}) (E.map coloursOf) (0 + i + 1)
    colourBits p.1 c.1 ++ colourBits p.2 c.2))

theorem Writes.colourEndpoints {E : List (List UInt8)} (hE : ∀ e ∈ E, e.length = 4) :
    Writes (Crn.colourEndpointPalette E.length) E (colourEndpointBits E) := by
  unfold Crn.colourEndpointPalette colourEndpointBits
  refine (Writes.prefixCode (by omega) (by omega)).bind ((Writes.prefixCode (by omega) (by omega)).bind ?_)
  have h := Writes.values (P := fun p : Colour × Colour => ColourOk p.1 ∧ ColourOk p.2)
    (r := fun p => do
      let c0 ← Crn.colour (Enc.uniform 5) (Enc.uniform 6) p.1
      let c1 ← Crn.colour (Enc.uniform 5) (Enc.uniform 6) p.2
      Pure.pure (c0, c1))
    (bits := fun p c => colourBits p.1 c.1 ++ colourBits p.2 c.2) (start := ({}, {}))
    (l := E.map coloursOf)
    (fun a b ha hb => (Writes.colour ha.1 hb.1).bind (Writes.colour ha.2 hb.2).map)
    (by unfold ColourOk; decide) (by
      intro a ha
      obtain ⟨e, _, rfl⟩ := List.mem_map.mp ha
      exact ⟨colourOf_ok _, colourOf_ok _⟩)
  rw [List.length_map] at h
  have := h.map (f := fun l => l.map fun p => p.1.bytes ++ p.2.bytes)
  have e : (E.map coloursOf).map (fun p => p.1.bytes ++ p.2.bytes) = E := by
    rw [List.map_map]
    conv => rhs; rw [← List.map_id E]
    exact List.map_congr_left (fun a ha => coloursOf_bytes (hE a ha))
  rwa [e] at this

theorem colourEndpointBits_le (E : List (List UInt8)) :
    (colourEndpointBits E).length ≤ 260 + E.length * 32 := by
  unfold colourEndpointBits
  rw [List.length_append, List.length_append, codeTable_length (show 5 ≤ 13 by omega),
    codeTable_length (show 6 ≤ 13 by omega)]
  have := flatMap_range_le (n := E.length) (m := 32) (f := fun i =>
    let p := before ({}, {}) (E.map coloursOf) (0 + i)
    let c := before ({}, {}) (E.map coloursOf) (0 + i + 1)
    colourBits p.1 c.1 ++ colourBits p.2 c.2) (fun i _ => by
      simp only [colourBits, List.length_append]
      have h5 := fun s => codeBits_le (k := 5) (s := s)
      have h6 := fun s => codeBits_le (k := 6) (s := s)
      have a1 := h5 (delta 32 (before ({}, {}) (E.map coloursOf) (0 + i)).1.r
        (before ({}, {}) (E.map coloursOf) (0 + i + 1)).1.r)
      have a2 := h6 (delta 64 (before ({}, {}) (E.map coloursOf) (0 + i)).1.g
        (before ({}, {}) (E.map coloursOf) (0 + i + 1)).1.g)
      have a3 := h5 (delta 32 (before ({}, {}) (E.map coloursOf) (0 + i)).1.b
        (before ({}, {}) (E.map coloursOf) (0 + i + 1)).1.b)
      have a4 := h5 (delta 32 (before ({}, {}) (E.map coloursOf) (0 + i)).2.r
        (before ({}, {}) (E.map coloursOf) (0 + i + 1)).2.r)
      have a5 := h6 (delta 64 (before ({}, {}) (E.map coloursOf) (0 + i)).2.g
        (before ({}, {}) (E.map coloursOf) (0 + i + 1)).2.g)
      have a6 := h5 (delta 32 (before ({}, {}) (E.map coloursOf) (0 + i)).2.b
        (before ({}, {}) (E.map coloursOf) (0 + i + 1)).2.b)
      omega)
  omega

/-! ## Pairs of bytes -/

/-- The two numbers of two bytes. -/
def numbersOf (e : List UInt8) : Nat × Nat := (leNat (e.take 1), leNat (e.drop 1))

/-- The bits of a palette of pairs of bytes. -/
def alphaEndpointBits (E : List (List UInt8)) : List Bool :=
  codeTable 8 ++ ((List.range E.length).flatMap fun i =>
    let p := before (0, 0) (E.map numbersOf) (0 + i)
    let c := before (0, 0) (E.map numbersOf) (0 + i + 1)
    codeBits (uniform 8) (delta 256 p.1 c.1) ++ codeBits (uniform 8) (delta 256 p.2 c.2))

theorem Writes.alphaEndpoints {E : List (List UInt8)} (hE : ∀ e ∈ E, e.length = 2) :
    Writes (Crn.alphaEndpointPalette E.length) E (alphaEndpointBits E) := by
  unfold Crn.alphaEndpointPalette alphaEndpointBits
  refine (Writes.prefixCode (by omega) (by omega)).bind ?_
  have len : ∀ e ∈ E, (e.take 1).length = 1 ∧ (e.drop 1).length = 1 := fun e he => by
    rw [List.length_take, List.length_drop, hE e he]; omega
  have h := Writes.values (P := fun p : Nat × Nat => p.1 < 2 ^ 8 ∧ p.2 < 2 ^ 8)
    (r := fun p => do
      let a ← Crn.change (Enc.uniform 8) 256 p.1
      let b ← Crn.change (Enc.uniform 8) 256 p.2
      Pure.pure (a, b))
    (bits := fun p c => codeBits (Enc.uniform 8) (delta 256 p.1 c.1) ++
      codeBits (Enc.uniform 8) (delta 256 p.2 c.2)) (start := (0, 0))
    (l := E.map numbersOf)
    (fun a b ha hb => (Writes.change (k := 8) (by omega) (by omega) ha.1 hb.1).bind
      (Writes.change (k := 8) (by omega) (by omega) ha.2 hb.2).map)
    (by decide) (by
      intro a ha
      obtain ⟨e, he, rfl⟩ := List.mem_map.mp ha
      have l1 := leNat_lt (e.take 1)
      have l2 := leNat_lt (e.drop 1)
      rw [(len e he).1] at l1
      rw [(len e he).2] at l2
      exact ⟨l1, l2⟩)
  rw [List.length_map] at h
  have := h.map (f := fun l => l.map fun p => leBytes 1 p.1 ++ leBytes 1 p.2)
  have e : (E.map numbersOf).map (fun p => leBytes 1 p.1 ++ leBytes 1 p.2) = E := by
    rw [List.map_map]
    conv => rhs; rw [← List.map_id E]
    refine List.map_congr_left (fun a ha => ?_)
    show leBytes 1 (leNat (a.take 1)) ++ leBytes 1 (leNat (a.drop 1)) = a
    rw [leBytes_leNat (len a ha).1, leBytes_leNat (len a ha).2, List.take_append_drop]
  rwa [e] at this

theorem alphaEndpointBits_le (E : List (List UInt8)) :
    (alphaEndpointBits E).length ≤ 338 + E.length * 16 := by
  unfold alphaEndpointBits
  rw [List.length_append, codeTable_length (show 8 ≤ 13 by omega)]
  have := flatMap_range_le (n := E.length) (m := 16) (f := fun i =>
    let p := before (0, 0) (E.map numbersOf) (0 + i)
    let c := before (0, 0) (E.map numbersOf) (0 + i + 1)
    codeBits (uniform 8) (delta 256 p.1 c.1) ++ codeBits (uniform 8) (delta 256 p.2 c.2)) (fun i _ => by
      simp only [List.length_append]
      have a1 := codeBits_le (k := 8) (s := delta 256 (before (0, 0) (E.map numbersOf) (0 + i)).1
        (before (0, 0) (E.map numbersOf) (0 + i + 1)).1)
      have a2 := codeBits_le (k := 8) (s := delta 256 (before (0, 0) (E.map numbersOf) (0 + i)).2
        (before (0, 0) (E.map numbersOf) (0 + i + 1)).2)
      omega)
  omega

/-! ## Selectors -/

/-- The symbol for two selectors. -/
def pairSymbol (k a b c d : Nat) : Nat := (c + (k - 1) - a) + (2 * k - 1) * (d + (k - 1) - b)

/-- The bits for the change of selectors. -/
def selectorBits (K k : Nat) : List Nat → List Nat → List Bool
  | a :: b :: l, c :: d :: m => codeBits (uniform K) (pairSymbol k a b c d) ++ selectorBits K k l m
  | _, _ => []

theorem pairSymbol_lt {k a b c d : Nat} (ha : a < k) (hb : b < k) (hc : c < k) (hd : d < k) :
    pairSymbol k a b c d < (2 * k - 1) * (2 * k - 1) := by
  unfold pairSymbol
  have h1 := Nat.mul_le_mul_left (2 * k - 1) (show d + (k - 1) - b ≤ 2 * k - 1 - 1 by omega)
  rw [Nat.mul_sub_one] at h1
  have : 2 * k - 1 ≤ (2 * k - 1) * (2 * k - 1) := Nat.le_mul_of_pos_right _ (by omega)
  omega

theorem shifted {k a c : Nat} (ha : a < k) (hc : c < k) :
    (((a : Int) + (((c + (k - 1) - a : Nat) : Int) - ((k - 1 : Nat) : Int))) % (k : Int)).toNat = c := by
  have e : (a : Int) + (((c + (k - 1) - a : Nat) : Int) - ((k - 1 : Nat) : Int)) = (c : Int) := by omega
  rw [e, Int.emod_eq_of_lt (by omega) (by omega)]
  rfl

theorem Writes.selectors {K k : Nat} (h1 : 1 ≤ K) (hK : K ≤ 13) (hk : (2 * k - 1) * (2 * k - 1) ≤ 2 ^ K) :
    ∀ n (l m : List Nat), l.length = 2 * n → m.length = 2 * n → (∀ v ∈ l, v < k) → (∀ v ∈ m, v < k) →
    Writes (Crn.selectors (Enc.uniform K) k l) m (selectorBits K k l m) := by
  intro n
  induction n with
  | zero =>
    intro l m hl hm _ _
    obtain rfl := List.eq_nil_of_length_eq_zero (l := l) (by omega)
    obtain rfl := List.eq_nil_of_length_eq_zero (l := m) (by omega)
    exact Writes.pure _
  | succ n ih =>
    intro l m hl hm vl vm
    match l, m, hl, hm with
    | a :: b :: l, c :: d :: m, hl, hm =>
      have ha := vl a (by simp); have hb := vl b (by simp)
      have hc := vm c (by simp); have hd := vm d (by simp)
      have hs := pairSymbol_lt ha hb hc hd
      unfold Crn.selectors selectorBits
      refine (Writes.uniform h1 hK (Nat.lt_of_lt_of_le hs hk)).bind (Writes.require hs ?_)
      have hrest := ih l m (by simp at hl; omega) (by simp at hm; omega)
        (fun v hv => vl v (by simp [hv])) (fun v hv => vm v (by simp [hv]))
      have e0 : pairSymbol k a b c d % (2 * k - 1) = c + (k - 1) - a := by
        unfold pairSymbol
        rw [Nat.add_mul_mod_self_left, Nat.mod_eq_of_lt (by omega)]
      have e1 : pairSymbol k a b c d / (2 * k - 1) = d + (k - 1) - b := by
        unfold pairSymbol
        rw [Nat.add_mul_div_left _ _ (by omega), Nat.div_eq_of_lt (by omega), Nat.zero_add]
      rw [e0, e1]
      have := hrest.map (f := fun l =>
        (((a : Int) + (((c + (k - 1) - a : Nat) : Int) - ((k - 1 : Nat) : Int))) % (k : Int)).toNat ::
        (((b : Int) + (((d + (k - 1) - b : Nat) : Int) - ((k - 1 : Nat) : Int))) % (k : Int)).toNat :: l)
      rw [shifted ha hc, shifted hb hd] at this
      show Writes (Crn.selectors (Enc.uniform K) k l >>= fun l => Pure.pure
        ((((a : Int) + (((c + (k - 1) - a : Nat) : Int) - ((k - 1 : Nat) : Int))) % (k : Int)).toNat ::
        (((b : Int) + (((d + (k - 1) - b : Nat) : Int) - ((k - 1 : Nat) : Int))) % (k : Int)).toNat :: l)) _ _
      rw [shifted ha hc, shifted hb hd]
      exact this

theorem selectorBits_le {K k : Nat} : ∀ n (l m : List Nat), m.length = 2 * n →
    (selectorBits K k l m).length ≤ n * K := by
  intro n
  induction n with
  | zero =>
    intro l m hm
    obtain rfl := List.eq_nil_of_length_eq_zero (l := m) (by omega)
    match l with
    | [] | [_] | _ :: _ :: _ => simp [selectorBits]
  | succ n ih =>
    intro l m hm
    match l, m, hm with
    | a :: b :: l, c :: d :: m, hm =>
      unfold selectorBits
      rw [List.length_append, Nat.succ_mul]
      have h1 := codeBits_le (k := K) (s := pairSymbol k a b c d)
      have h2 := ih l m (by simp at hm; omega)
      omega
    | [], m, _ => simp [selectorBits]
    | [_], m, _ => simp [selectorBits]

/-- The selectors of a block with the number `v`. -/
def selectorsOf (order : List Nat) (v : Nat) : List Nat :=
  (List.range 16).map fun i => order.idxOf (v / order.length ^ i % order.length)

theorem packSelectors_digits {order : List Nat} {K : Nat} (hK : order.length = K) (hpos : 0 < K)
    (horder : ∀ d, d < K → order.getD (order.idxOf d) 0 = d) : ∀ n v,
    packSelectors order ((List.range n).map fun i => order.idxOf (v / K ^ i % K)) = v % K ^ n := by
  intro n
  induction n with
  | zero => intro v; simp [packSelectors, Nat.mod_one]
  | succ n ih =>
    intro v
    have h := ih (v / K)
    rw [List.range_succ_eq_map, List.map_cons, List.map_map]
    have e : (List.range n).map ((fun i => order.idxOf (v / K ^ i % K)) ∘ Nat.succ) =
        (List.range n).map fun i => order.idxOf (v / K / K ^ i % K) := by
      apply List.map_congr_left
      intro i _
      show order.idxOf (v / K ^ (i + 1) % K) = _
      rw [Nat.pow_succ, Nat.mul_comm, Nat.div_div_eq_div_mul]
    rw [e]
    unfold packSelectors at h ⊢
    rw [List.foldr_cons, h, horder _ (Nat.mod_lt _ hpos), hK, Nat.pow_zero, Nat.div_one, Nat.pow_succ,
      Nat.mul_comm (K ^ n) K, Nat.mod_mul]

/-- The bits of a palette of selectors. -/
def selectorPaletteBits (K : Nat) (order : List Nat) (S : List (List UInt8)) : List Bool :=
  codeTable K ++ ((List.range S.length).flatMap fun i =>
    selectorBits K order.length
      (before (List.replicate 16 0) (S.map fun s => selectorsOf order (leNat s)) (0 + i))
      (before (List.replicate 16 0) (S.map fun s => selectorsOf order (leNat s)) (0 + i + 1)))

theorem selectorsOf_ok {order : List Nat} (hpos : 0 < order.length)
    (horder : ∀ d, d < order.length → order.idxOf d < order.length) (v : Nat) :
    (selectorsOf order v).length = 16 ∧ ∀ a ∈ selectorsOf order v, a < order.length := by
  unfold selectorsOf
  refine ⟨by simp, fun a ha => ?_⟩
  obtain ⟨i, _, rfl⟩ := List.mem_map.mp ha
  exact horder _ (Nat.mod_lt _ hpos)

theorem Writes.selectorPalette {K bytes : Nat} {order : List Nat} (h1 : 1 ≤ K) (hK : K ≤ 13)
    (hpos : 0 < order.length) (hk : (2 * order.length - 1) * (2 * order.length - 1) ≤ 2 ^ K)
    (horder : ∀ d, d < order.length → order.idxOf d < order.length ∧ order.getD (order.idxOf d) 0 = d)
    (hbytes : 2 ^ (8 * bytes) ≤ order.length ^ 16)
    {S : List (List UInt8)} (hS : ∀ s ∈ S, s.length = bytes) :
    Writes (Crn.selectorPalette order bytes S.length) S (selectorPaletteBits K order S) := by
  unfold Crn.selectorPalette selectorPaletteBits
  refine (Writes.prefixCode h1 hK).bind ?_
  have h := Writes.values (P := fun l : List Nat => l.length = 2 * 8 ∧ ∀ v ∈ l, v < order.length)
    (r := Crn.selectors (Enc.uniform K) order.length)
    (bits := selectorBits K order.length) (start := List.replicate 16 0)
    (l := S.map fun s => selectorsOf order (leNat s))
    (fun a b ha hb => Writes.selectors h1 hK hk 8 a b ha.1 hb.1 ha.2 hb.2)
    ⟨by simp, fun v hv => by rw [(List.mem_replicate.mp hv).2]; exact hpos⟩ (by
      intro a ha
      obtain ⟨s, hs, rfl⟩ := List.mem_map.mp ha
      exact selectorsOf_ok hpos (fun d hd => (horder d hd).1) _)
  rw [List.length_map] at h
  have := h.map (f := fun l => l.map fun v => leBytes bytes (packSelectors order v))
  have e : (S.map fun s => selectorsOf order (leNat s)).map
      (fun v => leBytes bytes (packSelectors order v)) = S := by
    rw [List.map_map]
    conv => rhs; rw [← List.map_id S]
    refine List.map_congr_left (fun a ha => ?_)
    show leBytes bytes (packSelectors order (selectorsOf order (leNat a))) = a
    have hl := leNat_lt a
    rw [hS a ha] at hl
    rw [selectorsOf, packSelectors_digits rfl hpos (fun d hd => (horder d hd).2),
      Nat.mod_eq_of_lt (by omega), leBytes_leNat (hS a ha)]
  rwa [e] at this

theorem selectorPaletteBits_le {K : Nat} (hK : K ≤ 13) (order : List Nat) (S : List (List UInt8)) :
    (selectorPaletteBits K order S).length ≤ 82 + 2 ^ K + S.length * (8 * K) := by
  unfold selectorPaletteBits
  rw [List.length_append, codeTable_length hK]
  have := flatMap_range_le (n := S.length) (m := 8 * K) (f := fun i => selectorBits K order.length
      (before (List.replicate 16 0) (S.map fun s => selectorsOf order (leNat s)) (0 + i))
      (before (List.replicate 16 0) (S.map fun s => selectorsOf order (leNat s)) (0 + i + 1)))
    (fun i _ => selectorBits_le 8 _ _ (before_all (P := fun l : List Nat => l.length = 2 * 8) (by simp) (by
      intro a ha
      obtain ⟨s, _, rfl⟩ := List.mem_map.mp ha
      simp [selectorsOf]) _))
  omega

theorem Writes.colourSelectors {S : List (List UInt8)} (hS : ∀ s ∈ S, s.length = 4) :
    Writes (Crn.selectorPalette colourOrder 4 S.length) S (selectorPaletteBits 6 colourOrder S) :=
  Writes.selectorPalette (by omega) (by omega) (by decide) (by decide) (by decide) (by decide) hS

theorem Writes.alphaSelectors {S : List (List UInt8)} (hS : ∀ s ∈ S, s.length = 6) :
    Writes (Crn.selectorPalette alphaOrder 6 S.length) S (selectorPaletteBits 8 alphaOrder S) :=
  Writes.selectorPalette (by omega) (by omega) (by decide) (by decide) (by decide) (by decide) hS

end Verif.Proofs.Crn.Enc
