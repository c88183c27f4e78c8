import Verif.Proofs.Crn.WriteUnity

/-! # Writing ETC palettes of Unity's variant of Crunch -/

namespace Verif.Proofs.Crn.Enc

open Verif Verif.Spec Verif.Spec.Crn Verif.Proofs.Crn

/-! ## Colours -/

/-- A colour within its bounds. -/
def EtcOk (c : Unity.EtcColour) : Prop := c.r < 32 ∧ c.g < 32 ∧ c.b < 32 ∧ c.table < 8

theorem Writes.etcChange {a b : Nat} (ha : a < 32) (hb : b < 32) :
    Writes (Unity.etcChange (Enc.uniform 5) a) b (codeBits (Enc.uniform 5) (delta 32 a b)) := by
  unfold Unity.etcChange
  have hd : delta 32 a b < 32 := Nat.mod_lt _ (by omega)
  have e : (a + delta 32 a b) % 32 = b := by unfold delta; omega
  have := (Writes.uniform (k := 5) (by omega) (by omega) hd).bind
    (f := fun d => do
      Crn.require (d < 32)
      Pure.pure ((a + d) % 32)) (b := b) (m := []) (Writes.require hd (by rw [e]; exact Writes.pure _))
  rwa [List.append_nil] at this

def etcBits (p c : Unity.EtcColour) : List Bool :=
  codeBits (uniform 5) (delta 32 p.r c.r) ++ (codeBits (uniform 5) (delta 32 p.g c.g) ++
    (codeBits (uniform 5) (delta 32 p.b c.b) ++ codeBits (uniform 5) (delta 32 p.table c.table)))

theorem etcBits_le (p c : Unity.EtcColour) : (etcBits p c).length ≤ 20 := by
  have h5 := fun s => codeBits_le (k := 5) (s := s)
  unfold etcBits
  simp only [List.length_append]
  have a1 := h5 (delta 32 p.r c.r)
  have a2 := h5 (delta 32 p.g c.g)
  have a3 := h5 (delta 32 p.b c.b)
  have a4 := h5 (delta 32 p.table c.table)
  omega

theorem Writes.etcColour {p c : Unity.EtcColour} (hp : EtcOk p) (hc : EtcOk c) :
    Writes (Unity.etcColour (Enc.uniform 5) p) c (etcBits p c) := by
  obtain ⟨p1, p2, p3, p4⟩ := hp
  obtain ⟨c1, c2, c3, c4⟩ := hc
  unfold Unity.etcColour etcBits
  refine (Writes.etcChange p1 c1).bind ((Writes.etcChange p2 c2).bind ((Writes.etcChange p3 c3).bind ?_))
  have := (Writes.etcChange (show p.table < 32 by omega) (show c.table < 32 by omega)).bind
    (f := fun t => do
      Crn.require (t < 8)
      Pure.pure (⟨c.r, c.g, c.b, t⟩ : Unity.EtcColour)) (b := c) (m := []) (Writes.require c4 (Writes.pure _))
  rwa [List.append_nil] at this

/-- The bits of a palette of ETC colours. -/
def etcColourBits (E : List Unity.EtcColour) : List Bool :=
  codeTable 5 ++ ((List.range E.length).flatMap fun i =>
    etcBits (before {} E (0 + i)) (before {} E (0 + i + 1)))

theorem Writes.etcColours {E : List Unity.EtcColour} (hE : ∀ e ∈ E, EtcOk e) :
    Writes (Unity.etcColours E.length) E (etcColourBits E) := by
  unfold Unity.etcColours etcColourBits
  exact (Writes.prefixCode (by omega) (by omega)).bind
    (Writes.values (P := EtcOk) (fun a b ha hb => Writes.etcColour ha hb) (by unfold EtcOk; decide) hE)

theorem etcColourBits_le (E : List Unity.EtcColour) : (etcColourBits E).length ≤ 114 + E.length * 20 := by
  unfold etcColourBits
  rw [List.length_append, codeTable_length (show 5 ≤ 13 by omega)]
  have := flatMap_range_le (n := E.length) (m := 20)
    (f := fun i => etcBits (before {} E (0 + i)) (before {} E (0 + i + 1))) (fun i _ => etcBits_le _ _)
  omega

theorem etcColourBits_pos (E : List Unity.EtcColour) : 0 < (etcColourBits E).length := by
  unfold etcColourBits
  rw [List.length_append, codeTable_length (show 5 ≤ 13 by omega)]
  omega

/-! ## Selectors -/

/-- 16 selectors with `k` values. -/
def SelOk (k : Nat) (l : List Nat) : Prop := l.length = 16 ∧ ∀ v ∈ l, v < k

/-- The bits of a palette of selectors with `k` values. -/
def entryBits (K k : Nat) (S : List (List Nat)) : List Bool :=
  codeTable K ++ ((List.range S.length).flatMap fun i =>
    xorBits K k (before (List.replicate 16 0) S (0 + i)) (before (List.replicate 16 0) S (0 + i + 1)))

theorem Writes.selectorEntries {K j : Nat} (h1 : 1 ≤ K) (hK : K ≤ 13) (hk : K = j + j)
    {S : List (List Nat)} (hS : ∀ s ∈ S, SelOk (2 ^ j) s) :
    Writes (Unity.selectorEntries (2 ^ j) S.length) S (entryBits K (2 ^ j) S) := by
  unfold Unity.selectorEntries entryBits
  exact (Writes.prefixCode h1 hK).bind
    (Writes.values (P := SelOk (2 ^ j))
      (fun a b ha hb => Writes.xorSelectors h1 hK hk 8 a b ha.1 hb.1 ha.2 hb.2)
      ⟨by simp, fun v hv => by rw [(List.mem_replicate.mp hv).2]; exact Nat.two_pow_pos j⟩ hS)

theorem entryBits_le {K : Nat} (hK : K ≤ 13) (k : Nat) {S : List (List Nat)} (hS : ∀ s ∈ S, s.length = 16) :
    (entryBits K k S).length ≤ 82 + 2 ^ K + S.length * (8 * K) := by
  unfold entryBits
  rw [List.length_append, codeTable_length hK]
  have := flatMap_range_le (n := S.length) (m := 8 * K) (f := fun i => xorBits K k
      (before (List.replicate 16 0) S (0 + i)) (before (List.replicate 16 0) S (0 + i + 1)))
    (fun i _ => xorBits_le 8 _ _ (before_all (P := fun l : List Nat => l.length = 2 * 8) (by simp) hS _))
  omega

theorem entryBits_pos {K : Nat} (hK : K ≤ 13) (k : Nat) (S : List (List Nat)) :
    0 < (entryBits K k S).length := by
  have := Nat.two_pow_pos K
  unfold entryBits
  rw [List.length_append, codeTable_length hK]
  omega

/-! ## Selector bytes -/

/-- The lowest `n` bits of `v`, the lowest first. -/
def lowBits : Nat → Nat → List Nat
  | 0, _ => []
  | n + 1, v => v % 2 :: lowBits n (v / 2)

theorem lowBits_length (n v : Nat) : (lowBits n v).length = n := by
  induction n generalizing v with
  | zero => rfl
  | succ n ih => simp [lowBits, ih]

theorem bitNumber_lowBits (n v : Nat) : Unity.bitNumber (lowBits n v) = v % 2 ^ n := by
  induction n generalizing v with
  | zero => simp [lowBits, Unity.bitNumber, Nat.mod_one]
  | succ n ih =>
    unfold Unity.bitNumber at ih ⊢
    unfold lowBits
    rw [List.foldr_cons, ih, Nat.pow_succ', Nat.mod_mul]

theorem lowBits_lt {n v b : Nat} (h : b ∈ lowBits n v) : b < 2 := by
  induction n generalizing v with
  | zero => simp [lowBits] at h
  | succ n ih =>
    rcases List.mem_cons.mp h with rfl | h
    · exact Nat.mod_lt _ (by omega)
    · exact ih h

theorem beBytes_of {n : Nat} {l : List UInt8} (h : l.length = n) : Unity.beBytes n (leNat l.reverse) = l := by
  unfold Unity.beBytes
  rw [leBytes_leNat (by rw [List.length_reverse, h]), List.reverse_reverse]

/-- The selector with the code `2 * a + b` in an ETC block. -/
def etcValue (a b : Nat) : Nat := [2, 3, 1, 0].getD (2 * a + b) 0

theorem etcValue_table : ∀ a b : Fin 2, etcValue a b < 4 ∧ Unity.etcOrder.getD (etcValue a b) 0 / 2 = a ∧
    Unity.etcOrder.getD (etcValue a b) 0 % 2 = b := by decide

/-- The selectors with the given upper and lower bits. -/
def etcValues : List Nat → List Nat → List Nat
  | a :: l, b :: m => etcValue a b :: etcValues l m
  | _, _ => []

theorem etcValues_ok : ∀ (l m : List Nat), l.length = m.length → (∀ a ∈ l, a < 2) → (∀ a ∈ m, a < 2) →
    (etcValues l m).length = l.length ∧ (∀ v ∈ etcValues l m, v < 4) ∧
    (etcValues l m).map (fun v => Unity.etcOrder.getD v 0 / 2) = l ∧
    (etcValues l m).map (fun v => Unity.etcOrder.getD v 0 % 2) = m := by
  intro l
  induction l with
  | nil =>
    intro m h _ _
    obtain rfl := List.eq_nil_of_length_eq_zero (l := m) h.symm
    simp [etcValues]
  | cons a l ih =>
    intro m h hl hm
    match m, h with
    | b :: m, h =>
      obtain ⟨t1, t2, t3⟩ := etcValue_table ⟨a, hl a (by simp)⟩ ⟨b, hm b (by simp)⟩
      obtain ⟨i1, i2, i3, i4⟩ := ih m (by simpa using h) (fun x hx => hl x (by simp [hx]))
        (fun x hx => hm x (by simp [hx]))
      simp only at t1 t2 t3
      unfold etcValues
      refine ⟨by simp [i1], ?_, ?_, ?_⟩
      · intro v hv
        rcases List.mem_cons.mp hv with rfl | hv
        · exact t1
        · exact i2 v hv
      · rw [List.map_cons, i3, t2]
      · rw [List.map_cons, i4, t3]

/-- The selectors, column by column, of the four bytes at the end of an ETC block. -/
def etcSels (s : List UInt8) : List Nat :=
  etcValues (lowBits 16 (leNat (s.take 2).reverse)) (lowBits 16 (leNat (s.drop 2).reverse))

theorem etcSels_spec {s : List UInt8} (h : s.length = 4) :
    SelOk 4 (etcSels s) ∧ Unity.etcSelectorBytes (etcSels s) = s := by
  obtain ⟨i1, i2, i3, i4⟩ := etcValues_ok (lowBits 16 (leNat (s.take 2).reverse))
    (lowBits 16 (leNat (s.drop 2).reverse)) (by rw [lowBits_length, lowBits_length])
    (fun _ => lowBits_lt) (fun _ => lowBits_lt)
  refine ⟨⟨i1.trans (lowBits_length _ _), i2⟩, ?_⟩
  have h1 : (s.take 2).length = 2 := by rw [List.length_take, h]; rfl
  have h2 : (s.drop 2).length = 2 := by rw [List.length_drop, h]
  have l1 := leNat_lt (s.take 2).reverse
  have l2 := leNat_lt (s.drop 2).reverse
  rw [List.length_reverse, h1] at l1
  rw [List.length_reverse, h2] at l2
  unfold Unity.etcSelectorBytes etcSels
  rw [i3, i4, bitNumber_lowBits, bitNumber_lowBits, Nat.mod_eq_of_lt l1, Nat.mod_eq_of_lt l2,
    beBytes_of h1, beBytes_of h2, List.take_append_drop]

/-- `n` selectors of three bits each, the first one highest. -/
def eacValues : Nat → Nat → List Nat
  | 0, _ => []
  | n + 1, v => eacValues n (v / 8) ++ [Unity.eacOrder.getD (v % 8) 0]

theorem eacOrder_table : ∀ d : Fin 8, Unity.eacOrder.getD d 0 < 8 ∧
    Unity.eacOrder.getD (Unity.eacOrder.getD d 0) 0 = d := by decide

theorem eacValues_ok (n v : Nat) : (eacValues n v).length = n ∧ (∀ d ∈ eacValues n v, d < 8) ∧
    (eacValues n v).foldl (fun n v => 8 * n + Unity.eacOrder.getD v 0) 0 = v % 8 ^ n := by
  induction n generalizing v with
  | zero => simp [eacValues, Nat.mod_one]
  | succ n ih =>
    obtain ⟨i1, i2, i3⟩ := ih (v / 8)
    obtain ⟨t1, t2⟩ := eacOrder_table ⟨v % 8, Nat.mod_lt _ (by omega)⟩
    simp only at t1 t2
    unfold eacValues
    refine ⟨by simp [i1], ?_, ?_⟩
    · intro d hd
      rcases List.mem_append.mp hd with hd | hd
      · exact i2 d hd
      · obtain rfl := List.mem_singleton.mp hd
        exact t1
    · rw [List.foldl_append, i3, List.foldl_cons, List.foldl_nil, t2, Nat.pow_succ', Nat.mod_mul]
      omega

/-- The selectors, column by column, of the six bytes at the end of an EAC block. -/
def eacSels (s : List UInt8) : List Nat := eacValues 16 (leNat s.reverse)

theorem eacSels_spec {s : List UInt8} (h : s.length = 6) :
    SelOk 8 (eacSels s) ∧ Unity.eacSelectorBytes (eacSels s) = s := by
  obtain ⟨i1, i2, i3⟩ := eacValues_ok 16 (leNat s.reverse)
  refine ⟨⟨i1, i2⟩, ?_⟩
  have l := leNat_lt s.reverse
  rw [List.length_reverse, h] at l
  unfold Unity.eacSelectorBytes eacSels
  rw [i3, Nat.mod_eq_of_lt (Nat.lt_of_lt_of_le l (by decide)), beBytes_of h]

theorem transpose_ok {k : Nat} {l : List Nat} (h : SelOk k l) : SelOk k (Unity.transpose l) := by
  refine ⟨by simp [Unity.transpose], fun v hv => ?_⟩
  obtain ⟨i, hi, rfl⟩ := List.mem_map.mp hv
  have hi' : i < 16 := by simpa using hi
  have hl : i % 4 * 4 + i / 4 < l.length := by rw [h.1]; omega
  rw [List.getD_eq_getElem?_getD, List.getElem?_eq_getElem hl]
  exact h.2 _ (List.getElem_mem _)

theorem transpose_transpose {l : List Nat} (h : l.length = 16) : Unity.transpose (Unity.transpose l) = l := by
  unfold Unity.transpose
  apply List.ext_getElem
  · simp [h]
  · intro i h1 h2
    have hi : i < 16 := by omega
    rw [List.getElem_map, List.getElem_range, getD_range_map (by omega),
      show (i % 4 * 4 + i / 4) % 4 * 4 + (i % 4 * 4 + i / 4) / 4 = i by omega,
      List.getD_eq_getElem?_getD, List.getElem?_eq_getElem h2]
    rfl

end Verif.Proofs.Crn.Enc
