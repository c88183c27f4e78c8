import Verif.Proofs.Crn.WriteEtcUnpack
import Verif.Spec.UnityEtcData

/-! # The base colours of ETC blocks -/

namespace Verif.Proofs.Crn.Enc

open Verif Verif.Spec Verif.Spec.Crn Verif.Proofs.Crn

def halfHigh (c : Nat) : Nat := 2 * (c / 16) + if c % 16 + 2 ≤ c / 16 then 1 else 0
def halfLow (c : Nat) : Nat := 2 * (c % 16) + if c / 16 + 2 ≤ c % 16 then 1 else 0
def sumOf (c : Nat) : Nat := (if c % 8 < 4 then c / 8 + c % 8 else c / 8 + c % 8 - 8) % 32

def etcAt (e : List UInt8) (i : Nat) : Nat := (e.getD i 0).toNat

theorem etcAt_lt (e : List UInt8) (i : Nat) : etcAt e i < 256 := UInt8.toNat_lt _

def etcFirst (e : List UInt8) : Unity.EtcColour :=
  if etcAt e 3 / 2 % 2 = 1 then ⟨etcAt e 0 / 8, etcAt e 1 / 8, etcAt e 2 / 8, etcAt e 3 / 32⟩
  else ⟨halfHigh (etcAt e 0), halfHigh (etcAt e 1), halfHigh (etcAt e 2), etcAt e 3 / 32⟩

def etcSecond (e : List UInt8) : Unity.EtcColour :=
  if etcAt e 3 / 2 % 2 = 1 then ⟨sumOf (etcAt e 0), sumOf (etcAt e 1), sumOf (etcAt e 2), etcAt e 3 / 4 % 8⟩
  else ⟨halfLow (etcAt e 0), halfLow (etcAt e 1), halfLow (etcAt e 2), etcAt e 3 / 4 % 8⟩

theorem halfHigh_lt {c : Nat} (h : c < 256) : halfHigh c < 32 := by unfold halfHigh; split <;> omega
theorem halfLow_lt (c : Nat) : halfLow c < 32 := by unfold halfLow; split <;> omega
theorem sumOf_lt (c : Nat) : sumOf c < 32 := Nat.mod_lt _ (by decide)

theorem etcFirst_ok (e : List UInt8) : EtcOk (etcFirst e) := by
  have a0 := etcAt_lt e 0
  have a1 := etcAt_lt e 1
  have a2 := etcAt_lt e 2
  have a3 := etcAt_lt e 3
  unfold etcFirst
  split
  · exact ⟨by simp only; omega, by simp only; omega, by simp only; omega, by simp only; omega⟩
  · exact ⟨halfHigh_lt a0, halfHigh_lt a1, halfHigh_lt a2, by simp only; omega⟩

theorem etcSecond_ok (e : List UInt8) : EtcOk (etcSecond e) := by
  unfold etcSecond
  split
  · exact ⟨sumOf_lt _, sumOf_lt _, sumOf_lt _, by simp only; omega⟩
  · exact ⟨halfLow_lt _, halfLow_lt _, halfLow_lt _, by simp only; omega⟩

theorem sum_near {c : Nat} (hc : c < 256) (h : Unity.SumFits c) :
    Unity.near (c / 8) (sumOf c) = true ∧ 8 * (c / 8) + (sumOf c + 8 - c / 8) % 8 = c := by
  obtain ⟨h1, h2⟩ := h
  unfold Unity.near sumOf
  simp only [Bool.and_eq_true, decide_eq_true_eq]
  split
  · have := h1 (by assumption); omega
  · have := h2 (by omega); omega

theorem half_bytes (c : Nat) : 16 * (halfHigh c / 2) + halfLow c / 2 = c := by
  unfold halfHigh halfLow
  split <;> split <;> omega

theorem apart_near {c : Nat} (h : Unity.Apart c) : Unity.near (halfHigh c) (halfLow c) = false := by
  unfold Unity.near halfHigh halfLow
  simp only [Bool.and_eq_false_iff, decide_eq_false_iff_not]
  rcases h with h | h
  · right; split <;> split <;> omega
  · left; split <;> split <;> omega

theorem byte_eq {e : List UInt8} {i v : Nat} (hi : i < e.length) (h : v = etcAt e i) : UInt8.ofNat v = e[i] := by
  rw [h]
  unfold etcAt
  rw [List.getD_eq_getElem?_getD, List.getElem?_eq_getElem hi]
  simp

theorem list4 {e : List UInt8} (h : e.length = 4) {a b c d : Nat} (ha : a = etcAt e 0) (hb : b = etcAt e 1)
    (hc : c = etcAt e 2) (hd : d = etcAt e 3) :
    [UInt8.ofNat a, UInt8.ofNat b, UInt8.ofNat c, UInt8.ofNat d] = e := by
  rw [byte_eq (by omega) ha, byte_eq (by omega) hb, byte_eq (by omega) hc, byte_eq (by omega) hd]
  match e, h with
  | [_, _, _, _], _ => rfl

theorem etcEndpointBytes_two {e : List UInt8} (hl : e.length = 4) (h : Unity.TwoColours e) :
    Unity.etcEndpointBytes (etcFirst e) (etcSecond e) (etcAt e 3 % 2) = e := by
  obtain ⟨h1, h2⟩ := h
  have a0 := etcAt_lt e 0
  have a1 := etcAt_lt e 1
  have a2 := etcAt_lt e 2
  have a3 := etcAt_lt e 3
  unfold Unity.etcEndpointBytes etcFirst etcSecond
  by_cases hm : etcAt e 3 / 2 % 2 = 1
  · obtain ⟨s0, s1, s2⟩ := h1 hm
    obtain ⟨n0, b0⟩ := sum_near a0 s0
    obtain ⟨n1, b1⟩ := sum_near a1 s1
    obtain ⟨n2, b2⟩ := sum_near a2 s2
    simp only [hm, if_true, n0, n1, n2, Bool.and_self]
    exact list4 hl b0 b1 b2 (by omega)
  · have hm' : etcAt e 3 / 2 % 2 = 0 := by omega
    have hn : (Unity.near (halfHigh (etcAt e 0)) (halfLow (etcAt e 0)) &&
        Unity.near (halfHigh (etcAt e 1)) (halfLow (etcAt e 1)) &&
        Unity.near (halfHigh (etcAt e 2)) (halfLow (etcAt e 2))) = false := by
      rcases h2 hm' with h | h | h
      · simp [apart_near (c := etcAt e 0) h]
      · simp [apart_near (c := etcAt e 1) h]
      · simp [apart_near (c := etcAt e 2) h]
    simp only [hm, if_false, hn, Bool.false_eq_true]
    exact list4 hl (half_bytes _) (half_bytes _) (half_bytes _) (by omega)

theorem etcEndpointBytes_one {e : List UInt8} (hl : e.length = 4) (h : Unity.OneColour e) :
    Unity.etcEndpointBytes (etcFirst e) (etcFirst e) 0 = e := by
  obtain ⟨h0, h1, h2, h3, h4⟩ := h
  change etcAt e 0 % 8 = 0 at h0
  change etcAt e 1 % 8 = 0 at h1
  change etcAt e 2 % 8 = 0 at h2
  change etcAt e 3 % 4 = 2 at h3
  change etcAt e 3 / 32 = etcAt e 3 / 4 % 8 at h4
  have a3 := etcAt_lt e 3
  have hn : ∀ a, Unity.near a a = true := by intro a; simp [Unity.near]
  unfold Unity.etcEndpointBytes etcFirst
  simp only [show etcAt e 3 / 2 % 2 = 1 by omega, if_true, hn, Bool.and_self]
  exact list4 hl (by omega) (by omega) (by omega) (by omega)

/-! ## Palettes -/

/-- The palette of the base colours of the given halves of blocks. -/
def twoColours (E : List (List UInt8)) : List Unity.EtcColour := E.flatMap fun e => [etcFirst e, etcSecond e]

/-- The palette of the given selectors for both directions of the halves. -/
def bothWays (S : List (List Nat)) : List (List Nat) := S.flatMap fun s => [s, Unity.transpose s]

theorem length_pairs {α β : Type} (f g : α → β) (l : List α) : (l.flatMap fun e => [f e, g e]).length = 2 * l.length := by
  induction l with
  | nil => rfl
  | cons a l ih => simp only [List.flatMap_cons, List.length_append, ih, List.length_cons, List.length_nil]; omega

theorem twoColours_ok {E : List (List UInt8)} : ∀ e ∈ twoColours E, EtcOk e := by
  intro e he
  obtain ⟨a, _, ha⟩ := List.mem_flatMap.mp he
  rcases List.mem_cons.mp ha with rfl | ha
  · exact etcFirst_ok _
  · obtain rfl := List.mem_singleton.mp ha
    exact etcSecond_ok _

theorem bothWays_ok {k : Nat} {S : List (List Nat)} (h : ∀ s ∈ S, SelOk k s) : ∀ s ∈ bothWays S, SelOk k s := by
  intro e he
  obtain ⟨a, hm, ha⟩ := List.mem_flatMap.mp he
  rcases List.mem_cons.mp ha with rfl | ha
  · exact h _ hm
  · obtain rfl := List.mem_singleton.mp ha
    exact transpose_ok (h _ hm)

/-- The selectors for a block with direction `flip`. -/
def turned (flip : Nat) (s : List Nat) : List Nat := if flip = 0 then s else Unity.transpose s

theorem turned_mem {flip : Nat} {s : List Nat} {S : List (List Nat)} (h : s ∈ S) : turned flip s ∈ bothWays S := by
  refine List.mem_flatMap.mpr ⟨s, h, ?_⟩
  unfold turned
  split <;> simp

theorem turned_turned {flip : Nat} {s : List Nat} (h : s.length = 16) :
    (if flip = 0 then turned flip s else Unity.transpose (turned flip s)) = s := by
  unfold turned
  split
  · rfl
  · exact transpose_transpose h

/-- The parts of a block with the halves `e`, `s` of its colours and `a`, `t` of its alpha values. -/
def partsOf (e s a t : List UInt8) : EtcParts where
  c0 := etcFirst e
  c1 := etcSecond e
  flip := etcAt e 3 % 2
  sel := turned (etcAt e 3 % 2) (etcSels s)
  alpha := a
  asel := turned (etcAt e 3 % 2) (eacSels t)

theorem partsOf_colour {e s a t : List UInt8} (he : e.length = 4) (h : Unity.TwoColours e) (hs : s.length = 4) :
    (partsOf e s a t).colourBytes = e ++ s := by
  obtain ⟨k1, k2⟩ := etcSels_spec hs
  have := turned_turned (flip := etcAt e 3 % 2) k1.1
  show Unity.etcEndpointBytes (etcFirst e) (etcSecond e) (etcAt e 3 % 2) ++ Unity.etcSelectorBytes
    (if etcAt e 3 % 2 = 0 then turned (etcAt e 3 % 2) (etcSels s)
      else Unity.transpose (turned (etcAt e 3 % 2) (etcSels s))) = _
  rw [this, etcEndpointBytes_two he h, k2]

theorem partsOf_alpha {e s a t : List UInt8} (ht : t.length = 6) : (partsOf e s a t).alphaBytes = a ++ t := by
  obtain ⟨k1, k2⟩ := eacSels_spec ht
  have := turned_turned (flip := etcAt e 3 % 2) k1.1
  show a ++ Unity.eacSelectorBytes
    (if etcAt e 3 % 2 = 0 then turned (etcAt e 3 % 2) (eacSels t)
      else Unity.transpose (turned (etcAt e 3 % 2) (eacSels t))) = _
  rw [this, k2]

end Verif.Proofs.Crn.Enc
