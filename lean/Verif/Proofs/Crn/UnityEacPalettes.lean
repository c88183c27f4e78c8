import Verif.Proofs.Crn.UnityEtcPalettes
import Verif.Proofs.Crn.File

/-!
# Unity's variant of Crunch: the alpha selectors of the ETC formats
-/

namespace Verif.Proofs.Crn.Unity

open Verif Verif.Model Verif.Model.Crn Verif.Model.Crn.Unity Verif.Spec.Crn Verif.Spec.Crn.Unity

variable [Build]

/-! ## The bytes of a buffer of words -/

/-- Byte `j` of a list of words of 16 bits. -/
def byteAt (buf : List Nat) (j : Nat) : Nat :=
  if j % 2 = 0 then buf.getD (j / 2) 0 % 256 else buf.getD (j / 2) 0 / 256

omit [Build] in
theorem getD_set_eq {l : List Nat} {i j v : Nat} (hi : i < l.length) :
    (l.set i v).getD j 0 = if j = i then v else l.getD j 0 := by
  rw [List.getD_eq_getElem?_getD, List.getElem?_set, List.getD_eq_getElem?_getD]
  by_cases h : j = i
  · subst h; simp [hi]
  · rw [if_neg (by omega), if_neg h]

omit [Build] in
theorem orByte_ok {buf : List Nat} (hlt : ∀ v ∈ buf, v < 65536) {i val : Nat}
    (hi : i < 2 * buf.length) (hv : val < 256) :
    ∃ buf', orByte buf i val = .ok buf' ∧ buf'.length = buf.length ∧ (∀ v ∈ buf', v < 65536) ∧
      ∀ j, byteAt buf' j = if j = i then byteAt buf j ||| val else byteAt buf j := by
  have hi2 : i / 2 < buf.length := by omega
  have hg : buf[i >>> 1]? = some (buf.getD (i / 2) 0) := by
    rw [shr_eq, show (2 : Nat) ^ 1 = 2 from rfl]; exact getElem?_getD hi2
  have hb := hlt _ (getD_mem hi2)
  have hor : ∀ x y, x < 256 → y < 256 → x ||| y < 256 := fun x y hx hy =>
    Nat.or_lt_two_pow (n := 8) hx hy
  have hsh : ∀ hi lo : Nat, lo < 256 → (hi <<< 8) ||| lo = 256 * hi + lo := by
    intro hi lo h
    rw [shl_eq, mul_or _ h, Nat.mul_comm]
  unfold orByte
  rw [idx_of_some hg, Out.ok_bind]
  simp only
  rw [and_1, and_255, shr_eq, shr_eq]
  generalize hx : buf.getD (i / 2) 0 = x at *
  by_cases hp : i % 2 = 1
  · rw [if_neg (by omega), hsh _ _ (Nat.mod_lt _ (by omega)), setIdx_ok hi2]
    refine ⟨_, rfl, by simp, ?_, ?_⟩
    · intro v hv'
      rcases List.mem_or_eq_of_mem_set hv' with h | h
      · exact hlt v h
      · rw [h]
        have := hor (x / 2 ^ 8) val (by omega) hv
        omega
    · intro j
      unfold byteAt
      rw [getD_set_eq hi2]
      by_cases hj : j = i
      · subst hj
        rw [if_neg (by omega), if_pos rfl, if_pos rfl, if_neg (by omega), hx, show (2 : Nat) ^ 8 = 256 from rfl]
        omega
      · rw [if_neg hj]
        by_cases hj2 : j / 2 = i / 2
        · rw [if_pos (by omega), if_pos hj2, if_pos (by omega), hj2, hx]
          omega
        · rw [if_neg hj2]
  · rw [if_pos hp, hsh _ _ (hor _ _ (Nat.mod_lt _ (by omega)) hv), setIdx_ok hi2]
    refine ⟨_, rfl, by simp, ?_, ?_⟩
    · intro v hv'
      rcases List.mem_or_eq_of_mem_set hv' with h | h
      · exact hlt v h
      · rw [h]
        have := hor (x % 256) val (by omega) hv
        omega
    · intro j
      have ho := hor (x % 256) val (by omega) hv
      unfold byteAt
      rw [getD_set_eq hi2]
      by_cases hj : j = i
      · subst hj
        rw [if_pos (by omega), if_pos rfl, if_pos rfl, if_pos (by omega), hx]
        omega
      · rw [if_neg hj]
        by_cases hj2 : j / 2 = i / 2
        · rw [if_neg (by omega), if_pos hj2, if_neg (by omega), hj2, hx]
          omega
        · rw [if_neg hj2]

/-- Byte `k` of the six bytes of `n`, the highest one first. -/
def byte6 (n k : Nat) : Nat := n / 2 ^ (8 * (5 - k)) % 256

/-- The buffer holds the given numbers in six bytes each, and one word of zero. -/
structure Filled (buf ns : List Nat) : Prop where
  len : buf.length = 3 * ns.length + 1
  lt : ∀ v ∈ buf, v < 65536
  get : ∀ j, byteAt buf j = byte6 (ns.getD (j / 6) 0) (j % 6)

omit [Build] in
theorem byte6_or (a b k : Nat) : byte6 (a ||| b) k = byte6 a k ||| byte6 b k := by
  unfold byte6
  rw [Nat.or_div_two_pow, show (256 : Nat) = 2 ^ 8 from rfl, Nat.or_mod_two_pow]

omit [Build] in
theorem byte6_zero (k : Nat) : byte6 0 k = 0 := by unfold byte6; simp

omit [Build] in
/-- What the two bytes of `orBits` add. -/
theorem orBits_bytes {d s k : Nat} (hd : 3 ≤ d) (hd' : d ≤ 48) (hs : s < 8) (hk : k < 6) :
    (if k = d / 8 then (s <<< (8 - d % 8)) &&& 0xff else 0) |||
      (if d % 8 < 3 ∧ k = d / 8 - 1 then s >>> (d % 8) else 0) = byte6 (s <<< (48 - d)) k := by
  have key : ∀ (d : Fin 46) (s : Fin 8) (k : Fin 6),
      (if k.val = (d.val + 3) / 8 then (s.val <<< (8 - (d.val + 3) % 8)) &&& 0xff else 0) |||
      (if (d.val + 3) % 8 < 3 ∧ k.val = (d.val + 3) / 8 - 1 then s.val >>> ((d.val + 3) % 8) else 0)
        = byte6 (s.val <<< (48 - (d.val + 3))) k.val := by decide +kernel
  have := key ⟨d - 3, by omega⟩ ⟨s, hs⟩ ⟨k, hk⟩
  simp only [Nat.sub_add_cancel hd] at this
  exact this

theorem orBits_ok {buf ns : List Nat} (h : Filled buf ns) {e d s : Nat} (he : e < ns.length)
    (hd : 3 ≤ d) (hd' : d ≤ 48) (hs : s < 8) (hbig : ns.length < 2 ^ 32) :
    ∃ buf', orBits buf (6 * e) d s = .ok buf' ∧
      Filled buf' (ns.set e (ns.getD e 0 ||| s <<< (48 - d))) := by
  have hlen := h.len
  have hv1 : (s <<< (8 - d % 8)) &&& 0xff < 256 := by rw [and_255]; exact Nat.mod_lt _ (by omega)
  have hv2 : s >>> (d % 8) < 256 := by
    rw [shr_eq]; exact Nat.lt_of_le_of_lt (Nat.div_le_self _ _) (by omega)
  obtain ⟨buf1, e1, l1, t1, g1⟩ := orByte_ok h.lt (i := 6 * e + d / 8) (by omega) hv1
  have hfin : ∀ buf', buf'.length = buf.length → (∀ v ∈ buf', v < 65536) →
      (∀ j, byteAt buf' j = if d % 8 < 3 ∧ j = 6 * e + d / 8 - 1 then byteAt buf1 j ||| s >>> (d % 8)
        else byteAt buf1 j) → Filled buf' (ns.set e (ns.getD e 0 ||| s <<< (48 - d))) := by
    intro buf' hl' ht' hg'
    refine ⟨by rw [hl', List.length_set, hlen], ht', fun j => ?_⟩
    rw [hg', g1, h.get, getD_set_eq he]
    by_cases hj : j / 6 = e
    · rw [if_pos hj, hj, byte6_or, ← orBits_bytes hd hd' hs (show j % 6 < 6 from Nat.mod_lt _ (by omega))]
      by_cases c1 : j % 6 = d / 8
      · rw [if_pos c1, if_neg (by omega), if_pos (by omega), if_neg (by omega), Nat.or_zero]
      · rw [if_neg c1, Nat.zero_or]
        by_cases c2 : d % 8 < 3 ∧ j % 6 = d / 8 - 1
        · rw [if_pos c2, if_pos (by omega), if_neg (by omega)]
        · rw [if_neg c2, if_neg (by omega), if_neg (by omega), Nat.or_zero]
    · rw [if_neg hj, if_neg (by omega)]
      by_cases c1 : j = 6 * e + d / 8
      · -- only the zero bits of `d = 48` are outside
        have : d = 48 := by omega
        subst this
        have key : ∀ s : Fin 8, (s.val <<< (8 - 48 % 8)) &&& 0xff = 0 := by decide
        rw [if_pos c1, key ⟨s, hs⟩, Nat.or_zero]
      · rw [if_neg c1]
  unfold orBits
  simp only
  rw [shr_eq, show (2 : Nat) ^ 3 = 8 from rfl, and_7, addU_ok (by omega), Out.ok_bind, e1, Out.ok_bind]
  by_cases hb : d % 8 < 3
  · rw [if_pos hb, Out.ok_bind, subU_ok (by omega), Out.ok_bind]
    obtain ⟨buf2, e2, l2, t2, g2⟩ := orByte_ok t1 (i := 6 * e + d / 8 - 1) (by omega) hv2
    refine ⟨buf2, e2, hfin buf2 (by omega) t2 fun j => ?_⟩
    rw [g2]
    by_cases hj : j = 6 * e + d / 8 - 1
    · rw [if_pos hj, if_pos ⟨hb, hj⟩]
    · rw [if_neg hj, if_neg (fun hc => hj hc.2)]
  · rw [if_neg hb]
    refine ⟨buf1, rfl, hfin buf1 l1 t1 fun j => ?_⟩
    rw [if_neg (fun hc => hb hc.1)]

/-! ## The numbers -/

/-- The number of the first `n` texels; texel `q` is at place `π q`. -/
def eacSum (l : List Nat) (π : Nat → Nat) (n : Nat) : Nat :=
  (List.range n).foldl (fun x q => x ||| eacOrder.getD (l.getD q 0) 0 <<< (48 - 3 * (π q + 1))) 0

/-- The number of the selectors in an EAC block. -/
def eacNumber (l : List Nat) : Nat := l.foldl (fun n v => 8 * n + eacOrder.getD v 0) 0

omit [Build] in
theorem eacOrder_lt {v : Nat} (h : v < 8) : eacOrder.getD v 0 < 8 := by
  have key : ∀ v : Fin 8, eacOrder.getD v.val 0 < 8 := by decide
  exact key ⟨v, h⟩

omit [Build] in
theorem eacNumber_num (l : List Nat) :
    eacNumber l = num 3 (l.map fun v => eacOrder.getD v 0).reverse := by
  unfold eacNumber num
  rw [List.foldr_reverse, List.foldl_map]
  congr 1
  funext n v
  omega

omit [Build] in
theorem eacNumber_lt {l : List Nat} (hl : l.length = 16) (hlt : ∀ v ∈ l, v < 8) :
    eacNumber l < 2 ^ 48 := by
  rw [eacNumber_num]
  have := num_lt (j := 3) (l := (l.map fun v => eacOrder.getD v 0).reverse) (by
    intro v hv
    obtain ⟨w, hw, rfl⟩ := List.mem_map.mp (List.mem_reverse.mp hv)
    exact eacOrder_lt (hlt w hw))
  simpa [hl] using this

omit [Build] in
theorem shl3_testBit {s m i b : Nat} (hs : s < 8) (hb : b < 3) :
    (s <<< (3 * m)).testBit (3 * i + b) = (decide (m = i) && s.testBit b) := by
  rw [Nat.testBit_shiftLeft]
  by_cases h : m = i
  · subst h
    rw [decide_eq_true (show 3 * m + b ≥ 3 * m by omega), decide_eq_true rfl, Nat.add_sub_cancel_left]
  · rw [decide_eq_false h, Bool.false_and]
    by_cases h1 : m < i
    · rw [Nat.testBit_lt_two_pow (x := s), Bool.and_false]
      have : (2 : Nat) ^ 3 ≤ 2 ^ (3 * i + b - 3 * m) := Nat.pow_le_pow_right (by omega) (by omega)
      omega
    · rw [decide_eq_false (by omega), Bool.false_and]

omit [Build] in
theorem eacSum_ok {l l' : List Nat} {π : Nat → Nat} (hl : l'.length = 16) (hlt : ∀ v ∈ l, v < 8)
    (hπ : ∀ i, i < 16 → π i < 16 ∧ π (π i) = i)
    (hg : ∀ i, i < 16 → l'.getD i 0 = l.getD (π i) 0) : eacSum l π 16 = eacNumber l' := by
  have hlt' : ∀ v ∈ l', v < 8 := by
    intro v hv
    obtain ⟨i, hi, rfl⟩ := List.getElem_of_mem hv
    have := hg i (by omega)
    rw [List.getD_eq_getElem?_getD, List.getElem?_eq_getElem hi] at this
    rw [show l'[i] = l.getD (π i) 0 from this]
    exact getD_lt (by omega) hlt
  have key : ∀ (n : Nat) (p : Nat), (eacSum l π n).testBit p
      = (List.range n).any fun q =>
        (eacOrder.getD (l.getD q 0) 0 <<< (48 - 3 * (π q + 1))).testBit p := by
    intro n p
    unfold eacSum
    induction n with
    | zero => simp
    | succ n ih => rw [List.range_succ, List.foldl_append, List.any_append, ← ih]; simp
  have hrev : ∀ v ∈ (l'.map fun v => eacOrder.getD v 0).reverse, v < 2 ^ 3 := by
    intro v hv
    obtain ⟨w, hw, rfl⟩ := List.mem_map.mp (List.mem_reverse.mp hv)
    exact eacOrder_lt (hlt' w hw)
  apply Nat.eq_of_testBit_eq
  intro p
  obtain ⟨i, b, hb, rfl⟩ : ∃ i b, b < 3 ∧ p = 3 * i + b := ⟨p / 3, p % 3, by omega, by omega⟩
  rw [eacNumber_num, num_testBit (j := 3) hrev hb, key]
  have hterm : ∀ q, q < 16 → (eacOrder.getD (l.getD q 0) 0 <<< (48 - 3 * (π q + 1))).testBit (3 * i + b)
      = (decide (15 - π q = i) && (eacOrder.getD (l.getD q 0) 0).testBit b) := by
    intro q hq
    have := (hπ q hq).1
    rw [show 48 - 3 * (π q + 1) = 3 * (15 - π q) by omega]
    exact shl3_testBit (eacOrder_lt (getD_lt (by omega) hlt)) hb
  by_cases hi : i < 16
  · have hget : ((l'.map fun v => eacOrder.getD v 0).reverse).getD i 0
        = eacOrder.getD (l.getD (π (15 - i)) 0) 0 := by
      rw [List.getD_eq_getElem?_getD, List.getElem?_reverse (by simpa [hl] using hi), List.length_map,
        hl, List.getElem?_map, List.getElem?_eq_getElem (by omega)]
      have := hg (15 - i) (by omega)
      rw [List.getD_eq_getElem?_getD, List.getElem?_eq_getElem (by omega)] at this
      rw [← this]
      simp
    rw [hget]
    have h1 := hπ (15 - i) (by omega)
    cases hv : (eacOrder.getD (l.getD (π (15 - i)) 0) 0).testBit b with
    | true =>
      rw [List.any_eq_true]
      refine ⟨π (15 - i), List.mem_range.mpr h1.1, ?_⟩
      rw [hterm _ h1.1, h1.2, hv, decide_eq_true (by omega)]
      rfl
    | false =>
      rw [List.any_eq_false]
      intro q hq
      have hq := List.mem_range.mp hq
      rw [hterm _ hq]
      by_cases hc : 15 - π q = i
      · have h2 := hπ q hq
        rw [show q = π (15 - i) by rw [show 15 - i = π q by omega]; exact h2.2.symm, hv, Bool.and_false]
        simp
      · rw [decide_eq_false hc]; simp
  · rw [List.getD_eq_getElem?_getD, List.getElem?_eq_none (by simp [hl]; omega)]
    rw [show (none : Option Nat).getD 0 = 0 from rfl, Nat.zero_testBit, List.any_eq_false]
    intro q hq
    rw [hterm _ (List.mem_range.mp hq), decide_eq_false (by omega)]
    simp

/-- The six bytes of a number, the highest one first, as a number with the lowest byte first. -/
def swap6 (n : Nat) : Nat := num 8 ((List.range 6).map (byte6 n))

omit [Build] in
theorem leBytes_num {l : List Nat} (h : ∀ v ∈ l, v < 256) :
    leBytes l.length (num 8 l) = l.map UInt8.ofNat := by
  induction l with
  | nil => rfl
  | cons v l ih =>
    have h1 := ih (fun x hx => h x (List.mem_cons_of_mem _ hx))
    have e := leBytes_append (m := 1) (n := l.length) (x := v) (y := num 8 l)
      (by have := h v (by simp); omega)
    rw [num_cons, List.length_cons, Nat.add_comm l.length, show (2 : Nat) ^ 8 = 256 ^ 1 from rfl, ← e, h1]
    simp [leBytes]

omit [Build] in
theorem swap6_bytes {n : Nat} (h : n < 2 ^ 48) : leBytes 6 (swap6 n) = beBytes 6 n ∧ swap6 n < 2 ^ 48 := by
  have hd : n = num 8 ((List.range 6).map (byte6 n)).reverse := by
    simp only [num, byte6, List.range, List.range.loop, List.map_cons, List.map_nil, List.reverse_cons,
      List.reverse_nil, List.nil_append, List.cons_append, List.foldr_cons, List.foldr_nil]
    omega
  have hb : ∀ v ∈ (List.range 6).map (byte6 n), v < 256 := by
    intro v hv
    obtain ⟨k, _, rfl⟩ := List.mem_map.mp hv
    exact Nat.mod_lt _ (by omega)
  have e1 := leBytes_num hb
  have e2 := leBytes_num (l := ((List.range 6).map (byte6 n)).reverse) (by
    intro v hv; exact hb v (List.mem_reverse.mp hv))
  rw [← hd] at e2
  simp only [List.length_map, List.length_range, List.length_reverse] at e1 e2
  refine ⟨?_, ?_⟩
  · unfold swap6 beBytes
    rw [e1, e2, List.map_reverse, List.reverse_reverse]
  · have := num_lt (j := 8) hb
    simpa [swap6] using this

omit [Build] in
theorem byteAt_word {buf : List Nat} (m : Nat) :
    buf.getD m 0 = byteAt buf (2 * m) + 256 * byteAt buf (2 * m + 1) := by
  unfold byteAt
  rw [if_pos (by omega), if_neg (by omega), show 2 * m / 2 = m by omega, show (2 * m + 1) / 2 = m by omega]
  omega

omit [Build] in
theorem Filled.words3 {buf ns : List Nat} (h : Filled buf ns) (hlt : ∀ n ∈ ns, n < 2 ^ 48) :
    Words3 buf (ns.map swap6) := by
  refine ⟨fun p hp => ?_, ?_⟩
  · rw [List.length_map] at hp
    have hlen := h.len
    rw [map_getD swap6 ns p 0 0 hp]
    have hw : ∀ i, i < 3 → (buf.drop (3 * p))[i]? = some (byte6 (ns.getD p 0) (2 * i)
        + 256 * byte6 (ns.getD p 0) (2 * i + 1)) := by
      intro i hi
      rw [List.getElem?_drop, getElem?_getD (by omega), byteAt_word, h.get, h.get,
        show 2 * (3 * p + i) / 6 = p by omega, show (2 * (3 * p + i) + 1) / 6 = p by omega,
        show 2 * (3 * p + i) % 6 = 2 * i by omega, show (2 * (3 * p + i) + 1) % 6 = 2 * i + 1 by omega]
    have hb : ∀ k, byte6 (ns.getD p 0) k < 256 := fun k => Nat.mod_lt _ (by omega)
    have hs : swap6 (ns.getD p 0) = byte6 (ns.getD p 0) 0 + 2 ^ 8 * (byte6 (ns.getD p 0) 1
        + 2 ^ 8 * (byte6 (ns.getD p 0) 2 + 2 ^ 8 * (byte6 (ns.getD p 0) 3
        + 2 ^ 8 * (byte6 (ns.getD p 0) 4 + 2 ^ 8 * (byte6 (ns.getD p 0) 5 + 2 ^ 8 * 0))))) := rfl
    have h0 := hb 0
    have h1 := hb 1
    have h2 := hb 2
    have h3 := hb 3
    have h4 := hb 4
    have h5 := hb 5
    generalize swap6 (ns.getD p 0) = v at *
    generalize hw0 : byte6 (ns.getD p 0) = b at *
    refine ⟨by omega, ?_, ?_, ?_⟩
    · rw [hw 0 (by omega), hs]
      exact congrArg some (by simp only [Nat.reduceMul, Nat.reduceAdd, Nat.zero_add]; omega)
    · rw [hw 1 (by omega), hs]
      exact congrArg some (by simp only [Nat.reduceMul, Nat.reduceAdd, Nat.zero_add]; omega)
    · rw [hw 2 (by omega), hs]
      exact congrArg some (by simp only [Nat.reduceMul, Nat.reduceAdd, Nat.zero_add]; omega)
  · intro v hv
    obtain ⟨n, hn, rfl⟩ := List.mem_map.mp hv
    exact (swap6_bytes (hlt n hn)).2

/-! ## The selectors of an entry -/

/-- Two selectors as they are in the state of the loop. -/
def pair (l : List Nat) (i : Nat) : Nat := l.getD (2 * i) 0 + 8 * l.getD (2 * i + 1) 0

/-- The state after `p` of the selectors have become those of `l'`. -/
def pairs (l l' : List Nat) (p : Nat) : List Nat :=
  (List.range 8).map fun i => if 2 * i < p then pair l' i else pair l i

omit [Build] in
theorem pairs_sixteen (l l' l'' : List Nat) : pairs l l' 16 = pairs l' l'' 0 := by
  unfold pairs
  exact map_range_ext fun i hi => by rw [if_pos (by omega), if_neg (by omega)]

theorem etcAlphaSelector_ok {buf : List UInt8} {last : Nat} {code : List Nat} {dm : DataModel}
    (hm : TablesOk code dm) {l l' : List Nat} {bs : Nat → List Bool} {c : Codec}
    (hx : XorSteps code 3 8 l l' bs) {p : Nat} (hp : p < 16) {group : Nat}
    (hg : p % 2 = 1 → group = pair l' (p / 2)) (hc : At buf last c (bs ((p + 1) / 2))) :
    ∃ group' c', etcAlphaSelector dm p (pairs l l' p) group c
        = .ok (eacOrder.getD (l'.getD p 0) 0, pairs l l' (p + 1), group', c') ∧
      ((p + 1) % 2 = 1 → group' = pair l' ((p + 1) / 2)) ∧ At buf last c' (bs ((p + 2) / 2)) := by
  have h2 := hx.len'
  have ha : l'.getD (2 * (p / 2)) 0 < 8 := getD_lt (by omega) hx.lt'
  have hb : l'.getD (2 * (p / 2) + 1) 0 < 8 := getD_lt (by omega) hx.lt'
  have hcode : ∀ s, s < 8 → (if s ≤ 3 then 3 - s else s) = eacOrder.getD s 0 := by
    intro s hs
    have key : ∀ s : Fin 8, (if s.val ≤ 3 then 3 - s.val else s.val) = eacOrder.getD s.val 0 := by decide
    exact key ⟨s, hs⟩
  unfold etcAlphaSelector
  rw [and_1]
  by_cases hodd : p % 2 = 1
  · rw [if_pos hodd, Res.pure_eq, Res.ok_bind]
    simp only
    refine ⟨group >>> 3, c, ?_, fun h => by omega, by rw [show (p + 2) / 2 = (p + 1) / 2 by omega]; exact hc⟩
    rw [hg hodd, shr_eq, and_7]
    have : pair l' (p / 2) / 2 ^ 3 % 8 = l'.getD p 0 := by
      unfold pair
      rw [show p = 2 * (p / 2) + 1 by omega, show (2 * (p / 2) + 1) / 2 = p / 2 by omega]
      omega
    rw [this, hcode _ (getD_lt (by omega) hx.lt')]
    have : pairs l l' p = pairs l l' (p + 1) := map_range_ext fun i hi => by
      by_cases h : 2 * i < p
      · rw [if_pos h, if_pos (by omega)]
      · rw [if_neg h, if_neg (by omega)]
    rw [this]
    rfl
  · rw [if_neg hodd]
    obtain ⟨d, d1, d2, d3, d4⟩ := hx.step (p / 2) (by omega)
    rw [show (p + 1) / 2 = p / 2 by omega] at hc
    obtain ⟨k1, e1, hk1, _, _⟩ := at_symbol hm d2 hc
    have hd : asU 8 d = d := Nat.mod_eq_of_lt (by omega)
    have hx' : pair l (p / 2) ^^^ d = pair l' (p / 2) := by
      have q1 : l.getD (2 * (p / 2)) 0 < 8 := getD_lt (by have := hx.len; omega) hx.lt
      have q2 : l.getD (2 * (p / 2) + 1) 0 < 8 := getD_lt (by have := hx.len; omega) hx.lt
      unfold pair
      rw [d3, d4]
      generalize l.getD (2 * (p / 2)) 0 = x at *
      generalize l.getD (2 * (p / 2) + 1) 0 = y at *
      have key : ∀ (x y : Fin 8) (d : Fin 64), (x.val + 8 * y.val) ^^^ d.val
          = (x.val ^^^ d.val % 8) + 8 * (y.val ^^^ d.val / 8) := by decide +kernel
      exact key ⟨x, q1⟩ ⟨y, q2⟩ ⟨d, by omega⟩
    have hset : (pairs l l' p).set (p / 2) (pair l' (p / 2)) = pairs l l' (p + 1) := by
      unfold pairs
      refine map_range_set (by rw [if_pos (by omega)]) fun j hj hne => ?_
      by_cases h : 2 * j < p
      · rw [if_pos h, if_pos (by omega)]
      · rw [if_neg h, if_neg (by omega)]
    have hget : (pairs l l' p)[p / 2]? = some (pair l (p / 2)) := by
      unfold pairs
      rw [map_range_get _ (by omega), if_neg (by omega)]
    have hlen : p / 2 < (pairs l l' p).length := by simp [pairs]; omega
    rw [e1, Res.ok_bind]
    simp only
    rw [shr_eq, show (2 : Nat) ^ 1 = 2 from rfl, idx_of_some hget, Res.lift_ok, Res.ok_bind, hd, hx',
      setIdx_ok hlen, Res.lift_ok, Res.ok_bind, hset, Res.pure_eq, Res.ok_bind]
    simp only
    refine ⟨pair l' (p / 2), k1, ?_, fun _ => by rw [show (p + 1) / 2 = p / 2 by omega],
      by rw [show (p + 2) / 2 = p / 2 + 1 by omega]; exact hk1⟩
    have : pair l' (p / 2) % 8 = l'.getD p 0 := by
      unfold pair
      rw [show 2 * (p / 2) = p by omega] at *
      omega
    rw [and_7, this, hcode _ (getD_lt (by omega) hx.lt')]
    rfl

/-- The place of texel `q` of the other order. -/
def flipPlace (q : Nat) : Nat := q % 4 * 4 + q / 4

omit [Build] in
theorem flipPlace_ok : ∀ i, i < 16 → flipPlace i < 16 ∧ flipPlace (flipPlace i) = i := by
  intro i hi
  have key : ∀ i : Fin 16, flipPlace i.val < 16 ∧ flipPlace (flipPlace i.val) = i.val := by decide
  exact key ⟨i, hi⟩

omit [Build] in
theorem place_shift {p : Nat} (hp : p < 16) :
    3 * (p + 1) + 9 * (p &&& 3) - 9 * (p >>> 2) = 3 * (flipPlace p + 1) := by
  have key : ∀ p : Fin 16, 3 * (p.val + 1) + 9 * (p.val &&& 3) - 9 * (p.val >>> 2)
      = 3 * (flipPlace p.val + 1) := by decide
  exact key ⟨p, hp⟩

omit [Build] in
theorem eacSum_succ (l : List Nat) (π : Nat → Nat) (n : Nat) : eacSum l π (n + 1)
    = eacSum l π n ||| eacOrder.getD (l.getD n 0) 0 <<< (48 - 3 * (π n + 1)) := by
  unfold eacSum
  rw [List.range_succ, List.foldl_append]
  rfl

omit [Build] in
theorem eacSum_transpose {l : List Nat} (hlt : ∀ v ∈ l, v < 8) :
    eacSum l flipPlace 16 = eacNumber (transpose l) :=
  eacSum_ok (transpose_length l) hlt flipPlace_ok fun i hi => by
    rw [transpose_getD hi]
    rfl

omit [Build] in
theorem eacSum_id {l : List Nat} (hl : l.length = 16) (hlt : ∀ v ∈ l, v < 8) :
    eacSum l id 16 = eacNumber l :=
  eacSum_ok hl hlt (fun i hi => ⟨hi, rfl⟩) fun _ _ => rfl

theorem etcsAlphaEntry_ok {buf : List UInt8} {last : Nat} {code : List Nat} {dm : DataModel}
    (hm : TablesOk code dm) {l l' : List Nat} {bs : Nat → List Bool} {c : Codec}
    (hx : XorSteps code 3 8 l l' bs) (hc : At buf last c (bs 0)) {W ns : List Nat} (hW : Filled W ns)
    {e : Nat} (he : e < ns.length) (hz : ns.getD e 0 = 0) (hbig : ns.length < 2 ^ 32) :
    ∃ W' c', etcsAlphaEntry dm (6 * e) (pairs l l' 0) W c = .ok (pairs l l' 16, W', c') ∧
      Filled W' (ns.set e (eacNumber (transpose l'))) ∧ At buf last c' (bs 8) := by
  unfold etcsAlphaEntry
  have hlen' := hx.len'
  obtain ⟨st, est, g, W', c', rfl, hF, _, hc'⟩ := Res.forRange_inv (n := 16)
    (s := (pairs l l' 0, 0, W, c))
    (f := fun p (st : List Nat × Nat × List Nat × Codec) => do
      let (lin, group, buf, k) := st
      let (s, lin, group, k) ← etcAlphaSelector dm p lin group k
      let buf ← orBits buf (6 * e) (3 * (p + 1) + 9 * (p &&& 3) - 9 * (p >>> 2)) s
      pure (lin, group, buf, k))
    (fun p st => ∃ g W' c', st = (pairs l l' p, g, W', c') ∧
      Filled W' (ns.set e (eacSum l' flipPlace p)) ∧ (p % 2 = 1 → g = pair l' (p / 2)) ∧
      At buf last c' (bs ((p + 1) / 2)))
    ⟨0, W, c, rfl, by
      rw [show eacSum l' flipPlace 0 = ns.getD e 0 by rw [hz]; rfl]
      rw [show ns.set e (ns.getD e 0) = ns by
        apply List.ext_getElem? 
        intro i
        rw [List.getElem?_set]
        by_cases h : e = i
        · subst h; rw [if_pos rfl, if_pos he, getElem?_getD he]
        · rw [if_neg h]]
      exact hW, fun h => by omega, by simpa using hc⟩ (by
      rintro p hp _ ⟨g, W1, c1, rfl, hF, hg, hc1⟩
      obtain ⟨g', c2, e2, hg', hc2⟩ := etcAlphaSelector_ok hm hx hp hg hc1
      have hb := (flipPlace_ok p hp).1
      obtain ⟨W2, e3, hF2⟩ := orBits_ok hF (e := e) (d := 3 * (flipPlace p + 1))
        (s := eacOrder.getD (l'.getD p 0) 0) (by simpa using he) (by omega) (by omega)
        (eacOrder_lt (getD_lt (by omega) hx.lt')) (by simpa using hbig)
      rw [getD_set_eq he, if_pos rfl, List.set_set, ← eacSum_succ] at hF2
      refine ⟨_, ?_, g', W2, c2, rfl, hF2, hg', hc2⟩
      simp only [e2, Res.ok_bind]
      rw [place_shift hp, e3]
      rfl)
  refine ⟨W', c', ?_, ?_, hc'⟩
  · rw [est]; rfl
  · rw [← eacSum_transpose hx.lt']
    exact hF

theorem etcAlphaEntry_ok {buf : List UInt8} {last : Nat} {code : List Nat} {dm : DataModel}
    (hm : TablesOk code dm) {l l' : List Nat} {bs : Nat → List Bool} {c : Codec}
    (hx : XorSteps code 3 8 l l' bs) (hc : At buf last c (bs 0)) {W ns : List Nat} (hW : Filled W ns)
    {e : Nat} (he : 2 * e + 1 < ns.length) (hz : ns.getD (2 * e) 0 = 0) (hz1 : ns.getD (2 * e + 1) 0 = 0)
    (hbig : ns.length < 2 ^ 32) :
    ∃ W' c', etcAlphaEntry dm (12 * e) (pairs l l' 0) W c = .ok (pairs l l' 16, W', c') ∧
      Filled W' ((ns.set (2 * e) (eacNumber l')).set (2 * e + 1) (eacNumber (transpose l'))) ∧
      At buf last c' (bs 8) := by
  unfold etcAlphaEntry
  have hlen' := hx.len'
  have hset : ∀ i, i < ns.length → ns.getD i 0 = 0 → ns.set i 0 = ns := by
    intro i hi h0
    apply List.ext_getElem?
    intro j
    rw [List.getElem?_set]
    by_cases h : i = j
    · subst h; rw [if_pos rfl, if_pos hi, getElem?_getD hi, h0]
    · rw [if_neg h]
  obtain ⟨st, est, g, W', c', rfl, hF, _, hc'⟩ := Res.forRange_inv (n := 16)
    (s := (pairs l l' 0, 0, W, c))
    (f := fun p (st : List Nat × Nat × List Nat × Codec) => do
      let (lin, group, buf, k) := st
      let (s, lin, group, k) ← etcAlphaSelector dm p lin group k
      let buf ← orBits buf (12 * e) (3 * (p + 1)) s
      let buf ← orBits buf (12 * e + 6) (3 * (p + 1) + 9 * (p &&& 3) - 9 * (p >>> 2)) s
      pure (lin, group, buf, k))
    (fun p st => ∃ g W' c', st = (pairs l l' p, g, W', c') ∧
      Filled W' ((ns.set (2 * e) (eacSum l' id p)).set (2 * e + 1) (eacSum l' flipPlace p)) ∧
      (p % 2 = 1 → g = pair l' (p / 2)) ∧ At buf last c' (bs ((p + 1) / 2)))
    ⟨0, W, c, rfl, by
      rw [show eacSum l' id 0 = 0 from rfl, show eacSum l' flipPlace 0 = 0 from rfl,
        hset _ (by omega) hz, hset _ he hz1]
      exact hW, fun h => by omega, by simpa using hc⟩ (by
      rintro p hp _ ⟨g, W1, c1, rfl, hF, hg, hc1⟩
      obtain ⟨g', c2, e2, hg', hc2⟩ := etcAlphaSelector_ok hm hx hp hg hc1
      have hb := (flipPlace_ok p hp).1
      have hs : eacOrder.getD (l'.getD p 0) 0 < 8 := eacOrder_lt (getD_lt (by omega) hx.lt')
      obtain ⟨W2, e3, hF2⟩ := orBits_ok hF (e := 2 * e) (d := 3 * (p + 1))
        (s := eacOrder.getD (l'.getD p 0) 0) (by simp; omega) (by omega) (by omega) hs (by simpa using hbig)
      rw [getD_set_eq (by simpa using he), if_neg (by omega), getD_set_eq (by omega), if_pos rfl,
        List.set_comm _ _ (by omega), List.set_set,
        show eacSum l' id p ||| eacOrder.getD (l'.getD p 0) 0 <<< (48 - 3 * (p + 1)) = eacSum l' id (p + 1)
          from (eacSum_succ l' id p).symm] at hF2
      obtain ⟨W3, e4, hF3⟩ := orBits_ok hF2 (e := 2 * e + 1) (d := 3 * (flipPlace p + 1))
        (s := eacOrder.getD (l'.getD p 0) 0) (by simpa using he) (by omega) (by omega) hs (by simpa using hbig)
      rw [getD_set_eq (by simpa using he), if_pos rfl, List.set_set, ← eacSum_succ] at hF3
      rw [show 6 * (2 * e) = 12 * e by omega] at e3
      rw [show 6 * (2 * e + 1) = 12 * e + 6 by omega] at e4
      refine ⟨_, ?_, g', W3, c2, rfl, hF3, hg', hc2⟩
      simp only [e2, Res.ok_bind]
      rw [place_shift hp, e3, Res.lift_ok, Res.ok_bind, e4]
      rfl)
  refine ⟨W', c', ?_, ?_, hc'⟩
  · rw [est]; rfl
  · rw [← eacSum_transpose hx.lt', ← eacSum_id hlen' hx.lt']
    exact hF

omit [Build] in
theorem filled_zero (n : Nat) : Filled (List.replicate (3 * n + 1) 0) (List.replicate n 0) := by
  refine ⟨by simp, fun v hv => by rw [List.eq_of_mem_replicate hv]; omega, fun j => ?_⟩
  have hz : ∀ m i : Nat, (List.replicate m 0).getD i 0 = 0 := by
    intro m i
    rw [List.getD_eq_getElem?_getD, List.getElem?_replicate]
    split <;> rfl
  unfold byteAt
  rw [hz, hz, byte6_zero]
  split <;> rfl

omit [Build] in
theorem getD_append_right' {l r : List Nat} {i : Nat} : (l ++ r).getD (l.length + i) 0 = r.getD i 0 := by
  rw [List.getD_eq_getElem?_getD, List.getElem?_append_right (by omega), Nat.add_sub_cancel_left,
    List.getD_eq_getElem?_getD]

omit [Build] in
theorem two_flatMap_length {α β : Type} (f g : α → β) (l : List α) :
    (l.flatMap fun a => [f a, g a]).length = 2 * l.length := by
  induction l with
  | nil => rfl
  | cons a l ih => simp only [List.flatMap_cons, List.length_append, ih, List.length_cons, List.length_nil]; omega

theorem eacSelectorsOnce_ok {file : List UInt8} {sels : List (List Nat)}
    (h : readSection file (alphaSelectors file).ofs (alphaSelectors file).size
      (selectorEntries 8 (alphaSelectors file).num) = some sels)
    (hin : (alphaSelectors file).ofs + (alphaSelectors file).size < file.length) :
    ∃ A, decodeAlphaSelectorsEtcs file (specHeader file) = .ok A ∧
      Words3 A (sels.map fun l => swap6 (eacNumber (transpose l))) ∧
      sels.length = (alphaSelectors file).num ∧ ∀ l ∈ sels, l.length = 16 ∧ ∀ v ∈ l, v < 8 := by
  have hnum : (alphaSelectors file).num < 2 ^ 16 := palette_num_lt file _
  obtain ⟨bits, rest, hb, h, h0, _⟩ := readSection_some h
  have hl := section_inside h0 hin
  obtain ⟨es, c, ec, hc⟩ := section_start hb
  unfold selectorEntries at h
  obtain ⟨code, b1, h1, h3⟩ := reader_bind.mp h
  obtain ⟨dm, c1, e1, hm, hc1⟩ := receiveModel_ok hl h1 hc
  have hloop := scan_forRange h3 (σ := List Nat × List Nat × Codec)
    (s := (List.replicate 8 0, List.replicate ((alphaSelectors file).num * 3 + 1) 0, c1))
    (f := fun i (st : List Nat × List Nat × Codec) => do
      let (lin, buf, k) := st
      etcsAlphaEntry dm (6 * i) lin buf k)
    (fun pre bits st => ∃ W c, st = (pairs (pre.getLastD (List.replicate 16 0)) [] 0, W, c) ∧
      Filled W ((pre.map fun l => eacNumber (transpose l)) ++ List.replicate (1 * ((alphaSelectors file).num - pre.length)) 0) ∧
      At (file.drop (alphaSelectors file).ofs) ((alphaSelectors file).size - 1) c bits ∧
      ((pre.getLastD (List.replicate 16 0)).length = 16 ∧
      (∀ v ∈ pre.getLastD (List.replicate 16 0), v < 8)) ∧ ∀ l ∈ pre, l.length = 16 ∧ ∀ v ∈ l, v < 8)
    ⟨_, c1, rfl, by
      rw [show (alphaSelectors file).num * 3 + 1 = 3 * (1 * (alphaSelectors file).num) + 1 by omega]
      simpa using filled_zero (1 * (alphaSelectors file).num), hc1, ⟨rfl, by decide⟩, by simp⟩ (by
      rintro pre b bits rest st hp hr ⟨W, k, rfl, hF, hk, ⟨ok1, ok2⟩, hall⟩
      obtain ⟨bs, hx, b0, bn⟩ := xorSelectors_steps (j := 3) 8 ok1 ok2 hr
      obtain ⟨m, hm'⟩ : ∃ m, (alphaSelectors file).num - pre.length = m + 1 := ⟨(alphaSelectors file).num - pre.length - 1, by omega⟩
      rw [hm'] at hF
      have hm2 : (alphaSelectors file).num - (pre ++ [b]).length = m := by rw [List.length_append, List.length_singleton]; omega
      rw [show 1 * (m + 1) = 1 * m + 1 by omega, List.replicate_succ] at hF
      have hpl : (pre.map fun l => eacNumber (transpose l)).length = pre.length := by simp
      have hget := getD_append_right' (l := pre.map fun l => eacNumber (transpose l))
        (r := 0 :: List.replicate (1 * m) 0) (i := 0)
      rw [hpl, Nat.add_zero] at hget
      obtain ⟨W', k1, t1, hF', hk1⟩ := etcsAlphaEntry_ok hm hx (by rw [b0]; exact hk) hF (e := pre.length)
        (by simp) (by rw [hget]; rfl) (by simp; omega)
      have t1' : etcsAlphaEntry dm (6 * pre.length) (pairs (pre.getLastD (List.replicate 16 0)) [] 0) W k
          = _ := t1
      rw [bn] at hk1
      rw [List.set_append_right _ _ (by rw [hpl]; exact Nat.le_refl _), hpl, Nat.sub_self, List.set_cons_zero,
        ← List.singleton_append, ← List.append_assoc,
        show (pre.map fun l => eacNumber (transpose l)) ++ [eacNumber (transpose b)]
          = (pre ++ [b]).map fun l => eacNumber (transpose l) by simp] at hF'
      refine ⟨(pairs b [] 0, W', k1), ?_, W', k1, by simp, ?_, hk1, ⟨by simpa using hx.len', by simpa using hx.lt'⟩, ?_⟩
      · simp only
        rw [t1']
        rw [pairs_sixteen _ b []]
      · rw [hm2]
        exact hF'
      · intro v hv
        rcases List.mem_append.mp hv with hv | hv
        · exact hall v hv
        · rw [List.mem_singleton.mp hv]
          exact ⟨hx.len', hx.lt'⟩)
  obtain ⟨st, est, W, k, rfl, hF, _, _, hlt⟩ := hloop
  have hlen := scan_length h3
  rw [hlen, Nat.sub_self, Nat.mul_zero, List.replicate_zero, List.append_nil] at hF
  have hw := hF.words3 (by
    intro n hn
    obtain ⟨l, hl', rfl⟩ := List.mem_map.mp hn
    exact eacNumber_lt (transpose_length l) (transpose_lt (by omega) (hlt l hl').2))
  refine ⟨W, ?_, ?_, hlen, hlt⟩
  · unfold decodeAlphaSelectorsEtcs
    rw [show (specHeader file).alphaSelectors.ofs = (alphaSelectors file).ofs from rfl,
      show (specHeader file).alphaSelectors.size = (alphaSelectors file).size from rfl,
      show (specHeader file).alphaSelectors.num = (alphaSelectors file).num from rfl]
    rw [es, Res.lift_ok, Res.ok_bind, ec, Res.ok_bind, e1, Res.ok_bind]
    simp only
    rw [est]
    rfl
  · rw [List.map_map] at hw
    exact hw

theorem eacSelectorsTwice_ok {file : List UInt8} {sels : List (List Nat)}
    (h : readSection file (alphaSelectors file).ofs (alphaSelectors file).size
      (selectorEntries 8 (alphaSelectors file).num) = some sels)
    (hin : (alphaSelectors file).ofs + (alphaSelectors file).size < file.length) :
    ∃ A, decodeAlphaSelectorsEtc file (specHeader file) = .ok A ∧
      Words3 A (sels.flatMap fun l => [swap6 (eacNumber l), swap6 (eacNumber (transpose l))]) ∧
      sels.length = (alphaSelectors file).num ∧ ∀ l ∈ sels, l.length = 16 ∧ ∀ v ∈ l, v < 8 := by
  have hnum : (alphaSelectors file).num < 2 ^ 16 := palette_num_lt file _
  obtain ⟨bits, rest, hb, h, h0, _⟩ := readSection_some h
  have hl := section_inside h0 hin
  obtain ⟨es, c, ec, hc⟩ := section_start hb
  unfold selectorEntries at h
  obtain ⟨code, b1, h1, h3⟩ := reader_bind.mp h
  obtain ⟨dm, c1, e1, hm, hc1⟩ := receiveModel_ok hl h1 hc
  have hloop := scan_forRange h3 (σ := List Nat × List Nat × Codec)
    (s := (List.replicate 8 0, List.replicate ((alphaSelectors file).num * 6 + 1) 0, c1))
    (f := fun i (st : List Nat × List Nat × Codec) => do
      let (lin, buf, k) := st
      etcAlphaEntry dm (12 * i) lin buf k)
    (fun pre bits st => ∃ W c, st = (pairs (pre.getLastD (List.replicate 16 0)) [] 0, W, c) ∧
      Filled W ((pre.flatMap fun l => [eacNumber l, eacNumber (transpose l)]) ++ List.replicate (2 * ((alphaSelectors file).num - pre.length)) 0) ∧
      At (file.drop (alphaSelectors file).ofs) ((alphaSelectors file).size - 1) c bits ∧
      ((pre.getLastD (List.replicate 16 0)).length = 16 ∧
      (∀ v ∈ pre.getLastD (List.replicate 16 0), v < 8)) ∧ ∀ l ∈ pre, l.length = 16 ∧ ∀ v ∈ l, v < 8)
    ⟨_, c1, rfl, by
      rw [show (alphaSelectors file).num * 6 + 1 = 3 * (2 * (alphaSelectors file).num) + 1 by omega]
      simpa using filled_zero (2 * (alphaSelectors file).num), hc1, ⟨rfl, by decide⟩, by simp⟩ (by
      rintro pre b bits rest st hp hr ⟨W, k, rfl, hF, hk, ⟨ok1, ok2⟩, hall⟩
      obtain ⟨bs, hx, b0, bn⟩ := xorSelectors_steps (j := 3) 8 ok1 ok2 hr
      obtain ⟨m, hm'⟩ : ∃ m, (alphaSelectors file).num - pre.length = m + 1 := ⟨(alphaSelectors file).num - pre.length - 1, by omega⟩
      rw [hm'] at hF
      have hm2 : (alphaSelectors file).num - (pre ++ [b]).length = m := by rw [List.length_append, List.length_singleton]; omega
      rw [show 2 * (m + 1) = 2 * m + 1 + 1 by omega, List.replicate_succ, List.replicate_succ] at hF
      have hpl : (pre.flatMap fun l => [eacNumber l, eacNumber (transpose l)]).length = 2 * pre.length := by
        exact two_flatMap_length _ _ pre
      have hget := fun i => getD_append_right' (l := pre.flatMap fun l => [eacNumber l, eacNumber (transpose l)])
        (r := 0 :: 0 :: List.replicate (2 * m) 0) (i := i)
      rw [hpl] at hget
      obtain ⟨W', k1, t1, hF', hk1⟩ := etcAlphaEntry_ok hm hx (by rw [b0]; exact hk) hF (e := pre.length)
        (by rw [List.length_append, hpl]; simp) (by have := hget 0; rw [Nat.add_zero] at this; rw [this]; rfl)
        (by rw [hget 1]; rfl)
        (by rw [List.length_append, hpl]; simp; omega)
      have t1' : etcAlphaEntry dm (12 * pre.length) (pairs (pre.getLastD (List.replicate 16 0)) [] 0) W k
          = _ := t1
      rw [bn] at hk1
      rw [List.set_append_right _ _ (by rw [hpl]; exact Nat.le_refl _), hpl, Nat.sub_self, List.set_cons_zero,
        List.set_append_right _ _ (by rw [hpl]; omega), hpl, Nat.add_sub_cancel_left, List.set_cons_succ, List.set_cons_zero,
        show ∀ x y : Nat, ∀ r : List Nat, x :: y :: r = [x, y] ++ r from fun _ _ _ => rfl, ← List.append_assoc,
        show (pre.flatMap fun l => [eacNumber l, eacNumber (transpose l)]) ++ [eacNumber b, eacNumber (transpose b)]
          = (pre ++ [b]).flatMap fun l => [eacNumber l, eacNumber (transpose l)] by simp] at hF'
      refine ⟨(pairs b [] 0, W', k1), ?_, W', k1, by simp, ?_, hk1, ⟨by simpa using hx.len', by simpa using hx.lt'⟩, ?_⟩
      · simp only
        rw [t1']
        rw [pairs_sixteen _ b []]
      · rw [hm2]
        exact hF'
      · intro v hv
        rcases List.mem_append.mp hv with hv | hv
        · exact hall v hv
        · rw [List.mem_singleton.mp hv]
          exact ⟨hx.len', hx.lt'⟩)
  obtain ⟨st, est, W, k, rfl, hF, _, _, hlt⟩ := hloop
  have hlen := scan_length h3
  rw [hlen, Nat.sub_self, Nat.mul_zero, List.replicate_zero, List.append_nil] at hF
  have hw := hF.words3 (by
    intro n hn
    obtain ⟨l, hl', hn⟩ := List.mem_flatMap.mp hn
    obtain ⟨q1, q2⟩ := hlt l hl'
    rcases List.mem_cons.mp hn with rfl | hn
    · exact eacNumber_lt q1 q2
    · rw [List.mem_singleton.mp hn]
      exact eacNumber_lt (transpose_length l) (transpose_lt (by omega) q2))
  refine ⟨W, ?_, ?_, hlen, hlt⟩
  · unfold decodeAlphaSelectorsEtc
    rw [show (specHeader file).alphaSelectors.ofs = (alphaSelectors file).ofs from rfl,
      show (specHeader file).alphaSelectors.size = (alphaSelectors file).size from rfl,
      show (specHeader file).alphaSelectors.num = (alphaSelectors file).num from rfl]
    rw [es, Res.lift_ok, Res.ok_bind, ec, Res.ok_bind, e1, Res.ok_bind]
    simp only
    rw [est]
    rfl
  · simpa [List.map_flatMap] using hw

omit [Build] in
theorem eac_bytes {l : List Nat} (hl : l.length = 16) (hlt : ∀ v ∈ l, v < 8) :
    leBytes 6 (swap6 (eacNumber l)) = eacSelectorBytes l :=
  (swap6_bytes (eacNumber_lt hl hlt)).1

end Verif.Proofs.Crn.Unity
