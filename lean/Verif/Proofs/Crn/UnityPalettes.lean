import Verif.Proofs.Crn.UnityKinds

/-!
# Unity's variant of Crunch: the palettes of the DXT formats
-/

namespace Verif.Proofs.Crn.Unity

open Verif Verif.Model Verif.Model.Crn Verif.Model.Crn.Unity Verif.Spec.Crn Verif.Spec.Crn.Unity

variable [Build]

/-! ## Numbers in base `2 ^ j` -/

/-- The number with the given digits in base `2 ^ j`, the first one lowest. -/
def num (j : Nat) (l : List Nat) : Nat := l.foldr (fun v n => v + 2 ^ j * n) 0

omit [Build] in
theorem num_cons (j v : Nat) (l : List Nat) : num j (v :: l) = v + 2 ^ j * num j l := rfl

omit [Build] in
theorem num_append (j : Nat) (a b : List Nat) :
    num j (a ++ b) = num j a + 2 ^ (j * a.length) * num j b := by
  induction a with
  | nil => simp [num]
  | cons v a ih =>
    rw [List.cons_append, num_cons, ih, num_cons, List.length_cons, Nat.mul_succ, Nat.pow_add,
      Nat.mul_add, Nat.add_assoc, Nat.mul_comm (2 ^ (j * a.length)) (2 ^ j), Nat.mul_assoc]

omit [Build] in
theorem num_lt {j : Nat} {l : List Nat} (h : ∀ v ∈ l, v < 2 ^ j) : num j l < 2 ^ (j * l.length) := by
  induction l with
  | nil => simp [num]
  | cons v l ih =>
    have h1 := ih (fun x hx => h x (List.mem_cons_of_mem _ hx))
    have h2 := h v (by simp)
    rw [num_cons, List.length_cons, Nat.mul_succ, Nat.pow_add, Nat.mul_comm (2 ^ (j * l.length))]
    generalize num j l = x at h1
    generalize 2 ^ (j * l.length) = y at h1
    generalize 2 ^ j = z at h2
    calc v + z * x < z + z * x := by omega
      _ = z * (x + 1) := by rw [Nat.mul_add]; omega
      _ ≤ z * y := Nat.mul_le_mul_left _ h1

omit [Build] in
theorem num_testBit {j : Nat} {l : List Nat} (h : ∀ v ∈ l, v < 2 ^ j) {i b : Nat} (hb : b < j) :
    (num j l).testBit (j * i + b) = (l.getD i 0).testBit b := by
  induction l generalizing i with
  | nil => simp [num]
  | cons v l ih =>
    have h2 := h v (by simp)
    rw [num_cons, Nat.add_comm v, Nat.testBit_two_pow_mul_add _ h2]
    cases i with
    | zero => simp [hb]
    | succ i =>
      rw [if_neg (by rw [Nat.mul_succ]; omega), List.getD_cons_succ,
        ← ih (fun x hx => h x (List.mem_cons_of_mem _ hx)) (i := i)]
      congr 1
      rw [Nat.mul_succ]; omega

omit [Build] in
theorem xor_low {k a b x y : Nat} (ha : a < 2 ^ k) (hb : b < 2 ^ k) :
    (a + 2 ^ k * x) ^^^ (b + 2 ^ k * y) = (a ^^^ b) + 2 ^ k * (x ^^^ y) := by
  have h1 : ((a + 2 ^ k * x) ^^^ (b + 2 ^ k * y)) % 2 ^ k = a ^^^ b := by
    rw [Nat.xor_mod_two_pow, Nat.add_mul_mod_self_left, Nat.add_mul_mod_self_left,
      Nat.mod_eq_of_lt ha, Nat.mod_eq_of_lt hb]
  have h2 : ((a + 2 ^ k * x) ^^^ (b + 2 ^ k * y)) / 2 ^ k = x ^^^ y := by
    rw [Nat.xor_div_two_pow, Nat.add_mul_div_left _ _ (Nat.two_pow_pos k),
      Nat.add_mul_div_left _ _ (Nat.two_pow_pos k), Nat.div_eq_of_lt ha, Nat.div_eq_of_lt hb,
      Nat.zero_add, Nat.zero_add]
  rw [← Nat.mod_add_div ((a + 2 ^ k * x) ^^^ (b + 2 ^ k * y)) (2 ^ k), h1, h2]

omit [Build] in
/-- A symbol for two digits changes them. -/
theorem num_xor {j d a b : Nat} {pre l : List Nat} (hpre : ∀ v ∈ pre, v < 2 ^ j) (ha : a < 2 ^ j)
    (hb : b < 2 ^ j) (hd : d < 2 ^ j * 2 ^ j) :
    num j (pre ++ a :: b :: l) ^^^ (d <<< (j * pre.length))
      = num j (pre ++ (a ^^^ d % 2 ^ j) :: (b ^^^ d / 2 ^ j) :: l) := by
  have h1 : d % 2 ^ j < 2 ^ j := Nat.mod_lt _ (Nat.two_pow_pos j)
  have h2 : d / 2 ^ j < 2 ^ j := Nat.div_lt_of_lt_mul hd
  rw [num_append, num_append, Nat.shiftLeft_eq, Nat.mul_comm d,
    ← Nat.zero_add (2 ^ (j * pre.length) * d), xor_low (num_lt hpre) (Nat.two_pow_pos _),
    Nat.xor_zero]
  congr 2
  conv => lhs; rw [← Nat.mod_add_div d (2 ^ j)]
  rw [num_cons, num_cons, num_cons, num_cons, xor_low ha h1]
  congr 2
  have : d / 2 ^ j = d / 2 ^ j + 2 ^ j * 0 := by rw [Nat.mul_zero, Nat.add_zero]
  rw [this, xor_low hb h2, Nat.xor_zero, Nat.mul_zero,
    Nat.add_zero]

/-! ## The changes of an entry -/

/-- The symbols that change the selectors `l` to `l'`. -/
structure XorSteps (code : List Nat) (j n : Nat) (l l' : List Nat) (bs : Nat → List Bool) : Prop where
  len : l.length = 2 * n
  len' : l'.length = 2 * n
  lt : ∀ v ∈ l, v < 2 ^ j
  lt' : ∀ v ∈ l', v < 2 ^ j
  step : ∀ i, i < n → ∃ d, d < 2 ^ j * 2 ^ j ∧ symbol code (bs i) = some (d, bs (i + 1)) ∧
    l'.getD (2 * i) 0 = l.getD (2 * i) 0 ^^^ d % 2 ^ j ∧
    l'.getD (2 * i + 1) 0 = l.getD (2 * i + 1) 0 ^^^ d / 2 ^ j

omit [Build] in
theorem xorSelectors_steps {code : List Nat} {j : Nat} :
    ∀ (n : Nat) {l l' : List Nat} {bits rest : List Bool}, l.length = 2 * n → (∀ v ∈ l, v < 2 ^ j) →
      xorSelectors code (2 ^ j) l bits = some (l', rest) →
      ∃ bs, XorSteps code j n l l' bs ∧ bs 0 = bits ∧ bs n = rest := by
  intro n
  induction n with
  | zero =>
    intro l l' bits rest hl _ h
    obtain rfl := List.eq_nil_of_length_eq_zero hl
    unfold xorSelectors at h
    obtain ⟨rfl, rfl⟩ := reader_pure.mp h
    exact ⟨fun _ => bits, ⟨rfl, rfl, by simp, by simp, fun i hi => by omega⟩, rfl, rfl⟩
  | succ n ih =>
    intro l l' bits rest hl hlt h
    obtain ⟨a, b, l, rfl⟩ : ∃ a b t, l = a :: b :: t := by
      rcases l with _ | ⟨a, _ | ⟨b, t⟩⟩
      · simp at hl
      · simp at hl; omega
      · exact ⟨a, b, t, rfl⟩
    unfold xorSelectors at h
    obtain ⟨s, b1, h1, h⟩ := reader_bind.mp h
    obtain ⟨hs, h⟩ := require_bind.mp h
    obtain ⟨t, b2, h2, h⟩ := reader_bind.mp h
    obtain ⟨rfl, rfl⟩ := reader_pure.mp h
    obtain ⟨bs, hx, e0, en⟩ := ih (by simpa [Nat.mul_succ] using hl)
      (fun v hv => hlt v (List.mem_cons_of_mem _ (List.mem_cons_of_mem _ hv))) h2
    refine ⟨fun i => if i = 0 then bits else bs (i - 1), ⟨hl, ?_, hlt, ?_, ?_⟩, rfl, ?_⟩
    · have := hx.len'
      simp only [List.length_cons]; omega
    · intro v hv
      rcases List.mem_cons.mp hv with hv | hv
      · rw [hv]
        exact Nat.xor_lt_two_pow (hlt a (by simp)) (Nat.mod_lt _ (Nat.two_pow_pos j))
      · rcases List.mem_cons.mp hv with hv | hv
        · rw [hv]
          exact Nat.xor_lt_two_pow (hlt b (by simp)) (Nat.div_lt_of_lt_mul hs)
        · exact hx.lt' v hv
    · intro i hi
      cases i with
      | zero => exact ⟨s, hs, by simpa [e0] using h1, rfl, rfl⟩
      | succ i =>
        obtain ⟨d, d1, d2, d3, d4⟩ := hx.step i (by omega)
        refine ⟨d, d1, by simpa using d2, ?_, ?_⟩
        · rw [Nat.mul_succ]; exact d3
        · rw [Nat.mul_succ]; exact d4
    · simpa using en

omit [Build] in
/-- The list in which the first `i` pairs are changed. -/
theorem mixed_step {l l' : List Nat} {i : Nat} (h : 2 * i + 2 ≤ l.length) (h' : 2 * i + 2 ≤ l'.length) :
    l'.take (2 * i) ++ l.drop (2 * i)
      = l'.take (2 * i) ++ l.getD (2 * i) 0 :: l.getD (2 * i + 1) 0 :: l.drop (2 * (i + 1)) ∧
    l'.take (2 * (i + 1)) ++ l.drop (2 * (i + 1))
      = l'.take (2 * i) ++ l'.getD (2 * i) 0 :: l'.getD (2 * i + 1) 0 :: l.drop (2 * (i + 1)) := by
  constructor
  · rw [List.drop_eq_getElem_cons (by omega), List.drop_eq_getElem_cons (by omega : 2 * i + 1 < l.length),
      List.getD_eq_getElem?_getD, List.getElem?_eq_getElem (by omega : 2 * i < l.length),
      List.getD_eq_getElem?_getD, List.getElem?_eq_getElem (by omega : 2 * i + 1 < l.length)]
    rfl
  · rw [show 2 * (i + 1) = 2 * i + 1 + 1 by omega, List.take_add_one, List.take_add_one,
      List.getElem?_eq_getElem (by omega : 2 * i < l'.length),
      List.getElem?_eq_getElem (by omega : 2 * i + 1 < l'.length),
      List.getD_eq_getElem?_getD, List.getElem?_eq_getElem (by omega : 2 * i < l'.length),
      List.getD_eq_getElem?_getD, List.getElem?_eq_getElem (by omega : 2 * i + 1 < l'.length)]
    simp only [Option.toList_some, List.append_assoc, List.cons_append, List.nil_append,
      Option.getD_some]

omit [Build] in
theorem getD_lt {l : List Nat} {k i : Nat} (hk : 0 < k) (h : ∀ v ∈ l, v < k) : l.getD i 0 < k := by
  rw [List.getD_eq_getElem?_getD]
  cases hi : l[i]? with
  | none => simpa using hk
  | some v => exact h v (List.mem_of_getElem? hi)

omit [Build] in
/-- One symbol applied to the number with the digits of a partly changed list. -/
theorem XorSteps.num_step {code : List Nat} {j n : Nat} {l l' : List Nat} {bs : Nat → List Bool}
    (h : XorSteps code j n l l' bs) {i : Nat} (hi : i < n) :
    ∃ d, d < 2 ^ j * 2 ^ j ∧ symbol code (bs i) = some (d, bs (i + 1)) ∧
      num j (l'.take (2 * i) ++ l.drop (2 * i)) ^^^ (d <<< (j * (2 * i)))
        = num j (l'.take (2 * (i + 1)) ++ l.drop (2 * (i + 1))) := by
  obtain ⟨d, d1, d2, d3, d4⟩ := h.step i hi
  have h1 := h.len
  have h2 := h.len'
  obtain ⟨m1, m2⟩ := mixed_step (l := l) (l' := l') (i := i) (by omega) (by omega)
  refine ⟨d, d1, d2, ?_⟩
  have hlen : (l'.take (2 * i)).length = 2 * i := by rw [List.length_take]; omega
  have := num_xor (l := l.drop (2 * (i + 1))) (pre := l'.take (2 * i)) (d := d)
    (fun v hv => h.lt' v (List.mem_of_mem_take hv))
    (getD_lt (i := 2 * i) (Nat.two_pow_pos j) h.lt) (getD_lt (i := 2 * i + 1) (Nat.two_pow_pos j) h.lt) d1
  rw [hlen] at this
  rw [m1, m2, this, d3, d4]

theorem xorWord_ok {buf : List UInt8} {last : Nat} {code : List Nat} {dm : DataModel}
    (hm : TablesOk code dm) {l l' : List Nat} {bits rest : List Bool} {c : Codec}
    (hl : l.length = 16) (hlt : ∀ v ∈ l, v < 4) (h : xorSelectors code 4 l bits = some (l', rest))
    (hc : At buf last c bits) :
    ∃ c', xorWord dm (num 2 l) c = .ok (num 2 l', c') ∧ At buf last c' rest ∧ l'.length = 16 ∧
      ∀ v ∈ l', v < 4 := by
  obtain ⟨bs, hx, e0, en⟩ := xorSelectors_steps (j := 2) 8 hl hlt h
  unfold xorWord
  obtain ⟨st, est, c', e, hc'⟩ := Res.forRange_inv (n := 8) (s := (num 2 l, c))
    (f := fun i (st : Nat × Codec) => do
      let (s, k) := st
      let (d, k) ← k.decode dm
      let v ← shlU 32 d (4 * i)
      pure (s ^^^ v, k))
    (fun i st => ∃ c', st = (num 2 (l'.take (2 * i) ++ l.drop (2 * i)), c') ∧ At buf last c' (bs i))
    ⟨c, by simp, by rw [e0]; exact hc⟩ (by
      rintro i hi _ ⟨k, rfl, hk⟩
      obtain ⟨d, d1, d2, d3⟩ := hx.num_step hi
      obtain ⟨k1, e1, hk1, _, _⟩ := at_symbol hm d2 hk
      refine ⟨_, ?_, k1, rfl, hk1⟩
      simp only [e1, Res.ok_bind]
      rw [shlU_ok (by omega), Res.lift_ok, Res.ok_bind, Nat.mod_eq_of_lt (show d <<< (4 * i) < 2 ^ 32 by
        rw [Nat.shiftLeft_eq]
        have : (2 : Nat) ^ (4 * i) ≤ 2 ^ 28 := Nat.pow_le_pow_right (by omega) (by omega)
        calc d * 2 ^ (4 * i) ≤ 15 * 2 ^ 28 := Nat.mul_le_mul (by omega) this
          _ < 2 ^ 32 := by omega), ← d3, show 2 * (2 * i) = 4 * i by omega]
      rfl)
  refine ⟨c', ?_, by rw [← en]; exact hc', hx.len', hx.lt'⟩
  rw [est, e]
  have h1 := hx.len
  have h2 := hx.len'
  rw [List.take_of_length_le (by omega), List.drop_eq_nil_of_le (by omega), List.append_nil]

/-! ## Colour selectors of the DXT formats -/

omit [Build] in
theorem packSelectors_num {order : List Nat} {j : Nat} (h : order.length = 2 ^ j) (l : List Nat) :
    packSelectors order l = num j (l.map fun v => order.getD v 0) := by
  unfold packSelectors num
  rw [List.foldr_map, h]

omit [Build] in
/-- Two numbers with 16 digits of two bits are equal if all the bits are. -/
theorem num2_ext {x : Nat} {l : List Nat} (hl : l.length = 16) (hlt : ∀ v ∈ l, v < 4) (hx : x < 2 ^ 32)
    (h0 : ∀ i, i < 16 → x.testBit (2 * i) = (l.getD i 0).testBit 0)
    (h1 : ∀ i, i < 16 → x.testBit (2 * i + 1) = (l.getD i 0).testBit 1) : x = num 2 l := by
  have hn := num_lt (j := 2) hlt
  rw [hl] at hn
  apply Nat.eq_of_testBit_eq
  intro p
  by_cases hp : p < 32
  · obtain ⟨i, b, hb, rfl⟩ : ∃ i b, b < 2 ∧ p = 2 * i + b := ⟨p / 2, p % 2, by omega, by omega⟩
    rw [num_testBit (j := 2) hlt hb]
    rcases (show b = 0 ∨ b = 1 by omega) with rfl | rfl
    · exact h0 i (by omega)
    · exact h1 i (by omega)
  · have hpow : (2 : Nat) ^ 32 ≤ 2 ^ p := Nat.pow_le_pow_right (by omega) (by omega)
    rw [Nat.testBit_lt_two_pow (by omega), Nat.testBit_lt_two_pow (by omega)]

omit [Build] in
theorem evenBits {i : Nat} (h : i < 16) : Nat.testBit 0xAAAAAAAA (2 * i) = false ∧
    Nat.testBit 0xAAAAAAAA (2 * i + 1) = true ∧ Nat.testBit 0x55555555 (2 * i) = true ∧
    Nat.testBit 0x55555555 (2 * i + 1) = false ∧ Nat.testBit 0xFFFFFFFF (2 * i) = true ∧
    Nat.testBit 0xFFFFFFFF (2 * i + 1) = true := by
  have key : ∀ i : Fin 16, Nat.testBit 0xAAAAAAAA (2 * i.val) = false ∧
    Nat.testBit 0xAAAAAAAA (2 * i.val + 1) = true ∧ Nat.testBit 0x55555555 (2 * i.val) = true ∧
    Nat.testBit 0x55555555 (2 * i.val + 1) = false ∧ Nat.testBit 0xFFFFFFFF (2 * i.val) = true ∧
    Nat.testBit 0xFFFFFFFF (2 * i.val + 1) = true := by decide +kernel
  exact key ⟨i, h⟩

omit [Build] in
theorem map_getD_order {l : List Nat} {order : List Nat} {i : Nat} (hi : i < l.length) :
    (l.map fun v => order.getD v 0).getD i 0 = order.getD (l.getD i 0) 0 := by
  rw [List.getD_eq_getElem?_getD, List.getElem?_map, List.getElem?_eq_getElem hi,
    List.getD_eq_getElem?_getD (l := l), List.getElem?_eq_getElem hi]
  rfl

theorem dxtSelectorWord_ok {l : List Nat} (hl : l.length = 16) (hlt : ∀ v ∈ l, v < 4) :
    dxtSelectorWord (num 2 l) = .ok (packSelectors colourOrder l) := by
  unfold dxtSelectorWord
  rw [shlU_ok (by omega), Out.ok_bind, packSelectors_num (j := 2) rfl]
  refine congrArg Out.ok (num2_ext (by simpa using hl) ?_ ?_ ?_ ?_)
  · intro v hv
    obtain ⟨w, hw, rfl⟩ := List.mem_map.mp hv
    have key : ∀ v : Fin 4, colourOrder.getD v.val 0 < 4 := by decide
    exact key ⟨w, hlt w hw⟩
  · refine Nat.or_lt_two_pow (Nat.and_lt_two_pow _ (by omega)) (Nat.and_lt_two_pow _ (by omega))
  · intro i hi
    obtain ⟨a1, a2, a3, a4, _⟩ := evenBits hi
    have hb := num_testBit (j := 2) hlt (i := i) (b := 1) (by omega)
    rw [map_getD_order (by omega)]
    simp only [Nat.testBit_or, Nat.testBit_and, Nat.testBit_shiftRight, a1, a3, Bool.and_false,
      Bool.and_true, Bool.false_or]
    rw [Nat.add_comm 1, hb]
    have key : ∀ v : Fin 4, v.val.testBit 1 = (colourOrder.getD v.val 0).testBit 0 := by decide
    exact key ⟨l.getD i 0, getD_lt (by omega) hlt⟩
  · intro i hi
    obtain ⟨a1, a2, a3, a4, _⟩ := evenBits hi
    have hb0 := num_testBit (j := 2) hlt (i := i) (b := 0) (by omega)
    have hb1 := num_testBit (j := 2) hlt (i := i) (b := 1) (by omega)
    rw [map_getD_order (by omega)]
    simp only [Nat.testBit_or, Nat.testBit_and, Nat.testBit_xor, Nat.testBit_mod_two_pow,
      Nat.testBit_shiftLeft, a2, a4, Bool.and_false, Bool.and_true, Bool.or_false]
    rw [decide_eq_true (show 2 * i + 1 < 32 by omega), decide_eq_true (show 2 * i + 1 ≥ 1 by omega),
      Nat.add_sub_cancel, hb1]
    simp only [Nat.add_zero] at hb0
    rw [hb0]
    have key : ∀ v : Fin 4, (v.val.testBit 1 ^^ (true && (true && v.val.testBit 0)))
      = (colourOrder.getD v.val 0).testBit 1 := by decide
    exact key ⟨l.getD i 0, getD_lt (by omega) hlt⟩

/-! ## Alpha selectors of the DXT formats -/

omit [Build] in
/-- The steps for the two halves of a list. -/
theorem XorSteps.halves {code : List Nat} {j : Nat} {l l' : List Nat} {bs : Nat → List Bool}
    (h : XorSteps code j 8 l l' bs) :
    XorSteps code j 4 (l.take 8) (l'.take 8) bs ∧
    XorSteps code j 4 (l.drop 8) (l'.drop 8) (fun i => bs (4 + i)) := by
  have h1 := h.len
  have h2 := h.len'
  have gt : ∀ (l : List Nat) i, i < 8 → (l.take 8).getD i 0 = l.getD i 0 := fun l i hi => by
    rw [List.getD_eq_getElem?_getD, List.getElem?_take_of_lt hi, List.getD_eq_getElem?_getD]
  have gd : ∀ (l : List Nat) i, (l.drop 8).getD i 0 = l.getD (8 + i) 0 := fun l i => by
    rw [List.getD_eq_getElem?_getD, List.getElem?_drop, List.getD_eq_getElem?_getD]
  refine ⟨⟨by rw [List.length_take]; omega, by rw [List.length_take]; omega,
    fun v hv => h.lt v (List.mem_of_mem_take hv), fun v hv => h.lt' v (List.mem_of_mem_take hv), ?_⟩,
    ⟨by rw [List.length_drop]; omega, by rw [List.length_drop]; omega,
    fun v hv => h.lt v (List.mem_of_mem_drop hv), fun v hv => h.lt' v (List.mem_of_mem_drop hv), ?_⟩⟩
  · intro i hi
    obtain ⟨d, d1, d2, d3, d4⟩ := h.step i (by omega)
    exact ⟨d, d1, d2, by rw [gt _ _ (by omega), gt _ _ (by omega), d3],
      by rw [gt _ _ (by omega), gt _ _ (by omega), d4]⟩
  · intro i hi
    obtain ⟨d, d1, d2, d3, d4⟩ := h.step (4 + i) (by omega)
    exact ⟨d, d1, d2, by rw [gd, gd, show 8 + 2 * i = 2 * (4 + i) by omega, d3],
      by rw [gd, gd, show 8 + (2 * i + 1) = 2 * (4 + i) + 1 by omega, d4]⟩

omit [Build] in
theorem dxt5Pairs_get {a b : Nat} (ha : a < 8) (hb : b < 8) :
    dxt5Pairs[a + 8 * b]? = some (alphaOrder.getD a 0 + 8 * alphaOrder.getD b 0) := by
  have key : ∀ a b : Fin 8, dxt5Pairs[a.val + 8 * b.val]?
      = some (alphaOrder.getD a.val 0 + 8 * alphaOrder.getD b.val 0) := by decide +kernel
  exact key ⟨a, ha⟩ ⟨b, hb⟩

theorem linearHalf_ok {buf : List UInt8} {last : Nat} {code : List Nat} {dm : DataModel}
    (hm : TablesOk code dm) {l l' : List Nat} {bs : Nat → List Bool} {c : Codec}
    (hx : XorSteps code 3 4 l l' bs) (hc : At buf last c (bs 0)) :
    ∃ c', linearHalf dm (num 3 l) c = .ok (num 3 l', packSelectors alphaOrder l', c') ∧
      At buf last c' (bs 4) := by
  have h1 := hx.len
  have h2 := hx.len'
  unfold linearHalf
  obtain ⟨st, est, c', e, hc'⟩ := Res.forRange_inv (n := 4) (s := (num 3 l, 0, c))
    (f := fun i (st : Nat × Nat × Codec) => do
      let (lin, s, k) := st
      let (d, k) ← k.decode dm
      let v ← shlU 32 d (6 * i)
      let lin := lin ^^^ v
      let r ← shrU 32 lin (6 * i)
      let t ← idx dxt5Pairs (r &&& 0x3F)
      let t ← shlU 32 t (6 * i)
      pure (lin, s ||| t, k))
    (fun i st => ∃ c', st = (num 3 (l'.take (2 * i) ++ l.drop (2 * i)),
      packSelectors alphaOrder (l'.take (2 * i)), c') ∧ At buf last c' (bs i))
    ⟨c, by simp [packSelectors], hc⟩ (by
      rintro i hi _ ⟨k, rfl, hk⟩
      obtain ⟨d, d1, d2, d3⟩ := hx.num_step hi
      obtain ⟨k1, e1, hk1, _, _⟩ := at_symbol hm d2 hk
      have hpow : (2 : Nat) ^ (6 * i) ≤ 2 ^ 18 := Nat.pow_le_pow_right (by omega) (by omega)
      obtain ⟨m1, m2⟩ := mixed_step (l := l) (l' := l') (i := i) (by omega) (by omega)
      have ha : l'.getD (2 * i) 0 < 8 := getD_lt (by omega) hx.lt'
      have hb : l'.getD (2 * i + 1) 0 < 8 := getD_lt (by omega) hx.lt'
      have hlen : (l'.take (2 * i)).length = 2 * i := by rw [List.length_take]; omega
      have hpre : ∀ v ∈ l'.take (2 * i), v < 2 ^ 3 := fun v hv => hx.lt' v (List.mem_of_mem_take hv)
      have hr : num 3 (l'.take (2 * (i + 1)) ++ l.drop (2 * (i + 1))) >>> (6 * i) &&& 0x3F
          = l'.getD (2 * i) 0 + 8 * l'.getD (2 * i + 1) 0 := by
        have hn := num_lt (j := 3) hpre
        rw [m2, num_append, Nat.shiftRight_eq_div_pow, hlen, show 3 * (2 * i) = 6 * i by omega,
          Nat.add_mul_div_left _ _ (Nat.two_pow_pos _), Nat.div_eq_of_lt (by
            rw [hlen, show 3 * (2 * i) = 6 * i by omega] at hn; exact hn), and_63, num_cons, num_cons]
        omega
      have hpk : packSelectors alphaOrder (l'.take (2 * (i + 1)))
          = packSelectors alphaOrder (l'.take (2 * i))
            + (alphaOrder.getD (l'.getD (2 * i) 0) 0 + 8 * alphaOrder.getD (l'.getD (2 * i + 1) 0) 0)
              * 2 ^ (6 * i) := by
        have := (mixed_step (l := l'.take (2 * i + 2)) (l' := l') (i := i)
          (by rw [List.length_take]; omega) (by omega)).2
        rw [show 2 * (i + 1) = 2 * i + 2 by omega, List.drop_eq_nil_of_le (by
          rw [List.length_take]; omega), List.append_nil] at this
        rw [show 2 * (i + 1) = 2 * i + 2 by omega, this, packSelectors_append, hlen,
          show alphaOrder.length = 2 ^ 3 from rfl, ← Nat.pow_mul, show 3 * (2 * i) = 6 * i by omega,
          Nat.mul_comm (2 ^ (6 * i))]
        rfl
      have hv : ∀ v < 8, alphaOrder.getD v 0 < 8 := fun v hv => by
        have key : ∀ v : Fin 8, alphaOrder.getD v.val 0 < 8 := by decide
        exact key ⟨v, hv⟩
      have hva := hv _ ha
      have hvb := hv _ hb
      have hps := packSelectors_lt (order := alphaOrder) (l := l'.take (2 * i)) (by decide) (by decide)
      rw [hlen, show alphaOrder.length = 2 ^ 3 from rfl, ← Nat.pow_mul,
        show 3 * (2 * i) = 6 * i by omega] at hps
      refine ⟨_, ?_, k1, rfl, hk1⟩
      simp only [e1, Res.ok_bind]
      rw [shlU_ok (by omega), Res.lift_ok, Res.ok_bind, Nat.mod_eq_of_lt (show d <<< (6 * i) < 2 ^ 32 by
        rw [Nat.shiftLeft_eq]
        calc d * 2 ^ (6 * i) ≤ 63 * 2 ^ 18 := Nat.mul_le_mul (by omega) hpow
          _ < 2 ^ 32 := by omega), show 6 * i = 3 * (2 * i) by omega, d3, shrU_ok (by omega), Res.lift_ok,
        Res.ok_bind, show 3 * (2 * i) = 6 * i by omega, hr, idx_of_some (dxt5Pairs_get ha hb), Res.lift_ok,
        Res.ok_bind, shlU_ok (by omega), Res.lift_ok, Res.ok_bind, hpk]
      rw [Nat.mod_eq_of_lt (by
        rw [Nat.shiftLeft_eq]
        calc _ ≤ 63 * 2 ^ 18 := Nat.mul_le_mul (by omega) hpow
          _ < 2 ^ 32 := by omega), or_shl hps]
      rfl)
  refine ⟨c', ?_, hc'⟩
  rw [est, e]
  rw [List.take_of_length_le (by omega), List.drop_eq_nil_of_le (by omega), List.append_nil]

/-! ## The palettes -/

theorem dxtSelectors_ok {file : List UInt8} {pal : List (List UInt8)}
    (hf : hasEtc (format file) = false)
    (h : filePalette file (colorSelectors file) (dxtSelectorPalette colourOrder 4) = some pal)
    (hin : (colorSelectors file).ofs + (colorSelectors file).size < file.length) :
    ∃ S, Model.Crn.Unity.decodeSelectors file (specHeader file) = .ok S ∧ pal = S.map (leBytes 4) ∧
      S.length = (colorSelectors file).num ∧ ∀ v ∈ S, v < 2 ^ 32 := by
  obtain ⟨bits, rest, hb, h, h0, _⟩ := readSection_some h
  have hl := section_inside h0 hin
  obtain ⟨es, c, ec, hc⟩ := section_start hb
  unfold dxtSelectorPalette selectorEntries at h
  obtain ⟨l, b3, h3, h⟩ := reader_bind.mp h
  obtain ⟨code, b1, h1, h3⟩ := reader_bind.mp h3
  obtain ⟨rfl, rfl⟩ := reader_pure.mp h
  obtain ⟨dm, c1, e1, hm, hc1⟩ := receiveModel_ok hl h1 hc
  have hloop := scan_forRange h3 (σ := Nat × Codec × List Nat)
    (s := (0, c1, []))
    (f := fun _ (st : Nat × Codec × List Nat) => do
      let (s, k, l) := st
      let (s, k) ← xorWord dm s k
      let v ← selectorWords (specHeader file).format s
      pure (s, k, l ++ v))
    (fun pre bits st => ∃ c S, st = (num 2 (pre.getLastD (List.replicate 16 0)), c, S) ∧
      At (file.drop (colorSelectors file).ofs) ((colorSelectors file).size - 1) c bits ∧
      S = pre.map (packSelectors colourOrder) ∧
      (pre.getLastD (List.replicate 16 0)).length = 16 ∧
      (∀ v ∈ pre.getLastD (List.replicate 16 0), v < 4) ∧ ∀ v ∈ S, v < 2 ^ 32)
    ⟨c1, [], rfl, hc1, rfl, rfl, by decide, by simp⟩ (by
      rintro pre b bits rest st hp hr ⟨k, S, rfl, hk, hS, ok1, ok2, hlt⟩
      obtain ⟨k1, t1, hk1, w1, w2⟩ := xorWord_ok hm ok1 ok2 hr hk
      refine ⟨_, ?_, k1, S ++ [packSelectors colourOrder b], rfl, hk1, by simp [hS], by simpa using w1,
        by simpa using w2, ?_⟩
      · simp only [t1, Res.ok_bind]
        unfold selectorWords
        rw [show (specHeader file).format = format file from rfl, hf, if_neg (by simp),
          dxtSelectorWord_ok w1 w2, Out.ok_bind, Out.pure_eq, Res.lift_ok, Res.ok_bind]
        simp
      · intro v hv
        rcases List.mem_append.mp hv with hv | hv
        · exact hlt v hv
        · rw [List.mem_singleton.mp hv]
          have := packSelectors_lt (order := colourOrder) (l := b) (by decide) (by decide)
          rw [w1] at this
          exact this)
  obtain ⟨st, est, k, S, rfl, _, hS, _, _, hlt⟩ := hloop
  refine ⟨S, ?_, ?_, ?_, hlt⟩
  · unfold Model.Crn.Unity.decodeSelectors
    rw [show (specHeader file).colorSelectors.ofs = (colorSelectors file).ofs from rfl,
      show (specHeader file).colorSelectors.size = (colorSelectors file).size from rfl,
      show (specHeader file).colorSelectors.num = (colorSelectors file).num from rfl]
    rw [es, Res.lift_ok, Res.ok_bind, ec, Res.ok_bind, e1, Res.ok_bind]
    simp only
    rw [est]
    rfl
  · rw [hS, List.map_map]; rfl
  · rw [hS, List.length_map, scan_length h3]

theorem alphaSelectors_ok {file : List UInt8} {pal : List (List UInt8)}
    (h : filePalette file (alphaSelectors file) (dxtSelectorPalette alphaOrder 6) = some pal)
    (hin : (alphaSelectors file).ofs + (alphaSelectors file).size < file.length) :
    ∃ S : List Nat, Model.Crn.Unity.decodeAlphaSelectors file (specHeader file) = .ok (S.flatMap words3) ∧
      pal = S.map (leBytes 6) ∧ S.length = (alphaSelectors file).num ∧ ∀ v ∈ S, v < 2 ^ 48 := by
  obtain ⟨bits, rest, hb, h, h0, _⟩ := readSection_some h
  have hl := section_inside h0 hin
  obtain ⟨es, c, ec, hc⟩ := section_start hb
  unfold dxtSelectorPalette selectorEntries at h
  obtain ⟨l, b3, h3, h⟩ := reader_bind.mp h
  obtain ⟨code, b1, h1, h3⟩ := reader_bind.mp h3
  obtain ⟨rfl, rfl⟩ := reader_pure.mp h
  obtain ⟨dm, c1, e1, hm, hc1⟩ := receiveModel_ok hl h1 hc
  have hloop := scan_forRange h3 (σ := Nat × Nat × Codec × List Nat)
    (s := (0, 0, c1, []))
    (f := fun _ (st : Nat × Nat × Codec × List Nat) => do
      let (lin0, lin1, k, l) := st
      let (lin0, s0, k) ← linearHalf dm lin0 k
      let (lin1, s1, k) ← linearHalf dm lin1 k
      let m ← shlU 32 s1 8
      pure (lin0, lin1, k, l ++ [asU 16 s0, asU 16 ((s0 >>> 16) ||| m), asU 16 (s1 >>> 8)]))
    (fun pre bits st => ∃ c S, st = (num 3 ((pre.getLastD (List.replicate 16 0)).take 8),
        num 3 ((pre.getLastD (List.replicate 16 0)).drop 8), c, S.flatMap words3) ∧
      At (file.drop (alphaSelectors file).ofs) ((alphaSelectors file).size - 1) c bits ∧
      S = pre.map (packSelectors alphaOrder) ∧
      (pre.getLastD (List.replicate 16 0)).length = 16 ∧
      (∀ v ∈ pre.getLastD (List.replicate 16 0), v < 8) ∧ ∀ v ∈ S, v < 2 ^ 48)
    ⟨c1, [], rfl, hc1, rfl, rfl, by decide, by simp⟩ (by
      rintro pre b bits rest st hp hr ⟨k, S, rfl, hk, hS, ok1, ok2, hlt⟩
      obtain ⟨bs, hx, b0, bn⟩ := xorSelectors_steps (j := 3) 8 ok1 ok2 hr
      obtain ⟨x1, x2⟩ := hx.halves
      have w1 := hx.len'
      have w2 := hx.lt'
      obtain ⟨k1, t1, hk1⟩ := linearHalf_ok hm x1 (by rw [b0]; exact hk)
      obtain ⟨k2, t2, hk2⟩ := linearHalf_ok hm x2 hk1
      simp only [Nat.reduceAdd] at hk2
      rw [bn] at hk2
      have p1 := packSelectors_lt (order := alphaOrder) (l := b.take 8) (by decide) (by decide)
      have p2 := packSelectors_lt (order := alphaOrder) (l := b.drop 8) (by decide) (by decide)
      rw [List.length_take, Nat.min_eq_left (by omega), show alphaOrder.length ^ 8 = 2 ^ 24 from rfl] at p1
      rw [List.length_drop, w1, show alphaOrder.length ^ (2 * 8 - 8) = 2 ^ 24 from rfl] at p2
      have p3 : packSelectors alphaOrder b = packSelectors alphaOrder (b.take 8)
          + 2 ^ 24 * packSelectors alphaOrder (b.drop 8) := by
        conv => lhs; rw [← List.take_append_drop 8 b]
        rw [packSelectors_append, List.length_take, Nat.min_eq_left (by omega)]
        rfl
      refine ⟨(num 3 (b.take 8), num 3 (b.drop 8), k2,
          (S ++ [packSelectors alphaOrder b]).flatMap words3), ?_, k2, S ++ [packSelectors alphaOrder b],
        by simp, hk2, by simp [hS], by simpa using w1, by simpa using w2, ?_⟩
      · simp only [t1, Res.ok_bind, t2]
        rw [shlU_ok (by omega), Res.lift_ok, Res.ok_bind, List.flatMap_append]
        generalize packSelectors alphaOrder (b.take 8) = s0 at p1 p3
        generalize packSelectors alphaOrder (b.drop 8) = s1 at p2 p3
        rw [p3, Nat.mod_eq_of_lt (show s1 <<< 8 < 2 ^ 32 by rw [Nat.shiftLeft_eq]; omega),
          or_shl (show s0 >>> 16 < 2 ^ 8 by rw [Nat.shiftRight_eq_div_pow]; omega)]
        simp only [List.flatMap_cons, List.flatMap_nil, List.append_nil, words3, asU,
          Nat.shiftRight_eq_div_pow, Res.pure_eq]
        refine congrArg Res.ok ?_
        simp only [Prod.mk.injEq, true_and, List.append_cancel_left_eq, List.cons.injEq, and_true]
        refine ⟨by omega, by omega, by omega⟩
      · intro v hv
        rcases List.mem_append.mp hv with hv | hv
        · exact hlt v hv
        · rw [List.mem_singleton.mp hv]
          omega)
  obtain ⟨st, est, k, S, rfl, _, hS, _, _, hlt⟩ := hloop
  refine ⟨S, ?_, ?_, ?_, hlt⟩
  · unfold Model.Crn.Unity.decodeAlphaSelectors
    rw [show (specHeader file).alphaSelectors.ofs = (alphaSelectors file).ofs from rfl,
      show (specHeader file).alphaSelectors.size = (alphaSelectors file).size from rfl,
      show (specHeader file).alphaSelectors.num = (alphaSelectors file).num from rfl]
    rw [es, Res.lift_ok, Res.ok_bind, ec, Res.ok_bind, e1, Res.ok_bind]
    simp only
    rw [est]
    rfl
  · rw [hS, List.map_map]; rfl
  · rw [hS, List.length_map, scan_length h3]

end Verif.Proofs.Crn.Unity
