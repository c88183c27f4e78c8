import Verif.Proofs.Crn.UnityPalettes

/-!
# Unity's variant of Crunch: the palettes of the ETC formats
-/

namespace Verif.Proofs.Crn.Unity

open Verif Verif.Model Verif.Model.Crn Verif.Model.Crn.Unity Verif.Spec.Crn Verif.Spec.Crn.Unity

variable [Build]

/-! ## Endpoints -/

/-- The word with the given bytes. -/
def word4 (a b c d : Nat) : Nat := a + 2 ^ 8 * (b + 2 ^ 8 * (c + 2 ^ 8 * d))

/-- The word of a colour. -/
def colourWord (c : EtcColour) : Nat := word4 c.r c.g c.b c.table

omit [Build] in
theorem and_low {k a b x y : Nat} (ha : a < 2 ^ k) (hb : b < 2 ^ k) :
    (a + 2 ^ k * x) &&& (b + 2 ^ k * y) = (a &&& b) + 2 ^ k * (x &&& y) := by
  have h1 : ((a + 2 ^ k * x) &&& (b + 2 ^ k * y)) % 2 ^ k = a &&& b := by
    rw [Nat.and_mod_two_pow, Nat.add_mul_mod_self_left, Nat.add_mul_mod_self_left,
      Nat.mod_eq_of_lt ha, Nat.mod_eq_of_lt hb]
  have h2 : ((a + 2 ^ k * x) &&& (b + 2 ^ k * y)) / 2 ^ k = x &&& y := by
    rw [Nat.and_div_two_pow, Nat.add_mul_div_left _ _ (Nat.two_pow_pos k),
      Nat.add_mul_div_left _ _ (Nat.two_pow_pos k), Nat.div_eq_of_lt ha, Nat.div_eq_of_lt hb,
      Nat.zero_add, Nat.zero_add]
  rw [← Nat.mod_add_div ((a + 2 ^ k * x) &&& (b + 2 ^ k * y)) (2 ^ k), h1, h2]

omit [Build] in
theorem word4_and {a b c d a' b' c' d' : Nat} (ha : a < 256) (hb : b < 256) (hc : c < 256)
    (ha' : a' < 256) (hb' : b' < 256) (hc' : c' < 256) :
    word4 a b c d &&& word4 a' b' c' d' = word4 (a &&& a') (b &&& b') (c &&& c') (d &&& d') := by
  unfold word4
  rw [and_low ha ha', and_low hb hb', and_low hc hc']

/-- The components of a colour are in range. -/
structure ColourLt (c : EtcColour) : Prop where
  r : c.r < 32
  g : c.g < 32
  b : c.b < 32
  t : c.table < 8

omit [Build] in
theorem etcChange_some {code : List Nat} {prev v : Nat} {bits rest : List Bool}
    (h : etcChange code prev bits = some (v, rest)) :
    ∃ d, symbol code bits = some (d, rest) ∧ d < 32 ∧ v = (prev + d) % 32 := by
  unfold etcChange at h
  obtain ⟨d, b1, h1, h⟩ := reader_bind.mp h
  obtain ⟨hd, h⟩ := require_bind.mp h
  obtain ⟨rfl, rfl⟩ := reader_pure.mp h
  exact ⟨d, h1, hd, rfl⟩

theorem etcEndpointStep_ok {buf : List UInt8} {last : Nat} {code : List Nat} {dm : DataModel}
    (hm : TablesOk code dm) {p q : EtcColour} (hp : ColourLt p) {bits rest : List Bool} {c : Codec}
    (h : etcColour code p bits = some (q, rest)) (hc : At buf last c bits) :
    ∃ c', etcEndpointStep dm (colourWord p) c = .ok (colourWord q, c') ∧ At buf last c' rest ∧
      ColourLt q := by
  unfold etcColour at h
  obtain ⟨r, b1, h1, h⟩ := reader_bind.mp h
  obtain ⟨g, b2, h2, h⟩ := reader_bind.mp h
  obtain ⟨b, b3, h3, h⟩ := reader_bind.mp h
  obtain ⟨t, b4, h4, h⟩ := reader_bind.mp h
  obtain ⟨ht, h⟩ := require_bind.mp h
  obtain ⟨rfl, rfl⟩ := reader_pure.mp h
  obtain ⟨d1, s1, l1, rfl⟩ := etcChange_some h1
  obtain ⟨d2, s2, l2, rfl⟩ := etcChange_some h2
  obtain ⟨d3, s3, l3, rfl⟩ := etcChange_some h3
  obtain ⟨d4, s4, l4, rfl⟩ := etcChange_some h4
  obtain ⟨c1, e1, hc1, _, _⟩ := at_symbol hm s1 hc
  obtain ⟨c2, e2, hc2, _, _⟩ := at_symbol hm s2 hc1
  obtain ⟨c3, e3, hc3, _, _⟩ := at_symbol hm s3 hc2
  obtain ⟨c4, e4, hc4, _, _⟩ := at_symbol hm s4 hc3
  obtain ⟨pr, pg, pb, pt⟩ := p
  obtain ⟨hr, hg, hb, hpt⟩ := hp
  simp only at hr hg hb hpt
  refine ⟨c4, ?_, hc4, ⟨Nat.mod_lt _ (by omega), Nat.mod_lt _ (by omega), Nat.mod_lt _ (by omega), ht⟩⟩
  have hloop : Res.forRange 4 (fun i (st : Nat × Codec) => do
      let (a, k) := st
      let (s, k) ← k.decode dm
      let v ← shlU 32 s (8 * i)
      let a ← addU 32 a v
      pure (a, k)) (word4 pr pg pb pt, c) = .ok (word4 (pr + d1) (pg + d2) (pb + d3) (pt + d4), c4) := by
    simp only [Res.forRange, Res.ok_bind, e1, Res.pure_eq]
    rw [shlU_ok (by omega), Res.lift_ok, Res.ok_bind, Nat.shiftLeft_eq, Nat.mod_eq_of_lt (by omega),
      addU_ok (by unfold word4; omega), Res.lift_ok, Res.ok_bind]
    simp only [Res.ok_bind, e2]
    rw [shlU_ok (by omega), Res.lift_ok, Res.ok_bind, Nat.shiftLeft_eq, Nat.mod_eq_of_lt (by omega),
      addU_ok (by unfold word4; omega), Res.lift_ok, Res.ok_bind]
    simp only [Res.ok_bind, e3]
    rw [shlU_ok (by omega), Res.lift_ok, Res.ok_bind, Nat.shiftLeft_eq, Nat.mod_eq_of_lt (by omega),
      addU_ok (by unfold word4; omega), Res.lift_ok, Res.ok_bind]
    simp only [Res.ok_bind, e4]
    rw [shlU_ok (by omega), Res.lift_ok, Res.ok_bind, Nat.shiftLeft_eq, Nat.mod_eq_of_lt (by omega),
      addU_ok (by unfold word4; omega), Res.lift_ok, Res.ok_bind]
    refine congrArg Res.ok ?_
    rw [Prod.mk.injEq]
    refine ⟨?_, rfl⟩
    unfold word4
    omega
  unfold etcEndpointStep
  rw [show colourWord ⟨pr, pg, pb, pt⟩ = word4 pr pg pb pt from rfl, hloop, Res.ok_bind]
  simp only
  rw [show (0x1F1F1F1F : Nat) = word4 31 31 31 31 from rfl, word4_and (by omega) (by omega) (by omega)
    (by omega) (by omega) (by omega), and_31, and_31, and_31, and_31]
  rfl

omit [Build] in
theorem leBytes_word4 {a b c d : Nat} (ha : a < 256) (hb : b < 256) (hc : c < 256) (hd : d < 256) :
    leBytes 4 (word4 a b c d) = [UInt8.ofNat a, UInt8.ofNat b, UInt8.ofNat c, UInt8.ofNat d] := by
  have e0 := leBytes_append (m := 1) (n := 1) (x := c) (y := d) (by omega)
  have e1 := leBytes_append (m := 1) (n := 2) (x := b) (y := c + 256 ^ 1 * d) (by omega)
  have e2 := leBytes_append (m := 1) (n := 3) (x := a) (y := b + 256 ^ 1 * (c + 256 ^ 1 * d)) (by omega)
  have hs : ∀ x : Nat, leBytes 1 x = [UInt8.ofNat x] := fun x => by
    simp [leBytes]
  unfold word4
  have : a + 2 ^ 8 * (b + 2 ^ 8 * (c + 2 ^ 8 * d)) = a + 256 ^ 1 * (b + 256 ^ 1 * (c + 256 ^ 1 * d)) := by
    omega
  rw [this, ← e2, ← e1, ← e0, hs, hs, hs, hs]
  rfl

/-- The word of the decoder for a colour. -/
def storedColour (sub : Bool) (c : EtcColour) : Nat :=
  if sub then colourWord c else word4 (8 * c.r) (8 * c.g) (8 * c.b) (36 * c.table + 2)

theorem etcEndpointWord_ok {sub : Bool} {c : EtcColour} (h : ColourLt c) :
    etcEndpointWord sub (colourWord c) = .ok (storedColour sub c) := by
  unfold etcEndpointWord storedColour
  cases sub with
  | true => rfl
  | false =>
    obtain ⟨r, g, b, t⟩ := c
    obtain ⟨hr, hg, hb, ht⟩ := h
    simp only at hr hg hb ht
    simp only [Bool.false_eq_true, if_false]
    have e1 : colourWord ⟨r, g, b, t⟩ &&& 0x07000000 = t * 2 ^ 24 := by
      show word4 r g b t &&& word4 0 0 0 7 = _
      rw [word4_and (by omega) (by omega) (by omega) (by omega) (by omega) (by omega)]
      simp only [Nat.and_zero, and_7]
      unfold word4; omega
    have e2 : colourWord ⟨r, g, b, t⟩ &&& 0x001F1F1F = word4 r g b 0 := by
      show word4 r g b t &&& word4 31 31 31 0 = _
      rw [word4_and (by omega) (by omega) (by omega) (by omega) (by omega) (by omega), and_31, and_31,
        and_31, Nat.and_zero, Nat.mod_eq_of_lt hr, Nat.mod_eq_of_lt hg, Nat.mod_eq_of_lt hb]
    rw [e1, e2, shlU_ok (by omega), Out.ok_bind, shlU_ok (by omega), Out.ok_bind, shlU_ok (by omega),
      Out.ok_bind, Nat.shiftLeft_eq, Nat.mod_eq_of_lt (by omega), Nat.shiftLeft_eq,
      Nat.mod_eq_of_lt (by omega), Nat.shiftLeft_eq, Nat.mod_eq_of_lt (by unfold word4; omega)]
    refine congrArg Out.ok ?_
    have e3 : t * 2 ^ 24 * 2 ^ 5 ||| t * 2 ^ 24 * 2 ^ 2 ||| 0x02000000 = (36 * t + 2) * 2 ^ 24 := by
      have key : ∀ t : Fin 8, t.val * 2 ^ 24 * 2 ^ 5 ||| t.val * 2 ^ 24 * 2 ^ 2 ||| 0x02000000
        = (36 * t.val + 2) * 2 ^ 24 := by decide +kernel
      exact key ⟨t, ht⟩
    rw [e3, mul_or _ (by unfold word4; omega)]
    unfold word4; omega

omit [Build] in
theorem storedColour_bytes {c : EtcColour} (h : ColourLt c) :
    leBytes 4 (storedColour false c) = etcEndpointBytes c c 0 := by
  obtain ⟨r, g, b, t⟩ := c
  obtain ⟨hr, hg, hb, ht⟩ := h
  simp only at hr hg hb ht
  unfold storedColour
  simp only [Bool.false_eq_true, if_false]
  rw [leBytes_word4 (by omega) (by omega) (by omega) (by omega)]
  have hn : ∀ x, near x x = true := fun x => by simp [near]
  have hm : ∀ x, (x + 8 - x) % 8 = 0 := fun x => by omega
  simp only [etcEndpointBytes, hn, Bool.and_self, if_true, hm, Nat.add_zero]
  rw [show 32 * t + 4 * t = 36 * t by omega]

theorem etcColours_ok {file : List UInt8} {cols : List EtcColour}
    (h : readSection file (colorEndpoints file).ofs (colorEndpoints file).size
      (etcColours (colorEndpoints file).num) = some cols)
    (hin : (colorEndpoints file).ofs + (colorEndpoints file).size < file.length) :
    decodeEtcEndpoints file (specHeader file)
      = .ok (cols.map (storedColour (hasSubblocks (format file)))) ∧
    cols.length = (colorEndpoints file).num ∧ ∀ c ∈ cols, ColourLt c := by
  obtain ⟨bits, rest, hb, h, h0, _⟩ := readSection_some h
  have hl := section_inside h0 hin
  obtain ⟨es, c, ec, hc⟩ := section_start hb
  unfold etcColours at h
  obtain ⟨code, b1, h1, h3⟩ := reader_bind.mp h
  obtain ⟨dm, c1, e1, hm, hc1⟩ := receiveModel_ok hl h1 hc
  have hloop := scan_forRange h3 (σ := Nat × Codec × List Nat)
    (s := (0, c1, []))
    (f := fun _ (st : Nat × Codec × List Nat) => do
      let (a, k, l) := st
      let (a, k) ← etcEndpointStep dm a k
      let v ← etcEndpointWord (hasSubblocks (specHeader file).format) a
      pure (a, k, l ++ [v]))
    (fun pre bits st => ∃ c, st = (colourWord (pre.getLastD {}), c,
        pre.map (storedColour (hasSubblocks (format file)))) ∧
      At (file.drop (colorEndpoints file).ofs) ((colorEndpoints file).size - 1) c bits ∧
      ColourLt (pre.getLastD {}) ∧ ∀ v ∈ pre, ColourLt v)
    ⟨c1, rfl, hc1, ⟨by decide, by decide, by decide, by decide⟩, by simp⟩ (by
      rintro pre b bits rest st hp hr ⟨k, rfl, hk, ok1, ok2⟩
      obtain ⟨k1, t1, hk1, w1⟩ := etcEndpointStep_ok hm ok1 hr hk
      refine ⟨_, ?_, k1, rfl, hk1, by simpa using w1, ?_⟩
      · simp only [t1, Res.ok_bind]
        rw [show (specHeader file).format = format file from rfl, etcEndpointWord_ok w1, Res.lift_ok,
          Res.ok_bind]
        simp
      · intro v hv
        rcases List.mem_append.mp hv with hv | hv
        · exact ok2 v hv
        · rw [List.mem_singleton.mp hv]; exact w1)
  obtain ⟨st, est, k, rfl, _, _, hlt⟩ := hloop
  refine ⟨?_, scan_length h3, hlt⟩
  unfold decodeEtcEndpoints
  rw [show (specHeader file).colorEndpoints.ofs = (colorEndpoints file).ofs from rfl,
    show (specHeader file).colorEndpoints.size = (colorEndpoints file).size from rfl,
    show (specHeader file).colorEndpoints.num = (colorEndpoints file).num from rfl]
  rw [es, Res.lift_ok, Res.ok_bind, ec, Res.ok_bind, e1, Res.ok_bind]
  simp only
  rw [est]
  rfl

/-! ## Colour selectors -/

omit [Build] in
theorem etcSelector_ok {l : List Nat} (hl : l.length = 16) (hlt : ∀ v ∈ l, v < 4) :
    etcSelector (num 2 l) = num 2 (l.map fun v => etcOrder.getD v 0) := by
  unfold etcSelector not32
  refine num2_ext (by simpa using hl) ?_ ?_ ?_ ?_
  · intro v hv
    obtain ⟨w, hw, rfl⟩ := List.mem_map.mp hv
    have key : ∀ v : Fin 4, etcOrder.getD v.val 0 < 4 := by decide
    exact key ⟨w, hlt w hw⟩
  · refine Nat.or_lt_two_pow (Nat.and_lt_two_pow _ (by omega)) (Nat.and_lt_two_pow _ (by omega))
  · intro i hi
    obtain ⟨a1, a2, a3, a4, a5, a6⟩ := evenBits hi
    have hb0 := num_testBit (j := 2) hlt (i := i) (b := 0) (by omega)
    have hb := num_testBit (j := 2) hlt (i := i) (b := 1) (by omega)
    simp only [Nat.add_zero] at hb0
    rw [map_getD_order (by omega)]
    simp only [Nat.testBit_or, Nat.testBit_and, Nat.testBit_xor, Nat.testBit_shiftRight, a1, a3, a5,
      Bool.and_false, Bool.and_true, Bool.false_or]
    rw [Nat.add_comm 1, hb, hb0]
    have key : ∀ v : Fin 4, ((v.val.testBit 0 ^^ v.val.testBit 1) ^^ true)
      = (etcOrder.getD v.val 0).testBit 0 := by decide
    exact key ⟨l.getD i 0, getD_lt (by omega) hlt⟩
  · intro i hi
    obtain ⟨a1, a2, a3, a4, a5, a6⟩ := evenBits hi
    have hb1 := num_testBit (j := 2) hlt (i := i) (b := 1) (by omega)
    rw [map_getD_order (by omega)]
    simp only [Nat.testBit_or, Nat.testBit_and, Nat.testBit_xor, a2, a4, a6,
      Bool.and_false, Bool.and_true, Bool.or_false]
    rw [hb1]
    have key : ∀ v : Fin 4, (v.val.testBit 1 ^^ true) = (etcOrder.getD v.val 0).testBit 1 := by decide
    exact key ⟨l.getD i 0, getD_lt (by omega) hlt⟩

/-- The bits of one texel in the word. -/
def piece (s t : Nat) : Nat := (((s >>> 1) &&& 1) ||| ((s &&& 1) <<< 16)) <<< t

omit [Build] in
theorem testBit_and_one (s p : Nat) : (s &&& 1).testBit p = (decide (p = 0) && s.testBit 0) := by
  rw [Nat.testBit_and]
  cases p with
  | zero => simp
  | succ p => simp [Nat.testBit_succ]

omit [Build] in
theorem piece_testBit (s t p : Nat) : (piece s t).testBit p
    = ((decide (p = t) && s.testBit 1) || (decide (p = t + 16) && s.testBit 0)) := by
  unfold piece
  rw [Nat.testBit_shiftLeft, Nat.testBit_or, testBit_and_one, Nat.testBit_shiftRight,
    Nat.testBit_shiftLeft, testBit_and_one]
  by_cases h1 : p = t
  · subst h1; simp
  · by_cases h2 : p = t + 16
    · subst h2; simp
    · simp only [decide_eq_false h1, decide_eq_false h2, Bool.false_and, Bool.or_false]
      by_cases h3 : p ≥ t
      · rw [decide_eq_false (show ¬ p - t = 0 by omega)]
        by_cases h4 : p - t ≥ 16
        · rw [decide_eq_false (show ¬ p - t - 16 = 0 by omega)]
          simp
        · rw [decide_eq_false h4]; simp
      · rw [decide_eq_false h3]; simp

omit [Build] in
theorem piece_lt {s t : Nat} (ht : t ≤ 15) : piece s t < 2 ^ 32 := by
  apply Nat.lt_pow_two_of_testBit
  intro p hp
  rw [piece_testBit, decide_eq_false (by omega), decide_eq_false (by omega)]
  rfl

/-- The word that `etcSelectorWord` computes. -/
def selectorSum (sel : Nat) (first : Nat → Nat → Nat) : Nat :=
  (List.range 4).foldl (fun word h => (List.range 4).foldl (fun word w =>
    word ||| piece (sel >>> first h w) ((8 + 4 * w + h) &&& 15)) word) 0

omit [Build] in
theorem forRange_foldl {σ : Type} {n : Nat} {f : Nat → σ → Out σ} {g : σ → Nat → σ} {s : σ}
    (h : ∀ i, i < n → ∀ s, f i s = .ok (g s i)) :
    forRange n f s = .ok ((List.range n).foldl g s) := by
  induction n with
  | zero => rfl
  | succ n ih =>
    rw [forRange, ih (fun i hi => h i (by omega)), Out.ok_bind, h n (by omega), List.range_succ,
      List.foldl_append]
    rfl

theorem etcSelectorWord_eq {sel : Nat} {first : Nat → Nat → Nat}
    (hf : ∀ h w, h < 4 → w < 4 → first h w < 32) :
    etcSelectorWord sel first = .ok (selectorSum sel first) := by
  unfold etcSelectorWord selectorSum
  refine forRange_foldl fun h hh word => ?_
  refine forRange_foldl fun w hw word => ?_
  have ht : (8 + 4 * w + h) &&& 15 ≤ 15 := by rw [and_15]; omega
  have hlt := piece_lt (s := sel >>> first h w) ht
  have hand : (sel >>> first h w) &&& 1 < 2 := by rw [and_1]; omega
  unfold piece at hlt ⊢
  rw [shrU_ok (hf h w hh hw), Out.ok_bind, shlU_ok (by omega), Out.ok_bind, shlU_ok (by omega), Out.ok_bind,
    Nat.mod_eq_of_lt (show ((sel >>> first h w) &&& 1) <<< 16 < 2 ^ 32 by
      rw [Nat.shiftLeft_eq]; omega), Nat.mod_eq_of_lt hlt]
  rfl

omit [Build] in
/-- The bits of the word: texel `i`, counted column by column, has its upper bit at `(i + 8) % 16`
and its lower bit 16 above. -/
theorem selectorSum_testBit (sel : Nat) (first : Nat → Nat → Nat) :
    (∀ i, i < 16 → (selectorSum sel first).testBit ((i + 8) % 16)
      = sel.testBit (first (i % 4) (i / 4) + 1)) ∧
    (∀ i, i < 16 → (selectorSum sel first).testBit ((i + 8) % 16 + 16)
      = sel.testBit (first (i % 4) (i / 4))) ∧
    selectorSum sel first < 2 ^ 32 := by
  have hs : selectorSum sel first = (List.range 16).foldl (fun word j =>
      word ||| piece (sel >>> first (j / 4) (j % 4)) ((8 + 4 * (j % 4) + j / 4) &&& 15)) 0 := rfl
  have key : ∀ (n : Nat) (p : Nat), ((List.range n).foldl (fun word j =>
      word ||| piece (sel >>> first (j / 4) (j % 4)) ((8 + 4 * (j % 4) + j / 4) &&& 15)) 0).testBit p
      = (List.range n).any fun j =>
        (piece (sel >>> first (j / 4) (j % 4)) ((8 + 4 * (j % 4) + j / 4) &&& 15)).testBit p := by
    intro n p
    induction n with
    | zero => simp
    | succ n ih => rw [List.range_succ, List.foldl_append, List.any_append, ← ih]; simp
  have hpos : ∀ i j, i < 16 → j < 16 →
      ((i + 8) % 16 = (8 + 4 * (j % 4) + j / 4) % 16 ↔ j = i % 4 * 4 + i / 4) := by
    intro i j hi hj
    have key : ∀ i j : Fin 16, ((i.val + 8) % 16 = (8 + 4 * (j.val % 4) + j.val / 4) % 16
      ↔ j.val = i.val % 4 * 4 + i.val / 4) := by decide +kernel
    exact key ⟨i, hi⟩ ⟨j, hj⟩
  have hany : ∀ (p i : Nat) (v : Bool), i < 16 →
      (∀ j, j < 16 → (piece (sel >>> first (j / 4) (j % 4)) ((8 + 4 * (j % 4) + j / 4) &&& 15)).testBit p
        = (decide (j = i) && v)) → (selectorSum sel first).testBit p = v := by
    intro p i v hi h
    rw [hs, key]
    cases v with
    | true =>
      rw [List.any_eq_true]
      exact ⟨i, List.mem_range.mpr hi, by rw [h i hi]; simp⟩
    | false =>
      rw [List.any_eq_false]
      intro j hj
      rw [h j (List.mem_range.mp hj)]
      simp
  refine ⟨?_, ?_, ?_⟩
  · intro i hi
    refine hany _ (i % 4 * 4 + i / 4) _ (by omega) fun j hj => ?_
    rw [piece_testBit, and_15, Nat.testBit_shiftRight]
    by_cases hji : j = i % 4 * 4 + i / 4
    · rw [decide_eq_true hji, decide_eq_true ((hpos i j hi hj).mpr hji),
        decide_eq_false (show ¬ (i + 8) % 16 = (8 + 4 * (j % 4) + j / 4) % 16 + 16 by omega),
        show j / 4 = i % 4 by omega, show j % 4 = i / 4 by omega]
      simp
    · rw [decide_eq_false hji, decide_eq_false (fun hc => hji ((hpos i j hi hj).mp hc)),
        decide_eq_false (show ¬ (i + 8) % 16 = (8 + 4 * (j % 4) + j / 4) % 16 + 16 by omega)]
      simp
  · intro i hi
    refine hany _ (i % 4 * 4 + i / 4) _ (by omega) fun j hj => ?_
    rw [piece_testBit, and_15, Nat.testBit_shiftRight, Nat.testBit_shiftRight]
    by_cases hji : j = i % 4 * 4 + i / 4
    · rw [decide_eq_true hji,
        decide_eq_false (show ¬ (i + 8) % 16 + 16 = (8 + 4 * (j % 4) + j / 4) % 16 by omega),
        decide_eq_true (show (i + 8) % 16 + 16 = (8 + 4 * (j % 4) + j / 4) % 16 + 16 by
          rw [(hpos i j hi hj).mpr hji]),
        show j / 4 = i % 4 by omega, show j % 4 = i / 4 by omega]
      simp
    · rw [decide_eq_false hji,
        decide_eq_false (show ¬ (i + 8) % 16 + 16 = (8 + 4 * (j % 4) + j / 4) % 16 by omega),
        decide_eq_false (show ¬ (i + 8) % 16 + 16 = (8 + 4 * (j % 4) + j / 4) % 16 + 16 from
          fun hc => hji ((hpos i j hi hj).mp (Nat.add_right_cancel hc)))]
      simp
  · apply Nat.lt_pow_two_of_testBit
    intro p hp
    refine hany p 0 false (by omega) fun j hj => ?_
    rw [piece_testBit, and_15, decide_eq_false (by omega), decide_eq_false (by omega)]
    simp

/-- The word whose bytes are the selectors in an ETC block. -/
def etcWord (l : List Nat) : Nat :=
  let hi := bitNumber (l.map fun v => etcOrder.getD v 0 / 2)
  let lo := bitNumber (l.map fun v => etcOrder.getD v 0 % 2)
  num 8 [hi / 256, hi % 256, lo / 256, lo % 256]

omit [Build] in
theorem bitNumber_num (l : List Nat) : bitNumber l = num 1 l := rfl

omit [Build] in
theorem bitNumber_lt {l : List Nat} (hl : l.length = 16) (h : ∀ v ∈ l, v < 2) :
    bitNumber l < 65536 := by
  have := num_lt (j := 1) h
  rw [hl] at this
  exact this

omit [Build] in
theorem order_bits (l : List Nat) (hlt : ∀ v ∈ l, v < 4) :
    (∀ v ∈ l.map (fun v => etcOrder.getD v 0 / 2), v < 2) ∧
    (∀ v ∈ l.map (fun v => etcOrder.getD v 0 % 2), v < 2) := by
  constructor
  · intro v hv
    obtain ⟨w, hw, rfl⟩ := List.mem_map.mp hv
    have key : ∀ v : Fin 4, etcOrder.getD v.val 0 / 2 < 2 := by decide
    exact key ⟨w, hlt w hw⟩
  · intro v hv
    obtain ⟨w, hw, rfl⟩ := List.mem_map.mp hv
    exact Nat.mod_lt _ (by omega)

omit [Build] in
theorem etcWord_bytes {l : List Nat} (hl : l.length = 16) (hlt : ∀ v ∈ l, v < 4) :
    leBytes 4 (etcWord l) = etcSelectorBytes l ∧ etcWord l < 2 ^ 32 := by
  obtain ⟨o1, o2⟩ := order_bits l hlt
  have h1 := bitNumber_lt (by simpa using hl) o1
  have h2 := bitNumber_lt (by simpa using hl) o2
  unfold etcWord etcSelectorBytes
  generalize bitNumber (l.map fun v => etcOrder.getD v 0 / 2) = hi at h1
  generalize bitNumber (l.map fun v => etcOrder.getD v 0 % 2) = lo at h2
  have e : num 8 [hi / 256, hi % 256, lo / 256, lo % 256]
      = word4 (hi / 256) (hi % 256) (lo / 256) (lo % 256) := rfl
  have hbe : ∀ x, x < 65536 → beBytes 2 x = [UInt8.ofNat (x / 256), UInt8.ofNat (x % 256)] := by
    intro x hx
    have e0 := leBytes_append (m := 1) (n := 1) (x := x % 256) (y := x / 256) (by omega)
    rw [show x % 256 + 256 ^ 1 * (x / 256) = x by omega] at e0
    unfold beBytes
    rw [← e0]
    simp [leBytes]
  simp only [e]
  rw [leBytes_word4 (by omega) (by omega) (by omega) (by omega), hbe _ h1, hbe _ h2]
  refine ⟨rfl, ?_⟩
  unfold word4; omega

omit [Build] in
/-- A word with the bits in the places of an ETC block. -/
theorem etcWord_ext {l : List Nat} (hl : l.length = 16) (hlt : ∀ v ∈ l, v < 4) {x : Nat}
    (hx : x < 2 ^ 32)
    (h1 : ∀ i, i < 16 → x.testBit ((i + 8) % 16) = (etcOrder.getD (l.getD i 0) 0).testBit 1)
    (h0 : ∀ i, i < 16 → x.testBit ((i + 8) % 16 + 16) = (etcOrder.getD (l.getD i 0) 0).testBit 0) :
    x = etcWord l := by
  obtain ⟨o1, o2⟩ := order_bits l hlt
  have hb1 := bitNumber_lt (by simpa using hl) o1
  have hb2 := bitNumber_lt (by simpa using hl) o2
  have hd : ∀ v ∈ [bitNumber (l.map fun v => etcOrder.getD v 0 / 2) / 256,
      bitNumber (l.map fun v => etcOrder.getD v 0 / 2) % 256,
      bitNumber (l.map fun v => etcOrder.getD v 0 % 2) / 256,
      bitNumber (l.map fun v => etcOrder.getD v 0 % 2) % 256], v < 2 ^ 8 := by
    intro v hv
    simp only [List.mem_cons, List.not_mem_nil, or_false] at hv
    omega
  have t1 : ∀ i, i < 16 → (bitNumber (l.map fun v => etcOrder.getD v 0 / 2)).testBit i
      = (etcOrder.getD (l.getD i 0) 0).testBit 1 := by
    intro i hi
    have := num_testBit (j := 1) o1 (i := i) (b := 0) (by omega)
    rw [Nat.one_mul, Nat.add_zero] at this
    rw [bitNumber_num, this, List.getD_eq_getElem?_getD, List.getElem?_map,
      List.getElem?_eq_getElem (by omega), List.getD_eq_getElem?_getD (l := l),
      List.getElem?_eq_getElem (by omega : i < l.length)]
    show (etcOrder.getD l[i] 0 / 2).testBit 0 = (etcOrder.getD l[i] 0).testBit 1
    rw [Nat.testBit_succ]
  have t0 : ∀ i, i < 16 → (bitNumber (l.map fun v => etcOrder.getD v 0 % 2)).testBit i
      = (etcOrder.getD (l.getD i 0) 0).testBit 0 := by
    intro i hi
    have := num_testBit (j := 1) o2 (i := i) (b := 0) (by omega)
    rw [Nat.one_mul, Nat.add_zero] at this
    rw [bitNumber_num, this, List.getD_eq_getElem?_getD, List.getElem?_map,
      List.getElem?_eq_getElem (by omega), List.getD_eq_getElem?_getD (l := l),
      List.getElem?_eq_getElem (by omega : i < l.length)]
    show (etcOrder.getD l[i] 0 % 2).testBit 0 = (etcOrder.getD l[i] 0).testBit 0
    simp [Nat.testBit_zero]
  have hw := (etcWord_bytes hl hlt).2
  apply Nat.eq_of_testBit_eq
  intro p
  by_cases hp : p < 32
  · obtain ⟨k, b, hb, rfl⟩ : ∃ k b, b < 8 ∧ p = 8 * k + b := ⟨p / 8, p % 8, by omega, by omega⟩
    have hr := num_testBit (j := 8) hd (i := k) (b := b) hb
    unfold etcWord
    simp only
    rw [hr]
    have hdiv : ∀ y : Nat, (y / 256).testBit b = y.testBit (b + 8) := fun y => by
      rw [show (256 : Nat) = 2 ^ 8 from rfl, ← Nat.shiftRight_eq_div_pow, Nat.testBit_shiftRight,
        Nat.add_comm]
    have hmod : ∀ y : Nat, (y % 256).testBit b = y.testBit b := fun y => by
      rw [show (256 : Nat) = 2 ^ 8 from rfl, Nat.testBit_mod_two_pow, decide_eq_true hb, Bool.true_and]
    rcases (show k = 0 ∨ k = 1 ∨ k = 2 ∨ k = 3 by omega) with rfl | rfl | rfl | rfl
    · have := h1 (b + 8) (by omega)
      rw [show (b + 8 + 8) % 16 = 8 * 0 + b by omega] at this
      rw [this]
      simp only [List.getD_cons_zero]
      rw [hdiv, t1 _ (by omega)]
    · have := h1 b (by omega)
      rw [show (b + 8) % 16 = 8 * 1 + b by omega] at this
      rw [this]
      simp only [List.getD_cons_succ, List.getD_cons_zero]
      rw [hmod, t1 _ (by omega)]
    · have := h0 (b + 8) (by omega)
      rw [show (b + 8 + 8) % 16 + 16 = 8 * 2 + b by omega] at this
      rw [this]
      simp only [List.getD_cons_succ, List.getD_cons_zero]
      rw [hdiv, t0 _ (by omega)]
    · have := h0 b (by omega)
      rw [show (b + 8) % 16 + 16 = 8 * 3 + b by omega] at this
      rw [this]
      simp only [List.getD_cons_succ, List.getD_cons_zero]
      rw [hmod, t0 _ (by omega)]
  · have hpow : (2 : Nat) ^ 32 ≤ 2 ^ p := Nat.pow_le_pow_right (by omega) (by omega)
    rw [Nat.testBit_lt_two_pow (by omega), Nat.testBit_lt_two_pow (by omega)]

omit [Build] in
theorem transpose_length (l : List Nat) : (transpose l).length = 16 := by simp [transpose]

omit [Build] in
theorem transpose_getD {l : List Nat} {i : Nat} (hi : i < 16) :
    (transpose l).getD i 0 = l.getD (i % 4 * 4 + i / 4) 0 := by
  unfold transpose
  rw [List.getD_eq_getElem?_getD, List.getElem?_map, List.getElem?_range hi]
  rfl

omit [Build] in
theorem transpose_lt {l : List Nat} {k : Nat} (hk : 0 < k) (h : ∀ v ∈ l, v < k) :
    ∀ v ∈ transpose l, v < k := by
  intro v hv
  obtain ⟨i, _, rfl⟩ := List.mem_map.mp hv
  exact getD_lt hk h

theorem etcSelectorWords_ok {l : List Nat} (hl : l.length = 16) (hlt : ∀ v ∈ l, v < 4) :
    etcSelectorWord (etcSelector (num 2 l)) (fun h w => (w <<< 3) ||| (h <<< 1)) = .ok (etcWord l) ∧
    etcSelectorWord (etcSelector (num 2 l)) (fun h w => (h <<< 3) ||| (w <<< 1))
      = .ok (etcWord (transpose l)) := by
  have hsh : ∀ a b : Nat, a < 4 → b < 4 → (a <<< 3) ||| (b <<< 1) = 2 * (4 * a + b) := by
    intro a b ha hb
    have key : ∀ a b : Fin 4, (a.val <<< 3) ||| (b.val <<< 1) = 2 * (4 * a.val + b.val) := by decide
    exact key ⟨a, ha⟩ ⟨b, hb⟩
  have hmap : ∀ v ∈ l.map (fun v => etcOrder.getD v 0), v < 2 ^ 2 := by
    intro v hv
    obtain ⟨w, hw, rfl⟩ := List.mem_map.mp hv
    have key : ∀ v : Fin 4, etcOrder.getD v.val 0 < 4 := by decide
    exact key ⟨w, hlt w hw⟩
  have hbit : ∀ i b, i < 16 → b < 2 → (num 2 (l.map fun v => etcOrder.getD v 0)).testBit (2 * i + b)
      = (etcOrder.getD (l.getD i 0) 0).testBit b := by
    intro i b hi hb
    rw [num_testBit (j := 2) hmap hb, map_getD_order (by omega)]
  have hb0 : ∀ i, i < 16 → (num 2 (l.map fun v => etcOrder.getD v 0)).testBit (2 * i)
      = (etcOrder.getD (l.getD i 0) 0).testBit 0 := fun i hi => hbit i 0 hi (by omega)
  rw [etcSelector_ok hl hlt]
  constructor
  · rw [etcSelectorWord_eq (fun h w hh hw => by rw [hsh _ _ hw hh]; omega)]
    obtain ⟨s1, s0, slt⟩ := selectorSum_testBit (num 2 (l.map fun v => etcOrder.getD v 0))
      (fun h w => (w <<< 3) ||| (h <<< 1))
    refine congrArg Out.ok (etcWord_ext hl hlt slt ?_ ?_)
    · intro i hi
      rw [s1 i hi, hsh _ _ (by omega) (by omega), hbit _ _ (by omega) (by omega),
        show 4 * (i / 4) + i % 4 = i by omega]
    · intro i hi
      rw [s0 i hi, hsh _ _ (by omega) (by omega), hb0 _ (by omega),
        show 4 * (i / 4) + i % 4 = i by omega]
  · rw [etcSelectorWord_eq (fun h w hh hw => by rw [hsh _ _ hh hw]; omega)]
    obtain ⟨s1, s0, slt⟩ := selectorSum_testBit (num 2 (l.map fun v => etcOrder.getD v 0))
      (fun h w => (h <<< 3) ||| (w <<< 1))
    refine congrArg Out.ok (etcWord_ext (transpose_length l) (transpose_lt (by omega) hlt) slt ?_ ?_)
    · intro i hi
      rw [s1 i hi, hsh _ _ (by omega) (by omega), hbit _ _ (by omega) (by omega), transpose_getD hi,
        Nat.mul_comm 4]
    · intro i hi
      rw [s0 i hi, hsh _ _ (by omega) (by omega), hb0 _ (by omega), transpose_getD hi,
        Nat.mul_comm 4]

/-- The words the decoder keeps for an entry of selectors. -/
def storedSelectors (sub : Bool) (l : List Nat) : List Nat :=
  if sub then [etcWord l, etcWord (transpose l)] else [etcWord (transpose l)]

theorem etcSelectors_ok {file : List UInt8} {sels : List (List Nat)}
    (hf : hasEtc (format file) = true)
    (h : readSection file (colorSelectors file).ofs (colorSelectors file).size
      (selectorEntries 4 (colorSelectors file).num) = some sels)
    (hin : (colorSelectors file).ofs + (colorSelectors file).size < file.length) :
    Model.Crn.Unity.decodeSelectors file (specHeader file)
      = .ok (sels.flatMap (storedSelectors (hasSubblocks (format file)))) ∧
    sels.length = (colorSelectors file).num ∧ ∀ l ∈ sels, l.length = 16 ∧ ∀ v ∈ l, v < 4 := by
  obtain ⟨bits, rest, hb, h, h0, _⟩ := readSection_some h
  have hl := section_inside h0 hin
  obtain ⟨es, c, ec, hc⟩ := section_start hb
  unfold selectorEntries at h
  obtain ⟨code, b1, h1, h3⟩ := reader_bind.mp h
  obtain ⟨dm, c1, e1, hm, hc1⟩ := receiveModel_ok hl h1 hc
  have hloop := scan_forRange h3 (σ := Nat × Codec × List Nat)
    (s := (0, c1, []))
    (f := fun _ (st : Nat × Codec × List Nat) => do
      let (s, k, l) := st
      let (s, k) ← xorWord dm s k
      let v ← selectorWords (specHeader file).format s
      pure (s, k, l ++ v))
    (fun pre bits st => ∃ c, st = (num 2 (pre.getLastD (List.replicate 16 0)), c,
        pre.flatMap (storedSelectors (hasSubblocks (format file)))) ∧
      At (file.drop (colorSelectors file).ofs) ((colorSelectors file).size - 1) c bits ∧
      ((pre.getLastD (List.replicate 16 0)).length = 16 ∧
      (∀ v ∈ pre.getLastD (List.replicate 16 0), v < 4)) ∧ ∀ l ∈ pre, l.length = 16 ∧ ∀ v ∈ l, v < 4)
    ⟨c1, rfl, hc1, ⟨rfl, by decide⟩, by simp⟩ (by
      rintro pre b bits rest st hp hr ⟨k, rfl, hk, ⟨ok1, ok2⟩, hall⟩
      obtain ⟨k1, t1, hk1, w1, w2⟩ := xorWord_ok hm ok1 ok2 hr hk
      refine ⟨_, ?_, k1, rfl, hk1, ⟨by simpa using w1, by simpa using w2⟩, ?_⟩
      · simp only [t1, Res.ok_bind]
        have hsw : selectorWords (format file) (num 2 b)
            = .ok (storedSelectors (hasSubblocks (format file)) b) := by
          obtain ⟨q1, q2⟩ := etcSelectorWords_ok w1 w2
          unfold selectorWords storedSelectors
          rw [hf, if_pos rfl, q1, q2]
          cases hasSubblocks (format file) <;> rfl
        rw [show (specHeader file).format = format file from rfl, hsw, Res.lift_ok, Res.ok_bind]
        simp
      · intro v hv
        rcases List.mem_append.mp hv with hv | hv
        · exact hall v hv
        · rw [List.mem_singleton.mp hv]
          exact ⟨w1, w2⟩)
  obtain ⟨st, est, k, rfl, _, _, hlt⟩ := hloop
  refine ⟨?_, scan_length h3, hlt⟩
  unfold Model.Crn.Unity.decodeSelectors
  rw [show (specHeader file).colorSelectors.ofs = (colorSelectors file).ofs from rfl,
    show (specHeader file).colorSelectors.size = (colorSelectors file).size from rfl,
    show (specHeader file).colorSelectors.num = (colorSelectors file).num from rfl]
  rw [es, Res.lift_ok, Res.ok_bind, ec, Res.ok_bind, e1, Res.ok_bind]
  simp only
  rw [est]
  rfl

end Verif.Proofs.Crn.Unity
