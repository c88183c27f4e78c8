import Verif.Proofs.Crn.Palettes

/-!
# The selector palettes: the decoder against the specification
-/

namespace Verif.Proofs.Crn

open Verif Verif.Model Verif.Model.Crn Verif.Spec.Crn

variable [Build]

/-- What is needed to know about the tables of the differences of selectors with `k` values. -/
structure DeltaOk (k mask : Nat) (d0 d1 : List Int) : Prop where
  get0 : ∀ s, s < (2 * k - 1) * (2 * k - 1) →
    d0[s]? = some ((s % (2 * k - 1) : Nat) - (k - 1 : Nat) : Int)
  get1 : ∀ s, s < (2 * k - 1) * (2 * k - 1) →
    d1[s]? = some ((s / (2 * k - 1) : Nat) - (k - 1 : Nat) : Int)
  wrap : ∀ d v, d < 2 * k - 1 → v < k →
    asUI 32 (andI 32 ((d : Int) - (k - 1 : Nat) + v) mask)
      = (((v : Int) + ((d : Int) - (k - 1 : Nat))) % k).toNat
  kpos : 0 < k
  ksmall : k ≤ 8

omit [Build] in
theorem delta_colour : DeltaOk 4 3 (deltaTables 3 49).1 (deltaTables 3 49).2 where
  get0 := by
    have key : ∀ s : Fin 49, (deltaTables 3 49).1[s.val]? = some ((s.val % 7 : Nat) - (3 : Nat) : Int) := by
      decide +kernel
    exact fun s h => key ⟨s, h⟩
  get1 := by
    have key : ∀ s : Fin 49, (deltaTables 3 49).2[s.val]? = some ((s.val / 7 : Nat) - (3 : Nat) : Int) := by
      decide +kernel
    exact fun s h => key ⟨s, h⟩
  wrap := by
    have key : ∀ (d : Fin 7) (v : Fin 4),
        asUI 32 (andI 32 ((d.val : Int) - (3 : Nat) + v.val) 3)
          = (((v.val : Int) + ((d.val : Int) - (3 : Nat))) % 4).toNat := by decide +kernel
    exact fun d v hd hv => key ⟨d, hd⟩ ⟨v, hv⟩
  kpos := by omega
  ksmall := by omega

omit [Build] in
theorem delta_alpha : DeltaOk 8 7 (deltaTables 7 225).1 (deltaTables 7 225).2 where
  get0 := by
    have key : ∀ s : Fin 225,
        (deltaTables 7 225).1[s.val]? = some ((s.val % 15 : Nat) - (7 : Nat) : Int) := by
      decide +kernel
    exact fun s h => key ⟨s, h⟩
  get1 := by
    have key : ∀ s : Fin 225,
        (deltaTables 7 225).2[s.val]? = some ((s.val / 15 : Nat) - (7 : Nat) : Int) := by
      decide +kernel
    exact fun s h => key ⟨s, h⟩
  wrap := by
    have key : ∀ (d : Fin 15) (v : Fin 8),
        asUI 32 (andI 32 ((d.val : Int) - (7 : Nat) + v.val) 7)
          = (((v.val : Int) + ((d.val : Int) - (7 : Nat))) % 8).toNat := by decide +kernel
    exact fun d v hd hv => key ⟨d, hd⟩ ⟨v, hv⟩
  kpos := by omega
  ksmall := by omega

theorem updateSelector_ok {k mask : Nat} {delta : List Int} {sym d v i : Nat} {cur : List Nat}
    (hk : 0 < k) (hk8 : k ≤ 8) (hd : delta[sym]? = some ((d : Int) - (k - 1 : Nat)))
    (hdlt : d < 2 * k - 1) (hv : cur[i]? = some v) (hvlt : v < k)
    (wrap : asUI 32 (andI 32 ((d : Int) - (k - 1 : Nat) + v) mask)
      = (((v : Int) + ((d : Int) - (k - 1 : Nat))) % k).toNat) :
    updateSelector delta sym mask i cur
      = .ok (cur.set i (((v : Int) + ((d : Int) - (k - 1 : Nat))) % k).toNat) := by
  have hi := (List.getElem?_eq_some_iff.mp hv).1
  unfold updateSelector
  rw [idx_of_some hd, Out.ok_bind, idx_of_some hv, Out.ok_bind, asI_small (by omega)]
  unfold addI
  rw [fitI_ok (by unfold InI; omega), Out.ok_bind, setIdx_ok hi, wrap]

omit [Build] in
theorem wrapped_lt {k : Nat} (hk : 0 < k) (x : Int) : (x % k).toNat < k := by
  have h1 := Int.emod_nonneg x (show (k : Int) ≠ 0 by omega)
  have h2 := Int.emod_lt_of_pos x (show (0 : Int) < k by omega)
  omega

theorem selectorStep_aux {buf : List UInt8} {last : Nat} {code : List Nat} {dm : DataModel}
    (hm : TablesOk code dm) {k mask : Nat} {d0 d1 : List Int} (hd : DeltaOk k mask d0 d1) :
    ∀ (n : Nat) {l l' pre : List Nat} {j : Nat} {bits rest : List Bool} {c : Codec},
      l.length = 2 * n → pre.length = 2 * j → (∀ v ∈ l, v < k) →
      selectors code k l bits = some (l', rest) → At buf last c bits →
      ∃ c', Res.forRange n (fun i (st : List Nat × Codec) => do
          let (cur, k) := st
          let (sym, k) ← k.decode dm
          let cur ← updateSelector d0 sym mask ((j + i) * 2) cur
          let cur ← updateSelector d1 sym mask ((j + i) * 2 + 1) cur
          pure (cur, k)) (pre ++ l, c) = .ok (pre ++ l', c') ∧
        At buf last c' rest ∧ l'.length = l.length ∧ ∀ v ∈ l', v < k := by
  intro n
  induction n with
  | zero =>
    intro l l' pre j bits rest c hl _ _ h hc
    obtain rfl := List.eq_nil_of_length_eq_zero hl
    unfold selectors at h
    obtain ⟨rfl, rfl⟩ := reader_pure.mp h
    exact ⟨c, rfl, hc, rfl, by simp⟩
  | succ n ih =>
    intro l l' pre j bits rest c hl hpre hlt h hc
    obtain ⟨a, b, l, rfl⟩ : ∃ a b t, l = a :: b :: t := by
      rcases l with _ | ⟨a, _ | ⟨b, t⟩⟩
      · simp at hl
      · simp at hl; omega
      · exact ⟨a, b, t, rfl⟩
    unfold selectors at h
    obtain ⟨s, b1, h1, h⟩ := reader_bind.mp h
    obtain ⟨hs, h⟩ := require_bind.mp h
    obtain ⟨t, b2, h2, h⟩ := reader_bind.mp h
    obtain ⟨rfl, rfl⟩ := reader_pure.mp h
    have hkpos := hd.kpos
    have hk8 := hd.ksmall
    obtain ⟨c1, e1, hc1, _, _⟩ := at_symbol hm h1 hc
    have hw : 0 < 2 * k - 1 := by omega
    have hq : s / (2 * k - 1) < 2 * k - 1 := Nat.div_lt_of_lt_mul hs
    have hr := Nat.mod_lt s hw
    have ha := hlt a (by simp)
    have hb := hlt b (by simp)
    have u0 := updateSelector_ok (cur := pre ++ a :: b :: l) (i := (j + 0) * 2) (mask := mask) hkpos hk8
      (hd.get0 s hs) hr
      (by rw [List.getElem?_append_right (by omega), show (j + 0) * 2 - pre.length = 0 by omega]; rfl)
      ha (hd.wrap _ _ hr ha)
    rw [show (j + 0) * 2 = pre.length + 0 by omega, List.set_append_right _ _ (by omega),
      Nat.add_sub_cancel_left, List.set_cons_zero] at u0
    generalize ha' : (((a : Int) + (((s % (2 * k - 1) : Nat) : Int) - (k - 1 : Nat))) % k).toNat = a' at u0
    have u1 := updateSelector_ok (cur := pre ++ a' :: b :: l) (i := pre.length + 1) (mask := mask) hkpos
      hk8 (hd.get1 s hs) hq
      (by rw [List.getElem?_append_right (by omega), Nat.add_sub_cancel_left]; rfl)
      hb (hd.wrap _ _ hq hb)
    rw [List.set_append_right _ _ (by omega), Nat.add_sub_cancel_left, List.set_cons_succ,
      List.set_cons_zero] at u1
    generalize hb' : (((b : Int) + (((s / (2 * k - 1) : Nat) : Int) - (k - 1 : Nat))) % k).toNat = b' at u1
    obtain ⟨c2, e2, hc2, hl2, hlt2⟩ := ih (l := l) (l' := t) (pre := pre ++ [a', b']) (j := j + 1)
      (by simp at hl; omega) (by simp; omega)
      (fun v hv => hlt v (List.mem_cons_of_mem _ (List.mem_cons_of_mem _ hv))) h2 hc1
    refine ⟨c2, ?_, hc2, by simp [hl2], ?_⟩
    · rw [res_forRange_front]
      simp only [e1, Res.ok_bind]
      rw [show (j + 0) * 2 = pre.length + 0 by omega, u0, Res.lift_ok, Res.ok_bind]
      simp only [Nat.add_zero]
      rw [u1, Res.lift_ok, Res.ok_bind, Res.pure_eq, Res.ok_bind]
      rw [show pre ++ a' :: b' :: l = pre ++ [a', b'] ++ l by simp]
      have e2' := e2
      simp only [Nat.add_assoc, Nat.add_comm 1] at e2'
      rw [e2', ← ha', ← hb']
      simp
    · intro v hv
      rcases List.mem_cons.mp hv with hv | hv
      · rw [hv, ← ha']; exact wrapped_lt hkpos _
      · rcases List.mem_cons.mp hv with hv | hv
        · rw [hv, ← hb']; exact wrapped_lt hkpos _
        · exact hlt2 v hv

theorem selectorStep_ok {buf : List UInt8} {last : Nat} {code : List Nat} {dm : DataModel}
    (hm : TablesOk code dm) {k mask : Nat} {d0 d1 : List Int} (hd : DeltaOk k mask d0 d1)
    {l l' : List Nat} {bits rest : List Bool} {c : Codec} (hl : l.length = 16)
    (hlt : ∀ v ∈ l, v < k) (h : selectors code k l bits = some (l', rest)) (hc : At buf last c bits) :
    ∃ c', selectorStep dm d0 d1 mask l c = .ok (l', c') ∧ At buf last c' rest ∧ l'.length = 16 ∧
      ∀ v ∈ l', v < k := by
  obtain ⟨c', e, h1, h2, h3⟩ := selectorStep_aux hm hd 8 (pre := []) (j := 0) hl rfl hlt h hc
  refine ⟨c', ?_, h1, by omega, h3⟩
  unfold selectorStep
  simpa using e

/-! ## Packing -/

omit [Build] in
theorem packSelectors_append (order a b : List Nat) :
    packSelectors order (a ++ b)
      = packSelectors order a + order.length ^ a.length * packSelectors order b := by
  unfold packSelectors
  rw [List.foldr_append]
  induction a with
  | nil => simp
  | cons v a ih =>
    rw [List.foldr_cons, ih, List.foldr_cons, Nat.mul_add, List.length_cons, Nat.pow_succ',
      Nat.mul_assoc, Nat.add_assoc]

omit [Build] in
theorem packSelectors_single (order : List Nat) (v : Nat) :
    packSelectors order [v] = order.getD v 0 := by
  simp [packSelectors]

omit [Build] in
theorem packSelectors_lt {order l : List Nat} (ho : ∀ v ∈ order, v < order.length)
    (hpos : 0 < order.length) : packSelectors order l < order.length ^ l.length := by
  unfold packSelectors
  induction l with
  | nil => simp
  | cons v l ih =>
    rw [List.foldr_cons, List.length_cons, Nat.pow_succ']
    have hv : order.getD v 0 < order.length := by
      rw [List.getD_eq_getElem?_getD]
      cases h : order[v]? with
      | none => simpa using hpos
      | some w => exact ho w (List.mem_of_getElem? h)
    generalize List.foldr (fun v n => order.getD v 0 + order.length * n) 0 l = x at ih
    generalize order.length ^ l.length = y at ih
    calc order.getD v 0 + order.length * x < order.length + order.length * x := by omega
      _ = order.length * (x + 1) := by rw [Nat.mul_add]; omega
      _ ≤ order.length * y := Nat.mul_le_mul_left _ (by omega)

omit [Build] in
theorem fromLinear_ok {table cur : List Nat} {i v : Nat} (hv : cur[i]? = some v)
    (h : v < table.length) : fromLinear table cur i = .ok (table.getD v 0) := by
  unfold fromLinear
  rw [idx_of_some hv, Out.ok_bind, idx_ok h, List.getD_eq_getElem?_getD, List.getElem?_eq_getElem h]
  rfl

theorem packColorSelectors_ok {cur : List Nat} (hl : cur.length = 16) (hlt : ∀ v ∈ cur, v < 4) :
    packColorSelectors cur = .ok (packSelectors colourOrder cur) := by
  unfold packColorSelectors
  obtain ⟨s, e, p⟩ := forRange_inv (n := 16) (s := 0) (f := fun i (acc : Nat) => do
    let v ← fromLinear dxt1FromLinear cur i
    let v ← shlU 32 v (2 * i)
    pure (acc ||| v)) (fun i s => s = packSelectors colourOrder (cur.take i)) (by simp [packSelectors])
    (by
      intro i hi s hs
      have hg : cur[i]? = some cur[i] := List.getElem?_eq_getElem (by omega)
      have hv := hlt cur[i] (List.getElem_mem _)
      have ht : (cur.take i).length = i := by rw [List.length_take]; omega
      have hb := packSelectors_lt (order := colourOrder) (l := cur.take i) (by decide) (by decide)
      have hx : colourOrder.getD cur[i] 0 < 4 := by
        have key : ∀ v : Fin 4, colourOrder.getD v.val 0 < 4 := by decide
        exact key ⟨_, hv⟩
      rw [ht, show colourOrder.length = 4 from rfl, show (4 : Nat) = 2 ^ 2 from rfl, ← Nat.pow_mul] at hb
      refine ⟨_, ?_, rfl⟩
      rw [fromLinear_ok hg (by simpa [dxt1FromLinear] using hv), Out.ok_bind, shlU_ok (by omega),
        Out.ok_bind, Nat.mod_eq_of_lt, hs]
      · rw [or_shl (by exact hb), List.take_add_one, hg, packSelectors_append, ht, Option.toList_some,
          packSelectors_single, show colourOrder.length = 2 ^ 2 from rfl, ← Nat.pow_mul, Nat.mul_comm (2 ^ _)]
        rfl
      · show colourOrder.getD cur[i] 0 <<< (2 * i) < 2 ^ 32
        rw [Nat.shiftLeft_eq]
        have : (2 : Nat) ^ (2 * i) ≤ 2 ^ 30 := Nat.pow_le_pow_right (by omega) (by omega)
        calc colourOrder.getD cur[i] 0 * 2 ^ (2 * i) ≤ 3 * 2 ^ 30 :=
              Nat.mul_le_mul (by omega) this
          _ < 2 ^ 32 := by omega)
  rw [e, p, List.take_of_length_le (by omega)]

theorem colorSelectors_ok {file : List UInt8} {pal : List (List UInt8)}
    (h : filePalette file (colorSelectors file) (selectorPalette colourOrder 4) = some pal)
    (hin : (colorSelectors file).ofs + (colorSelectors file).size < file.length) :
    ∃ S, decodeColorSelectors file (specHeader file) = .ok S ∧ pal = S.map (leBytes 4) ∧
      S.length = (colorSelectors file).num ∧ ∀ v ∈ S, v < 2 ^ 32 := by
  obtain ⟨bits, rest, hb, h, h0, _⟩ := readSection_some h
  have hl := section_inside h0 hin
  obtain ⟨es, c, ec, hc⟩ := section_start hb
  unfold selectorPalette at h
  obtain ⟨code, b1, h1, h⟩ := reader_bind.mp h
  obtain ⟨l, b3, h3, h⟩ := reader_bind.mp h
  obtain ⟨rfl, rfl⟩ := reader_pure.mp h
  obtain ⟨dm, c1, e1, hm, hc1⟩ := receiveModel_ok hl h1 hc
  have hloop := scan_forRange h3 (σ := List Nat × Codec × List Nat)
    (s := (List.replicate 16 0, c1, []))
    (f := fun _ (st : List Nat × Codec × List Nat) => do
      let (cur, k, l) := st
      let (cur, k) ← selectorStep dm (deltaTables 3 49).1 (deltaTables 3 49).2 3 cur k
      let v ← packColorSelectors cur
      pure (cur, k, l ++ [v]))
    (fun pre bits st => ∃ c S, st = (pre.getLastD (List.replicate 16 0), c, S) ∧
      At (file.drop (colorSelectors file).ofs) ((colorSelectors file).size - 1) c bits ∧
      S = pre.map (packSelectors colourOrder) ∧
      (pre.getLastD (List.replicate 16 0)).length = 16 ∧
      (∀ v ∈ pre.getLastD (List.replicate 16 0), v < 4) ∧ ∀ v ∈ S, v < 2 ^ 32)
    ⟨c1, [], rfl, hc1, rfl, rfl, by decide, by simp⟩ (by
      rintro pre b bits rest st hp hr ⟨k, S, rfl, hk, hS, ok1, ok2, hlt⟩
      obtain ⟨k1, t1, hk1, w1, w2⟩ := selectorStep_ok hm delta_colour ok1 ok2 hr hk
      refine ⟨_, ?_, k1, S ++ [packSelectors colourOrder b], rfl, hk1, by simp [hS], by simpa using w1,
        by simpa using w2, ?_⟩
      · simp only [t1, Res.ok_bind]
        rw [packColorSelectors_ok w1 w2, Res.lift_ok, Res.ok_bind]
        simp
      · intro v hv
        rcases List.mem_append.mp hv with hv | hv
        · exact hlt v hv
        · rw [List.mem_singleton.mp hv]
          have := packSelectors_lt (order := colourOrder) (l := b) (by decide) (by decide)
          rw [w1] at this
          exact this)
  obtain ⟨st, est, k, S, rfl, _, hS, _, _, hlt⟩ := hloop
  refine ⟨S, ?_, ?_, ?_, hlt⟩
  · unfold decodeColorSelectors
    simp only [specHeader, specPalette]
    rw [es, Res.lift_ok, Res.ok_bind, ec, Res.ok_bind, e1, Res.ok_bind]
    simp only
    rw [est]
    rfl
  · rw [hS, List.map_map]; rfl
  · rw [hS, List.length_map, scan_length h3]

/-- The three words of a value of 48 bits. -/
def words3 (x : Nat) : List Nat := [x % 65536, x / 65536 % 65536, x / 4294967296]

omit [Build] in
theorem words3_bytes (x : Nat) :
    (words3 x).flatMap (leBytes 2) = leBytes 6 x := by
  have e1 := leBytes_append (m := 2) (n := 2) (x := x / 65536 % 65536) (y := x / 4294967296) (by omega)
  have e2 := leBytes_append (m := 2) (n := 4) (x := x % 65536)
    (y := x / 65536 % 65536 + 256 ^ 2 * (x / 4294967296)) (by omega)
  have e : x % 65536 + 256 ^ 2 * (x / 65536 % 65536 + 256 ^ 2 * (x / 4294967296)) = x := by omega
  rw [e] at e2
  simp only [words3, List.flatMap_cons, List.flatMap_nil, List.append_nil]
  rw [e1, e2]

omit [Build] in
theorem packAlphaSelectors_ok {cur : List Nat} (hl : cur.length = 16) (hlt : ∀ v ∈ cur, v < 8) :
    packAlphaSelectors cur = .ok (words3 (packSelectors alphaOrder cur)) := by
  have hloop : forRange 16 (fun i (t : List Nat) => do
      let v ← fromLinear dxt5FromLinear cur i
      pure (t ++ [v])) [] = .ok (cur.map fun v => alphaOrder.getD v 0) := by
    obtain ⟨s, e, p⟩ := forRange_inv (n := 16) (s := []) (f := fun i (t : List Nat) => do
      let v ← fromLinear dxt5FromLinear cur i
      pure (t ++ [v])) (fun i s => s = (cur.take i).map fun v => alphaOrder.getD v 0) (by simp)
      (by
        intro i hi s hs
        have hg : cur[i]? = some cur[i] := List.getElem?_eq_getElem (by omega)
        have hv := hlt cur[i] (List.getElem_mem _)
        refine ⟨_, ?_, rfl⟩
        rw [fromLinear_ok hg (by simpa [dxt5FromLinear] using hv), Out.ok_bind, hs,
          List.take_add_one, hg, List.map_append]
        rfl)
    rw [e, p, List.take_of_length_le (by omega)]
  have hpack : packSelectors alphaOrder cur
      = (cur.map fun v => alphaOrder.getD v 0).foldr (fun v n => v + 8 * n) 0 := by
    unfold packSelectors
    rw [List.foldr_map]
    rfl
  have hx : ∀ t ∈ cur.map fun v => alphaOrder.getD v 0, t < 8 := by
    intro t ht
    obtain ⟨v, hv, rfl⟩ := List.mem_map.mp ht
    have key : ∀ v : Fin 8, alphaOrder.getD v.val 0 < 8 := by decide
    exact key ⟨v, hlt v hv⟩
  have hlen : (cur.map fun v => alphaOrder.getD v 0).length = 16 := by simpa using hl
  unfold packAlphaSelectors
  rw [hloop, Out.ok_bind, hpack]
  generalize (cur.map fun v => alphaOrder.getD v 0) = t at hx hlen
  rcases t with _ | ⟨t0, _ | ⟨t1, _ | ⟨t2, _ | ⟨t3, _ | ⟨t4, _ | ⟨t5, _ | ⟨t6, _ | ⟨t7, _ | ⟨t8, _ |
    ⟨t9, _ | ⟨t10, _ | ⟨t11, _ | ⟨t12, _ | ⟨t13, _ | ⟨t14, _ | ⟨t15, _ | ⟨t16, t⟩⟩⟩⟩⟩⟩⟩⟩⟩⟩⟩⟩⟩⟩⟩⟩⟩ <;>
    try (simp at hlen; done)
  simp only [List.mem_cons, List.not_mem_nil, or_false, forall_eq_or_imp, forall_eq] at hx
  obtain ⟨h0, h1, h2, h3, h4, h5, h6, h7, h8, h9, h10, h11, h12, h13, h14, h15⟩ := hx
  simp only [List.foldr_cons, List.foldr_nil]
  refine congrArg Out.ok ?_
  rw [or_shl (a := t0) (by omega), or_shl (a := t0 + t1 * 2 ^ 3) (by omega),
    or_shl (a := t0 + t1 * 2 ^ 3 + t2 * 2 ^ 6) (by omega),
    or_shl (a := t0 + t1 * 2 ^ 3 + t2 * 2 ^ 6 + t3 * 2 ^ 9) (by omega),
    or_shl (a := t0 + t1 * 2 ^ 3 + t2 * 2 ^ 6 + t3 * 2 ^ 9 + t4 * 2 ^ 12) (by omega)]
  rw [Nat.shiftRight_eq_div_pow, Nat.shiftRight_eq_div_pow]
  rw [or_shl (a := t5 / 2 ^ 1) (by omega), or_shl (a := t5 / 2 ^ 1 + t6 * 2 ^ 2) (by omega),
    or_shl (a := t5 / 2 ^ 1 + t6 * 2 ^ 2 + t7 * 2 ^ 5) (by omega),
    or_shl (a := t5 / 2 ^ 1 + t6 * 2 ^ 2 + t7 * 2 ^ 5 + t8 * 2 ^ 8) (by omega),
    or_shl (a := t5 / 2 ^ 1 + t6 * 2 ^ 2 + t7 * 2 ^ 5 + t8 * 2 ^ 8 + t9 * 2 ^ 11) (by omega)]
  rw [or_shl (a := t10 / 2 ^ 2) (by omega), or_shl (a := t10 / 2 ^ 2 + t11 * 2 ^ 1) (by omega),
    or_shl (a := t10 / 2 ^ 2 + t11 * 2 ^ 1 + t12 * 2 ^ 4) (by omega),
    or_shl (a := t10 / 2 ^ 2 + t11 * 2 ^ 1 + t12 * 2 ^ 4 + t13 * 2 ^ 7) (by omega),
    or_shl (a := t10 / 2 ^ 2 + t11 * 2 ^ 1 + t12 * 2 ^ 4 + t13 * 2 ^ 7 + t14 * 2 ^ 10) (by omega)]
  unfold words3 asU
  simp only [List.cons.injEq, and_true]
  refine ⟨by omega, by omega, by omega⟩

theorem alphaSelectors_ok {file : List UInt8} {pal : List (List UInt8)}
    (h : filePalette file (alphaSelectors file) (selectorPalette alphaOrder 6) = some pal)
    (hin : (alphaSelectors file).ofs + (alphaSelectors file).size < file.length) :
    ∃ S : List Nat, decodeAlphaSelectors file (specHeader file) = .ok (S.flatMap words3) ∧
      pal = S.map (leBytes 6) ∧ S.length = (alphaSelectors file).num ∧ ∀ v ∈ S, v < 2 ^ 48 := by
  obtain ⟨bits, rest, hb, h, h0, _⟩ := readSection_some h
  have hl := section_inside h0 hin
  obtain ⟨es, c, ec, hc⟩ := section_start hb
  unfold selectorPalette at h
  obtain ⟨code, b1, h1, h⟩ := reader_bind.mp h
  obtain ⟨l, b3, h3, h⟩ := reader_bind.mp h
  obtain ⟨rfl, rfl⟩ := reader_pure.mp h
  obtain ⟨dm, c1, e1, hm, hc1⟩ := receiveModel_ok hl h1 hc
  have hloop := scan_forRange h3 (σ := List Nat × Codec × List Nat)
    (s := (List.replicate 16 0, c1, []))
    (f := fun _ (st : List Nat × Codec × List Nat) => do
      let (cur, k, l) := st
      let (cur, k) ← selectorStep dm (deltaTables 7 225).1 (deltaTables 7 225).2 7 cur k
      let v ← packAlphaSelectors cur
      pure (cur, k, l ++ v))
    (fun pre bits st => ∃ c S, st = (pre.getLastD (List.replicate 16 0), c, S.flatMap words3) ∧
      At (file.drop (alphaSelectors file).ofs) ((alphaSelectors file).size - 1) c bits ∧
      S = pre.map (packSelectors alphaOrder) ∧
      (pre.getLastD (List.replicate 16 0)).length = 16 ∧
      (∀ v ∈ pre.getLastD (List.replicate 16 0), v < 8) ∧ ∀ v ∈ S, v < 2 ^ 48)
    ⟨c1, [], rfl, hc1, rfl, rfl, by decide, by simp⟩ (by
      rintro pre b bits rest st hp hr ⟨k, S, rfl, hk, hS, ok1, ok2, hlt⟩
      obtain ⟨k1, t1, hk1, w1, w2⟩ := selectorStep_ok hm delta_alpha ok1 ok2 hr hk
      refine ⟨_, ?_, k1, S ++ [packSelectors alphaOrder b], rfl, hk1, by simp [hS], by simpa using w1,
        by simpa using w2, ?_⟩
      · simp only [t1, Res.ok_bind]
        rw [packAlphaSelectors_ok w1 w2, Res.lift_ok, Res.ok_bind]
        simp
      · intro v hv
        rcases List.mem_append.mp hv with hv | hv
        · exact hlt v hv
        · rw [List.mem_singleton.mp hv]
          have := packSelectors_lt (order := alphaOrder) (l := b) (by decide) (by decide)
          rw [w1] at this
          exact this)
  obtain ⟨st, est, k, S, rfl, _, hS, _, _, hlt⟩ := hloop
  refine ⟨S, ?_, ?_, ?_, hlt⟩
  · unfold decodeAlphaSelectors
    simp only [specHeader, specPalette]
    rw [es, Res.lift_ok, Res.ok_bind, ec, Res.ok_bind, e1, Res.ok_bind]
    simp only
    rw [est]
    rfl
  · rw [hS, List.map_map]; rfl
  · rw [hS, List.length_map, scan_length h3]

end Verif.Proofs.Crn
