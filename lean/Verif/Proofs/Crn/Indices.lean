import Verif.Proofs.Crn.Selectors

/-!
# Palette indices, tiles and the destination of the unpacker
-/

namespace Verif.Proofs.Crn

open Verif Verif.Model Verif.Model.Crn Verif.Spec.Crn

variable [Build]

/-! ## Palette indices -/

omit [Build] in
theorem andI_all {x : Int} (h : InI 32 x) : andI 32 x (-1) = x := by
  unfold InI at h
  unfold andI
  rw [show asUI 32 (-1) = 2 ^ 32 - 1 from rfl, Nat.and_two_pow_sub_one_eq_mod]
  have h1 : asUI 32 x < 2 ^ 32 := by unfold asUI; omega
  rw [Nat.mod_eq_of_lt h1]
  unfold asI asUI
  rw [Int.toNat_of_nonneg (by omega)]
  unfold Int.bmod
  simp only [Int.emod_emod_of_dvd _ (Int.dvd_refl _)]
  split <;> omega

omit [Build] in
theorem andI_none (x : Int) : andI 32 x 0 = 0 := by
  unfold andI
  rw [show asUI 32 0 = 0 from rfl, Nat.and_zero]
  rfl

theorem limit_ok {x n : Nat} (hx : x < 2 ^ 31) (hn : n < 2 ^ 31) :
    limit x n = .ok (if x < n then x else x - n) := by
  unfold limit
  rw [asI_small hx, asI_small hn]
  unfold subI
  rw [fitI_ok (by unfold InI; omega), Out.ok_bind]
  unfold shrI
  rw [if_pos (by omega), Out.ok_bind]
  refine congrArg Out.ok ?_
  by_cases h : x < n
  · rw [if_pos h, show ((x : Int) - n) / 2 ^ 31 = -1 by omega, show (-(-1) - 1 : Int) = 0 from rfl,
      andI_none, andI_all (by unfold InI; omega)]
    unfold orI
    rw [show asUI 32 0 = 0 from rfl, Nat.or_zero, show asUI 32 (x : Int) = x by unfold asUI; omega,
      asI_small hx]
    unfold asUI
    omega
  · rw [if_neg h, show ((x : Int) - n) / 2 ^ 31 = 0 by omega, show (-0 - 1 : Int) = -1 from rfl,
      andI_none, andI_all (by unfold InI; omega)]
    unfold orI
    rw [show asUI 32 0 = 0 from rfl, Nat.zero_or,
      show asUI 32 ((x : Int) - n) = x - n by unfold asUI; omega, asI_small (by omega)]
    unfold asUI
    omega

theorem nextIndex_ok {buf : List UInt8} {last : Nat} {code : List Nat} {dm : DataModel} {num : Nat}
    (hm : 0 < num → TablesOk code dm) (hnum : num < 2 ^ 16) {prev v : Nat} {bits rest : List Bool}
    {c : Codec} (msg : String) (h : nextPaletteIndex code num prev bits = some (v, rest))
    (hc : At buf last c bits) :
    ∃ c', nextIndex msg dm num prev c = .ok (v, c') ∧ At buf last c' rest ∧ v < num := by
  unfold nextPaletteIndex at h
  obtain ⟨d, b1, h1, h⟩ := reader_bind.mp h
  obtain ⟨hd, h⟩ := require_bind.mp h
  obtain ⟨rfl, rfl⟩ := reader_pure.mp h
  obtain ⟨c', e, hc', _, _⟩ := at_symbol (hm (by omega)) h1 hc
  refine ⟨c', ?_, hc', Nat.mod_lt _ (by omega)⟩
  unfold nextIndex
  rw [e, Res.orErr_ok, Res.ok_bind]
  simp only
  rw [addU_ok (by omega), Res.lift_ok, Res.ok_bind, limit_ok (by omega) (by omega), Res.lift_ok,
    Res.ok_bind, Res.pure_eq]
  by_cases hlt : prev + d < num
  · rw [if_pos hlt, Nat.mod_eq_of_lt hlt]
  · rw [if_neg hlt, Nat.mod_eq_sub_mod (by omega), Nat.mod_eq_of_lt (by omega)]

/-! ## Tiles -/

omit [Build] in
theorem tileCount_le (enc : Nat) : tileCount enc ≤ 4 := by
  by_cases h : enc < 8
  · have key : ∀ e : Fin 8, tileCount e.val ≤ 4 := by decide
    exact key ⟨enc, h⟩
  · have : chunkTiles[enc]? = none := List.getElem?_eq_none (by simp [chunkTiles]; omega)
    simp [tileCount, this]

omit [Build] in
theorem tiles_eq {enc : Nat} (h : enc < 8) : ∃ t, tilesTable[enc]? = some t ∧
    numTilesTable[enc]? = some (tileCount enc) ∧
    ∀ q, q < 4 → t[q]? = some (tileOf enc q) ∧ tileOf enc q < tileCount enc := by
  have key : ∀ e : Fin 8, (tilesTable.getD e.val []).length = 4 ∧
      tilesTable[e.val]? = some (tilesTable.getD e.val []) ∧
      numTilesTable[e.val]? = some (tileCount e.val) ∧
      ∀ q : Fin 4, (tilesTable.getD e.val [])[q.val]? = some (tileOf e.val q.val) ∧
        tileOf e.val q.val < tileCount e.val := by decide +kernel
  obtain ⟨_, h1, h2, h3⟩ := key ⟨enc, h⟩
  exact ⟨_, h1, h2, fun q hq => h3 ⟨q, hq⟩⟩

theorem tileEndpoints_ok {buf : List UInt8} {last : Nat} {code : List Nat} {dm : DataModel}
    {E : List Nat} (hm : 0 < E.length → TablesOk code dm) (hnum : E.length < 2 ^ 16) {n e : Nat}
    (hn : n ≤ 4) {l : List Nat} {bits rest : List Bool} {c : Codec} (msg : String)
    (h : scan (nextPaletteIndex code E.length) n e bits = some (l, rest)) (hc : At buf last c bits) :
    ∃ c' ends, tileEndpoints msg dm E n e c = .ok (ends, l.getLastD e, c') ∧ At buf last c' rest ∧
      (∀ t, t < n → ends[t]? = some (E.getD (l.getD t 0) 0) ∧ l.getD t 0 < E.length) := by
  unfold tileEndpoints
  obtain ⟨s, es, c', rfl, hc', hl⟩ := scan_forRange h (σ := List Nat × Nat × Codec)
    (s := (List.replicate 4 0, e, c))
    (f := fun i (st : List Nat × Nat × Codec) => do
      let (l, prev, k) := st
      let (p, k) ← nextIndex msg dm (asU 32 E.length) prev k
      let e ← idx E p
      let l ← setIdx l i e
      pure (l, p, k))
    (fun pre bits st => ∃ c, st = (pre.map (fun i => E.getD i 0) ++ List.replicate (4 - pre.length) 0,
      pre.getLastD e, c) ∧ At buf last c bits ∧ ∀ v ∈ pre, v < E.length)
    ⟨c, rfl, hc, by simp⟩ (by
      rintro pre b bits rest st hp hr ⟨c, rfl, hc, hlt⟩
      obtain ⟨c', e', hc', hb⟩ := nextIndex_ok hm hnum msg hr hc
      refine ⟨_, ?_, c', rfl, hc', ?_⟩
      · have hs : asU 32 E.length = E.length := by unfold asU; omega
        simp only [hs, e', Res.ok_bind]
        rw [idx_of_some (List.getElem?_eq_getElem hb), Res.lift_ok, Res.ok_bind,
          setIdx_ok (by simp; omega), Res.lift_ok, Res.ok_bind, Res.pure_eq,
          List.set_append_right _ _ (by simp)]
        have h4 : 4 - pre.length = (4 - (pre ++ [b]).length) + 1 := by simp; omega
        simp only [List.length_map, Nat.sub_self]
        rw [h4, List.replicate_succ, List.set_cons_zero]
        have hg : E.getD b 0 = E[b] := by
          rw [List.getD_eq_getElem?_getD, List.getElem?_eq_getElem hb]; rfl
        simp [List.getElem?_eq_getElem hb]
      · intro v hv
        rcases List.mem_append.mp hv with hv | hv
        · exact hlt v hv
        · rw [List.mem_singleton.mp hv]; exact hb)
  refine ⟨c', _, es, hc', ?_⟩
  intro t ht
  have hlen := scan_length h
  have hg : l[t]? = some l[t] := List.getElem?_eq_getElem (by omega)
  have hd : l.getD t 0 = l[t] := by rw [List.getD_eq_getElem?_getD, hg]; rfl
  rw [List.getElem?_append_left (by simp; omega), List.getElem?_map, hg, hd]
  exact ⟨rfl, hl _ (List.getElem_mem _)⟩

/-! ## The encodings -/

/-- The bits that hold the pending encodings. -/
def encOf : List Nat → Nat
  | [] => 1
  | a :: l => a + 8 * encOf l

omit [Build] in
theorem encOf_pos (l : List Nat) : 1 ≤ encOf l := by
  induction l with
  | nil => simp [encOf]
  | cons a l ih => unfold encOf; omega

theorem nextEncoding_ok {buf : List UInt8} {last : Nat} {code : List Nat} {dm : DataModel}
    (hm : TablesOk code dm) {pending pending' : List Nat} {bits rest : List Bool} {st : LevelState}
    (msg : String) (h : encodings code pending bits = some (pending', rest))
    (hc : At buf last st.codec bits) (hst : st.enc = encOf pending) (hp : ∀ v ∈ pending, v < 8) :
    ∃ c, nextEncoding msg dm st
        = .ok (pending'.headD 0, { st with codec := c, enc := encOf pending'.tail }) ∧
      At buf last c rest ∧ pending'.headD 0 < 8 ∧ ∀ v ∈ pending'.tail, v < 8 := by
  unfold nextEncoding
  rcases pending with _ | ⟨a, l⟩
  · unfold encodings at h
    obtain ⟨s, b1, h1, h⟩ := reader_bind.mp h
    obtain ⟨hs, h⟩ := require_bind.mp h
    obtain ⟨rfl, rfl⟩ := reader_pure.mp h
    obtain ⟨c, e, hc', _, _⟩ := at_symbol hm h1 hc
    have ho : s ||| 512 = s + 512 := by
      have := Verif.Proofs.Crn.or_shl (a := s) (b := 1) (k := 9) (by omega)
      rw [show (1 : Nat) <<< 9 = 512 from rfl] at this
      omega
    refine ⟨c, ?_, hc', by simp; omega, by simp; omega⟩
    rw [if_pos (show st.enc = 1 from hst), e, Res.orErr_ok, Res.ok_bind]
    simp only [Res.pure_eq, Res.ok_bind]
    rw [ho, show (7 : Nat) = 2 ^ 3 - 1 from rfl, Nat.and_two_pow_sub_one_eq_mod,
      Nat.shiftRight_eq_div_pow]
    rw [show (s + 512) % 2 ^ 3 = [s % 8, s / 8 % 8, s / 64].headD 0 by simp; omega,
      show (s + 512) / 2 ^ 3 = encOf [s % 8, s / 8 % 8, s / 64].tail by simp [encOf]; omega]
  · unfold encodings at h
    obtain ⟨rfl, rfl⟩ := reader_pure.mp h
    have ha := hp a (by simp)
    have hl := encOf_pos l
    have he : st.enc = a + 8 * encOf l := hst
    refine ⟨st.codec, ?_, hc, ha, fun v hv => hp v (List.mem_cons_of_mem _ hv)⟩
    rw [if_neg (by omega), Res.pure_eq, Res.ok_bind, he, show (7 : Nat) = 2 ^ 3 - 1 from rfl,
      Nat.and_two_pow_sub_one_eq_mod, Nat.shiftRight_eq_div_pow]
    rw [show (a + 8 * encOf l) % 2 ^ 3 = (a :: l).headD 0 by simp; omega,
      show (a + 8 * encOf l) / 2 ^ 3 = encOf (a :: l).tail by simp; omega]
    rfl

/-! ## Writing -/

/-- `l` with `b` written at index `i`. -/
def put (l : List UInt8) (i : Nat) (b : List UInt8) : List UInt8 :=
  l.take i ++ b ++ l.drop (i + b.length)

omit [Build] in
theorem put_length {l : List UInt8} {i : Nat} {b : List UInt8} (h : i + b.length ≤ l.length) :
    (put l i b).length = l.length := by
  simp [put]; omega

omit [Build] in
theorem put_put {l : List UInt8} {i j : Nat} {a b : List UInt8} (hj : j = i + a.length)
    (h : i + a.length + b.length ≤ l.length) : put (put l i a) j b = put l i (a ++ b) := by
  subst hj
  have h1 : (l.take i ++ a).length = i + a.length := by simp; omega
  unfold put
  rw [List.take_append_of_le_length (by omega), List.take_of_length_le (by omega),
    List.drop_append, List.drop_of_length_le (by omega), h1, List.drop_drop]
  simp [Nat.add_assoc]

omit [Build] in
theorem set_put (l : List UInt8) (i : Nat) (v : UInt8) (h : i < l.length) :
    l.set i v = put l i [v] := by
  unfold put
  rw [List.set_eq_take_append_cons_drop, if_pos h]
  simp

theorem writeInt_ok {l : List UInt8} {i v : Nat} (h : 4 * i + 4 ≤ l.length)
    (hl : l.length < 2 ^ 64) : writeInt l i v = .ok (put l (4 * i) (leBytes 4 v)) := by
  unfold writeInt
  have hm : mulU 64 i 4 = .ok (4 * i) := by rw [mulU_ok (by omega), Nat.mul_comm]
  rw [hm, Out.ok_bind, setIdx_ok (by omega), Out.ok_bind, addU_ok (by omega), Out.ok_bind,
    setIdx_ok (by rw [List.length_set]; omega), Out.ok_bind, addU_ok (by omega), Out.ok_bind,
    setIdx_ok (by simp only [List.length_set]; omega), Out.ok_bind, addU_ok (by omega), Out.ok_bind,
    setIdx_ok (by simp only [List.length_set]; omega)]
  refine congrArg Out.ok ?_
  rw [set_put l _ _ (by omega)]
  have q1 : (put l (4 * i) [UInt8.ofNat v]).length = l.length := put_length (by simp; omega)
  rw [set_put (put l (4 * i) [UInt8.ofNat v]) _ _ (by omega),
    put_put (j := 4 * i + 1) (a := [UInt8.ofNat v]) (b := [UInt8.ofNat (v >>> 8)]) (by simp)
      (by simp; omega)]
  have q2 : (put l (4 * i) ([UInt8.ofNat v] ++ [UInt8.ofNat (v >>> 8)])).length = l.length :=
    put_length (by simp; omega)
  rw [set_put (put l (4 * i) ([UInt8.ofNat v] ++ [UInt8.ofNat (v >>> 8)])) _ _ (by omega),
    put_put (j := 4 * i + 2) (a := [UInt8.ofNat v] ++ [UInt8.ofNat (v >>> 8)])
      (b := [UInt8.ofNat (v >>> 16)]) (by simp) (by simp; omega)]
  have q3 : (put l (4 * i) ([UInt8.ofNat v] ++ [UInt8.ofNat (v >>> 8)] ++ [UInt8.ofNat (v >>> 16)])).length
      = l.length := put_length (by simp; omega)
  rw [set_put (put l (4 * i) ([UInt8.ofNat v] ++ [UInt8.ofNat (v >>> 8)]
    ++ [UInt8.ofNat (v >>> 16)])) _ _ (by omega), put_put (j := 4 * i + 3)
      (a := [UInt8.ofNat v] ++ [UInt8.ofNat (v >>> 8)] ++ [UInt8.ofNat (v >>> 16)])
      (b := [UInt8.ofNat (v >>> 24)]) (by simp) (by simp; omega)]
  congr 1
  simp [leBytes, Nat.shiftRight_eq_div_pow, List.range_succ]

omit [Build] in
theorem leBytes_length (n v : Nat) : (leBytes n v).length = n := by simp [leBytes]

omit [Build] in
/-- Writing a block is replacing it. -/
theorem put_flatten {B : Nat} {bl : List (List UInt8)} {n : Nat} {b : List UInt8}
    (hB : ∀ x ∈ bl, x.length = B) (hb : b.length = B) (hn : n < bl.length) :
    put bl.flatten (B * n) b = (bl.set n b).flatten := by
  induction bl generalizing n with
  | nil => simp at hn
  | cons a bl ih =>
    have ha := hB a (by simp)
    cases n with
    | zero =>
      unfold put
      rw [Nat.mul_zero, Nat.zero_add, List.set_cons_zero, List.flatten_cons, List.flatten_cons,
        List.drop_append, List.drop_of_length_le (by omega)]
      simp [show b.length - a.length = 0 by omega]
    | succ n =>
      rw [List.set_cons_succ, List.flatten_cons, List.flatten_cons,
        ← ih (fun x hx => hB x (List.mem_cons_of_mem _ hx)) (by simpa using hn)]
      have h1 : B * (n + 1) = a.length + B * n := by rw [Nat.mul_succ, ha]; omega
      unfold put
      rw [h1, List.take_append, List.take_of_length_le (by omega), Nat.add_sub_cancel_left,
        List.drop_append, List.drop_of_length_le (by omega),
        show a.length + B * n + b.length - a.length = B * n + b.length by omega]
      simp

omit [Build] in
theorem flatten_len {B : Nat} {bl : List (List UInt8)} (hB : ∀ x ∈ bl, x.length = B) :
    bl.flatten.length = B * bl.length := by
  induction bl with
  | nil => simp
  | cons a bl ih =>
    rw [List.flatten_cons, List.length_append, ih (fun x hx => hB x (List.mem_cons_of_mem _ hx)),
      hB a (by simp), List.length_cons, Nat.mul_succ, Nat.add_comm]

/-! ## The codes -/

theorem receivePair_ok {buf : List UInt8} {last num : Nat} (hl : last + 1 < buf.length)
    {p : List Nat × List Nat} {bits rest : List Bool} {c : Codec}
    (h : codePair num bits = some (p, rest)) (hc : At buf last c bits) :
    ∃ e s c', receivePair c num = .ok (e, s, c') ∧ At buf last c' rest ∧
      (0 < num → TablesOk p.1 e ∧ TablesOk p.2 s) := by
  unfold codePair at h
  unfold receivePair
  by_cases h0 : num = 0
  · rw [if_pos h0] at h
    obtain ⟨rfl, rfl⟩ := reader_pure.mp h
    rw [if_neg (by omega)]
    exact ⟨_, _, c, rfl, hc, by omega⟩
  · rw [if_neg h0] at h
    obtain ⟨a, b1, h1, h⟩ := reader_bind.mp h
    obtain ⟨b, b2, h2, h⟩ := reader_bind.mp h
    obtain ⟨rfl, rfl⟩ := reader_pure.mp h
    obtain ⟨m1, c1, e1, t1, hc1⟩ := receiveModel_ok hl h1 hc
    obtain ⟨m2, c2, e2, t2, hc2⟩ := receiveModel_ok hl h2 hc1
    rw [if_pos h0, e1, Res.ok_bind]
    simp only
    rw [e2, Res.ok_bind]
    exact ⟨m1, m2, c2, rfl, hc2, fun _ => ⟨t1, t2⟩⟩

/-- The tables belong to the codes. -/
structure CodesOk (file : List UInt8) (c : Codes) (t : CodeTables) : Prop where
  encoding : TablesOk c.encoding t.encoding
  colour : 0 < (colorEndpoints file).num →
    TablesOk c.colourEndpoint t.endpoint0 ∧ TablesOk c.colourSelector t.selector0
  alpha : 0 < (alphaEndpoints file).num →
    TablesOk c.alphaEndpoint t.endpoint1 ∧ TablesOk c.alphaSelector t.selector1

theorem initTables_ok {file : List UInt8} {cs : Codes} (h : fileCodes file = some cs)
    (hin : tablesOfs file + tablesSize file < file.length) :
    ∃ t, initTables file (specHeader file) = .ok t ∧ CodesOk file cs t := by
  obtain ⟨bits, rest, hb, h, h0, _⟩ := readSection_some h
  have hl := section_inside h0 hin
  obtain ⟨es, c, ec, hc⟩ := section_start hb
  unfold codes at h
  obtain ⟨enc, b1, h1, h⟩ := reader_bind.mp h
  obtain ⟨hne, h⟩ := require_bind.mp h
  obtain ⟨p, b2, h2, h⟩ := reader_bind.mp h
  obtain ⟨q, b3, h3, h⟩ := reader_bind.mp h
  obtain ⟨rfl, rfl⟩ := reader_pure.mp h
  obtain ⟨m, c1, e1, t1, hc1⟩ := receiveModel_ok hl h1 hc
  obtain ⟨m2, m3, c2, e2, hc2, t2⟩ := receivePair_ok hl h2 hc1
  obtain ⟨m4, m5, c3, e3, hc3, t3⟩ := receivePair_ok hl h3 hc2
  refine ⟨⟨m, m2, m3, m4, m5⟩, ?_, t1, t2, t3⟩
  unfold initTables
  simp only [specHeader, specPalette]
  rw [es, Res.lift_ok, Res.ok_bind, ec, Res.ok_bind, e1, Res.ok_bind]
  simp only
  refine (if_neg hne).trans ?_
  rw [e2, Res.ok_bind]
  simp only
  rw [e3, Res.ok_bind]
  rfl

end Verif.Proofs.Crn
