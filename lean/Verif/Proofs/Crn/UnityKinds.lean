import Verif.Proofs.Crn.UnityBlocks

/-!
# Unity's variant of Crunch: the DXT formats
-/

namespace Verif.Proofs.Crn.Unity

open Verif Verif.Model Verif.Model.Crn Verif.Model.Crn.Unity Verif.Spec.Crn Verif.Spec.Crn.Unity

variable [Build]

/-- The palettes and tables of the decoder for a colour plane. -/
structure ColourOk (p : Plane) (dmE dmS : DataModel) (E S : List Nat) : Prop
    extends ColourPlaneOk p dmE dmS E S where
  nonempty : 0 < S.length → 0 < E.length

/-- The words in `A` are the three words of each value in `V`. -/
structure Words3 (A V : List Nat) : Prop where
  get : ∀ p, p < V.length → 3 * p + 3 ≤ A.length ∧ (A.drop (3 * p))[0]? = some (V.getD p 0 % 65536) ∧
    (A.drop (3 * p))[1]? = some (V.getD p 0 / 65536 % 65536) ∧
    (A.drop (3 * p))[2]? = some (V.getD p 0 / 4294967296)
  lt : ∀ v ∈ V, v < 2 ^ 48

omit [Build] in
theorem words3_flatMap {S : List Nat} (h : ∀ v ∈ S, v < 2 ^ 48) : Words3 (S.flatMap words3) S :=
  ⟨fun _ hp => words3_get hp, h⟩

/-- The palettes and tables of the decoder for an alpha plane. -/
structure AlphaOk (p : Plane) (dmE dmS : DataModel) (E A V : List Nat) : Prop where
  ends : p.endpoints = E.map (leBytes 2)
  sels : p.selectors = V.map (leBytes 6)
  endsLt : E.length < 2 ^ 16
  selsLt : V.length < 2 ^ 16
  endTables : 0 < E.length → TablesOk p.endpointCode dmE
  selTables : 0 < V.length → TablesOk p.selectorCode dmS
  endsVal : ∀ v ∈ E, v < 2 ^ 16
  words : Words3 A V
  nonempty : 0 < V.length → 0 < E.length

/-! ## Writing -/

theorem writeAlphaWords_ok {u : Unpacker} {V : List Nat} (hu : Words3 u.alphaSelectors V)
    {e ev p f pd : Nat} (he : u.alphaEndpoints[e]? = some ev) (hev : ev < 2 ^ 16)
    (hp : p < V.length) (hf : f = 3 * p) {dst : List UInt8} (hd : 4 * pd + 8 ≤ dst.length)
    (hl : dst.length < 2 ^ 64) :
    writeAlphaWords u e f pd dst
      = .ok (put dst (4 * pd) (leBytes 2 ev ++ leBytes 6 (V.getD p 0))) := by
  subst hf
  obtain ⟨h3, g0, g1, g2⟩ := hu.get p hp
  have hx := hu.lt _ (getD_mem hp)
  generalize V.getD p 0 = x at g0 g1 g2 hx
  unfold writeAlphaWords
  rw [sliceFrom_ok (by omega), Out.ok_bind, idx_of_some he, Out.ok_bind,
    idx_of_some g0, Out.ok_bind, shlU_ok (by omega), Out.ok_bind,
    Nat.mod_eq_of_lt (show (x % 65536) <<< 16 < 2 ^ 32 by rw [Nat.shiftLeft_eq]; omega), or_shl hev,
    writeInt_ok (by omega) hl,
    Out.ok_bind, idx_of_some g1, Out.ok_bind, idx_of_some g2, Out.ok_bind, shlU_ok (by omega),
    Out.ok_bind, Nat.mod_eq_of_lt (show (x / 4294967296) <<< 16 < 2 ^ 32 by
      rw [Nat.shiftLeft_eq]; omega), addU_ok (by omega), Out.ok_bind,
    or_shl (by omega)]
  have hlen : (put dst (4 * pd) (leBytes 4 (ev + x % 65536 * 2 ^ 16))).length = dst.length :=
    put_length (by rw [leBytes_length]; omega)
  rw [writeInt_ok (by omega) (by omega), put_put (by rw [leBytes_length]; omega)
    (by rw [leBytes_length, leBytes_length]; omega)]
  refine congrArg Out.ok (congrArg (put dst (4 * pd)) ?_)
  have e1 := leBytes_append (m := 2) (n := 6) (x := ev) (y := x) (by omega)
  have e2 := leBytes_append (m := 4) (n := 4) (x := ev + x % 65536 * 2 ^ 16)
    (y := x / 65536 % 65536 + x / 4294967296 * 2 ^ 16) (by omega)
  rw [e1, e2]
  congr 1
  omega

theorem colourBlock_ok {p : Plane} {dmE dmS : DataModel} {E S : List Nat}
    (h : ColourOk p dmE dmS E S) {c s : Nat} (hc : c < E.length) (hs : s < S.length) :
    p.block c s = leBytes 4 (E.getD c 0) ++ leBytes 4 (S.getD s 0) := by
  unfold Plane.block
  rw [h.ends, h.sels, map_getD (leBytes 4) E c 0 [] hc, map_getD (leBytes 4) S s 0 [] hs]

omit [Build] in
theorem alphaBlock_ok {p : Plane} {dmE dmS : DataModel} {E A V : List Nat}
    (h : AlphaOk p dmE dmS E A V) {c s : Nat} (hc : c < E.length) (hs : s < V.length) :
    p.block c s = leBytes 2 (E.getD c 0) ++ leBytes 6 (V.getD s 0) := by
  unfold Plane.block
  rw [h.ends, h.sels, map_getD (leBytes 2) E c 0 [] hc, map_getD (leBytes 6) V s 0 [] hs]

/-! ## The formats -/

variable {buf : List UInt8} {last : Nat}

omit [Build] in
theorem forEach_one {σ α β : Type} {r : σ → α → Reader β} {p : σ} {a : α} {l : List β}
    {bits rest : List Bool} (h : forEach r [p] [a] bits = some (l, rest)) :
    ∃ b, r p a bits = some (b, rest) ∧ l = [b] := by
  unfold forEach at h
  obtain ⟨b, m, h1, h⟩ := reader_bind.mp h
  obtain ⟨bs, m2, h2, h⟩ := reader_bind.mp h
  obtain ⟨rfl, rfl⟩ := reader_pure.mp h
  unfold forEach at h2
  obtain ⟨rfl, rfl⟩ := reader_pure.mp h2
  exact ⟨b, h1, rfl⟩

omit [Build] in
theorem forEach_two {σ α β : Type} {r : σ → α → Reader β} {p q : σ} {a b : α} {l : List β}
    {bits rest : List Bool} (h : forEach r [p, q] [a, b] bits = some (l, rest)) :
    ∃ v v' m, r p a bits = some (v, m) ∧ r q b m = some (v', rest) ∧ l = [v, v'] := by
  unfold forEach at h
  obtain ⟨v, m, h1, h⟩ := reader_bind.mp h
  obtain ⟨bs, m2, h2, h⟩ := reader_bind.mp h
  obtain ⟨rfl, rfl⟩ := reader_pure.mp h
  obtain ⟨v', h3, rfl⟩ := forEach_one h2
  exact ⟨v, v', m, h1, h3, rfl⟩

/-- An index of a palette with `n` entries, or 0. -/
def Inside (n i : Nat) : Prop := i = 0 ∨ i < n

omit [Build] in
theorem Inside.lt {n i : Nat} (h : Inside n i) (hn : 0 < n) : i < n := by
  rcases h with h | h <;> omega

omit [Build] in
theorem Inside.u16 {n i : Nat} (h : Inside n i) (hn : n < 2 ^ 16) : asU 16 i = i := by
  unfold asU
  rcases h with h | h <;> omega

/-- The bytes of a block with the given indices. -/
def bytesOf (planes : List Plane) (order : List Nat) (e s : List Nat) : List UInt8 :=
  blockBytes planes order { endpoint := e, selector := s }

theorem dxt1Kind_ok {u : Unpacker} {colour : Plane} {E S : List Nat}
    (hc : ColourOk colour u.tables.endpoint0 u.tables.selector0 E S) (hE : u.colorEndpoints = E)
    (hS : u.colorSelectors = S) :
    KindOk buf last (dxt1Kind u) [colour.indices] (fun i => [i.c]) (fun t => [t.1])
      (fun i => Inside E.length i.c ∧ i.a0 = 0 ∧ i.a1 = 0) (fun t => t.1 < S.length) 2
      (bytesOf [colour] [0]) where
  zero := ⟨⟨Or.inl rfl, rfl, rfl⟩, rfl⟩
  u16 := by
    rintro ⟨c, a0, a1⟩ ⟨h1, rfl, rfl⟩
    unfold Idx.u16
    rw [h1.u16 hc.endsLt]
    rfl
  fresh := by
    intro i c bits e rest hi h hat
    obtain ⟨v, hv', rfl⟩ := forEach_one h
    have hn : (colour.indices).endpoints = E.length := by simp [Plane.indices, hc.ends]
    obtain ⟨c', e', hc', hv⟩ := nextEndpoint_ok (dm := u.tables.endpoint0)
      (by intro hp; exact hc.endTables (hn ▸ hp)) (by rw [hn]; exact hc.endsLt)
      "Failed to decode DXT1 Texture." hv' hat
    refine ⟨{ i with c := v }, c', ?_, hc', ⟨Or.inr (hn ▸ hv), hi.2⟩, rfl⟩
    show (Model.Crn.Unity.nextEndpoint _ _ u.colorEndpoints.length _ _ >>= _) = _
    rw [hE, ← hn, e', Res.ok_bind]
    rfl
  select := by
    intro c bits s rest h hat
    obtain ⟨v, hv', rfl⟩ := forEach_one h
    have hn : (colour.indices).selectors = S.length := by simp [Plane.indices, hc.sels]
    obtain ⟨c', e', hc', hv⟩ := selector_ok (dm := u.tables.selector0)
      (by intro hp; exact hc.selTables (hn ▸ hp)) "Failed to decode DXT1 Texture." hv' hat
    refine ⟨(v, 0), c', ?_, hc', hn ▸ hv, rfl⟩
    show (selector _ _ _ >>= _) = _
    rw [e', Res.ok_bind]
    rfl
  write := by
    rintro ⟨c, a0, a1⟩ ⟨s, t⟩ pd dst ⟨hi, _⟩ hs hd hl
    simp only at hi hs
    have hcl := hi.lt (hc.nonempty (by omega))
    have hb : bytesOf [colour] [0] [c] [s] = leBytes 4 (E.getD c 0) ++ leBytes 4 (S.getD s 0) := by
      rw [← colourBlock_ok hc hcl hs]
      simp [bytesOf, blockBytes]
    refine ⟨?_, by rw [hb]; simp [leBytes_length]⟩
    rw [hb]
    show (idx u.colorEndpoints c >>= _) = _
    rw [hE, idx_of_some (getElem?_getD hcl), Out.ok_bind, writeInt_ok (by omega) (by omega),
      Out.ok_bind, addU_ok (by omega), Out.ok_bind, hS, idx_of_some (getElem?_getD hs), Out.ok_bind]
    have hlen : (put dst (4 * pd) (leBytes 4 (E.getD c 0))).length = dst.length :=
      put_length (by rw [leBytes_length]; omega)
    rw [writeInt_ok (by omega) (by omega), put_put (by rw [leBytes_length]; omega)
      (by rw [leBytes_length, leBytes_length]; omega)]

theorem dxt5Kind_ok {u : Unpacker} {colour alpha : Plane} {E S E' V : List Nat}
    (hc : ColourOk colour u.tables.endpoint0 u.tables.selector0 E S) (hE : u.colorEndpoints = E)
    (hS : u.colorSelectors = S)
    (ha : AlphaOk alpha u.tables.endpoint1 u.tables.selector1 E' u.alphaSelectors V)
    (hE' : u.alphaEndpoints = E') :
    KindOk buf last (dxt5Kind u) [colour.indices, alpha.indices] (fun i => [i.c, i.a0])
      (fun t => [t.1, t.2])
      (fun i => Inside E.length i.c ∧ Inside E'.length i.a0 ∧ i.a1 = 0)
      (fun t => t.1 < S.length ∧ t.2 < V.length) 4
      (bytesOf [colour, alpha] [1, 0]) where
  zero := ⟨⟨Or.inl rfl, Or.inl rfl, rfl⟩, rfl⟩
  u16 := by
    rintro ⟨c, a0, a1⟩ ⟨h1, h2, rfl⟩
    unfold Idx.u16
    rw [h1.u16 hc.endsLt, h2.u16 ha.endsLt]
    rfl
  fresh := by
    intro i c bits e rest hi h hat
    obtain ⟨v, v', m, h1, h2, rfl⟩ := forEach_two h
    have hn : (colour.indices).endpoints = E.length := by simp [Plane.indices, hc.ends]
    have hn' : (alpha.indices).endpoints = E'.length := by simp [Plane.indices, ha.ends]
    obtain ⟨c1, e1, hc1, hv1⟩ := nextEndpoint_ok (dm := u.tables.endpoint0)
      (by intro hp; exact hc.endTables (hn ▸ hp)) (by rw [hn]; exact hc.endsLt)
      "Failed to decode DXT5 Texture." h1 hat
    obtain ⟨c2, e2, hc2, hv2⟩ := nextEndpoint_ok (dm := u.tables.endpoint1)
      (by intro hp; exact ha.endTables (hn' ▸ hp)) (by rw [hn']; exact ha.endsLt)
      "Failed to decode DXT5 Texture." h2 hc1
    refine ⟨{ i with c := v, a0 := v' }, c2, ?_, hc2, ⟨Or.inr (hn ▸ hv1), Or.inr (hn' ▸ hv2), hi.2.2⟩,
      rfl⟩
    show (Model.Crn.Unity.nextEndpoint _ _ u.colorEndpoints.length _ _ >>= _) = _
    rw [hE, ← hn, e1, Res.ok_bind]
    simp only
    rw [hE', ← hn', e2, Res.ok_bind]
    rfl
  select := by
    intro c bits s rest h hat
    obtain ⟨v, v', m, h1, h2, rfl⟩ := forEach_two h
    have hn : (colour.indices).selectors = S.length := by simp [Plane.indices, hc.sels]
    have hn' : (alpha.indices).selectors = V.length := by simp [Plane.indices, ha.sels]
    obtain ⟨c1, e1, hc1, hv1⟩ := selector_ok (dm := u.tables.selector0)
      (by intro hp; exact hc.selTables (hn ▸ hp)) "Failed to decode DXT5 Texture." h1 hat
    obtain ⟨c2, e2, hc2, hv2⟩ := selector_ok (dm := u.tables.selector1)
      (by intro hp; exact ha.selTables (hn' ▸ hp)) "Failed to decode DXT5 Texture." h2 hc1
    refine ⟨(v, v'), c2, ?_, hc2, ⟨hn ▸ hv1, hn' ▸ hv2⟩, rfl⟩
    show (selector _ _ _ >>= _) = _
    rw [e1, Res.ok_bind]
    simp only
    rw [e2, Res.ok_bind]
    rfl
  write := by
    rintro ⟨c, a0, a1⟩ ⟨s, t⟩ pd dst ⟨hi, hi', _⟩ ⟨hs, ht⟩ hd hl
    simp only at hi hi' hs ht
    have hcl := hi.lt (hc.nonempty (by omega))
    have hal := hi'.lt (ha.nonempty (by omega))
    have hb : bytesOf [colour, alpha] [1, 0] [c, a0] [s, t]
        = leBytes 2 (E'.getD a0 0) ++ leBytes 6 (V.getD t 0) ++ leBytes 4 (E.getD c 0)
          ++ leBytes 4 (S.getD s 0) := by
      rw [List.append_assoc, ← colourBlock_ok hc hcl hs, ← alphaBlock_ok ha hal ht]
      simp [bytesOf, blockBytes]
    have hlt := ha.selsLt
    refine ⟨?_, by rw [hb]; simp [leBytes_length]⟩
    rw [hb]
    show (mulU 64 t 3 >>= _) = _
    rw [mulU_ok (by omega), Out.ok_bind, writeAlphaWords_ok ha.words
      (by rw [hE']; exact getElem?_getD hal) (ha.endsVal _ (getD_mem hal)) ht (Nat.mul_comm _ _)
      (by omega) (by omega), Out.ok_bind]
    have hl1 : (leBytes 2 (E'.getD a0 0) ++ leBytes 6 (V.getD t 0)).length = 8 := by
      simp [leBytes_length]
    generalize leBytes 2 (E'.getD a0 0) ++ leBytes 6 (V.getD t 0) = X at hl1
    have hlen : (put dst (4 * pd) X).length = dst.length := put_length (by omega)
    rw [hE, idx_of_some (getElem?_getD hcl), Out.ok_bind, addU_ok (by omega), Out.ok_bind,
      writeInt_ok (by omega) (by omega),
      put_put (j := 4 * (pd + 2)) (a := X) (by omega) (by rw [leBytes_length]; omega),
      Out.ok_bind, hS, idx_of_some (getElem?_getD hs), Out.ok_bind, addU_ok (by omega), Out.ok_bind]
    have hlen2 : (put dst (4 * pd) (X ++ leBytes 4 (E.getD c 0))).length = dst.length :=
      put_length (by rw [List.length_append, leBytes_length]; omega)
    rw [writeInt_ok (by omega) (by omega),
      put_put (j := 4 * (pd + 3)) (a := X ++ leBytes 4 (E.getD c 0))
        (by rw [List.length_append, leBytes_length]; omega)
        (by rw [List.length_append, leBytes_length, leBytes_length]; omega)]

theorem dxt5aKind_ok {u : Unpacker} {alpha : Plane} {E' V : List Nat}
    (ha : AlphaOk alpha u.tables.endpoint1 u.tables.selector1 E' u.alphaSelectors V)
    (hE' : u.alphaEndpoints = E') :
    KindOk buf last (dxt5aKind u) [alpha.indices] (fun i => [i.a0]) (fun t => [t.1])
      (fun i => i.c = 0 ∧ Inside E'.length i.a0 ∧ i.a1 = 0) (fun t => t.1 < V.length) 2
      (bytesOf [alpha] [0]) where
  zero := ⟨⟨rfl, Or.inl rfl, rfl⟩, rfl⟩
  u16 := by
    rintro ⟨c, a0, a1⟩ ⟨rfl, h2, rfl⟩
    unfold Idx.u16
    rw [h2.u16 ha.endsLt]
    rfl
  fresh := by
    intro i c bits e rest hi h hat
    obtain ⟨v, hv', rfl⟩ := forEach_one h
    have hn' : (alpha.indices).endpoints = E'.length := by simp [Plane.indices, ha.ends]
    obtain ⟨c2, e2, hc2, hv2⟩ := nextEndpoint_ok (dm := u.tables.endpoint1)
      (by intro hp; exact ha.endTables (hn' ▸ hp)) (by rw [hn']; exact ha.endsLt)
      "Failed to decode DXT5A Texture." hv' hat
    refine ⟨{ i with a0 := v }, c2, ?_, hc2, ⟨hi.1, Or.inr (hn' ▸ hv2), hi.2.2⟩, rfl⟩
    show (Model.Crn.Unity.nextEndpoint _ _ u.alphaEndpoints.length _ _ >>= _) = _
    rw [hE', ← hn', e2, Res.ok_bind]
    rfl
  select := by
    intro c bits s rest h hat
    obtain ⟨v, hv', rfl⟩ := forEach_one h
    have hn' : (alpha.indices).selectors = V.length := by simp [Plane.indices, ha.sels]
    obtain ⟨c2, e2, hc2, hv2⟩ := selector_ok (dm := u.tables.selector1)
      (by intro hp; exact ha.selTables (hn' ▸ hp)) "Failed to decode DXT5A Texture." hv' hat
    refine ⟨(v, 0), c2, ?_, hc2, hn' ▸ hv2, rfl⟩
    show (selector _ _ _ >>= _) = _
    rw [e2, Res.ok_bind]
    rfl
  write := by
    rintro ⟨c, a0, a1⟩ ⟨s, t⟩ pd dst ⟨_, hi', _⟩ hs hd hl
    simp only at hi' hs
    have hal := hi'.lt (ha.nonempty (by omega))
    have hb : bytesOf [alpha] [0] [a0] [s]
        = leBytes 2 (E'.getD a0 0) ++ leBytes 6 (V.getD s 0) := by
      rw [← alphaBlock_ok ha hal hs]
      simp [bytesOf, blockBytes]
    have hlt := ha.selsLt
    refine ⟨?_, by rw [hb]; simp [leBytes_length]⟩
    rw [hb]
    show (mulU 64 s 3 >>= _) = _
    rw [mulU_ok (by omega), Out.ok_bind, writeAlphaWords_ok ha.words
      (by rw [hE']; exact getElem?_getD hal) (ha.endsVal _ (getD_mem hal)) hs (Nat.mul_comm _ _)
      (by omega) (by omega)]

theorem dxnKind_ok {u : Unpacker} {alpha : Plane} {E' V : List Nat}
    (ha : AlphaOk alpha u.tables.endpoint1 u.tables.selector1 E' u.alphaSelectors V)
    (hE' : u.alphaEndpoints = E') :
    KindOk buf last (dxnKind u) [alpha.indices, alpha.indices] (fun i => [i.a0, i.a1])
      (fun t => [t.1, t.2])
      (fun i => i.c = 0 ∧ Inside E'.length i.a0 ∧ Inside E'.length i.a1)
      (fun t => t.1 < V.length ∧ t.2 < V.length) 4
      (bytesOf [alpha, alpha] [0, 1]) where
  zero := ⟨⟨rfl, Or.inl rfl, Or.inl rfl⟩, rfl⟩
  u16 := by
    rintro ⟨c, a0, a1⟩ ⟨rfl, h2, h3⟩
    unfold Idx.u16
    rw [h2.u16 ha.endsLt, h3.u16 ha.endsLt]
    rfl
  fresh := by
    intro i c bits e rest hi h hat
    obtain ⟨v, v', m, h1, h2, rfl⟩ := forEach_two h
    have hn' : (alpha.indices).endpoints = E'.length := by simp [Plane.indices, ha.ends]
    obtain ⟨c1, e1, hc1, hv1⟩ := nextEndpoint_ok (dm := u.tables.endpoint1)
      (by intro hp; exact ha.endTables (hn' ▸ hp)) (by rw [hn']; exact ha.endsLt)
      "Failed to decode DXN Texture." h1 hat
    obtain ⟨c2, e2, hc2, hv2⟩ := nextEndpoint_ok (dm := u.tables.endpoint1)
      (by intro hp; exact ha.endTables (hn' ▸ hp)) (by rw [hn']; exact ha.endsLt)
      "Failed to decode DXN Texture." h2 hc1
    refine ⟨{ i with a0 := v, a1 := v' }, c2, ?_, hc2, ⟨hi.1, Or.inr (hn' ▸ hv1), Or.inr (hn' ▸ hv2)⟩,
      rfl⟩
    show (Model.Crn.Unity.nextEndpoint _ _ u.alphaEndpoints.length _ _ >>= _) = _
    rw [hE', ← hn', e1, Res.ok_bind]
    simp only
    rw [e2, Res.ok_bind]
    rfl
  select := by
    intro c bits s rest h hat
    obtain ⟨v, v', m, h1, h2, rfl⟩ := forEach_two h
    have hn' : (alpha.indices).selectors = V.length := by simp [Plane.indices, ha.sels]
    obtain ⟨c1, e1, hc1, hv1⟩ := selector_ok (dm := u.tables.selector1)
      (by intro hp; exact ha.selTables (hn' ▸ hp)) "Failed to decode DXN Texture." h1 hat
    obtain ⟨c2, e2, hc2, hv2⟩ := selector_ok (dm := u.tables.selector1)
      (by intro hp; exact ha.selTables (hn' ▸ hp)) "Failed to decode DXN Texture." h2 hc1
    refine ⟨(v, v'), c2, ?_, hc2, ⟨hn' ▸ hv1, hn' ▸ hv2⟩, rfl⟩
    show (selector _ _ _ >>= _) = _
    rw [e1, Res.ok_bind]
    simp only
    rw [e2, Res.ok_bind]
    rfl
  write := by
    rintro ⟨c, a0, a1⟩ ⟨s, t⟩ pd dst ⟨_, hi, hi'⟩ ⟨hs, ht⟩ hd hl
    simp only at hi hi' hs ht
    have hcl := hi.lt (ha.nonempty (by omega))
    have hal := hi'.lt (ha.nonempty (by omega))
    have hb : bytesOf [alpha, alpha] [0, 1] [a0, a1] [s, t]
        = (leBytes 2 (E'.getD a0 0) ++ leBytes 6 (V.getD s 0))
          ++ (leBytes 2 (E'.getD a1 0) ++ leBytes 6 (V.getD t 0)) := by
      rw [← alphaBlock_ok ha hcl hs, ← alphaBlock_ok ha hal ht]
      simp [bytesOf, blockBytes]
    have hlt := ha.selsLt
    refine ⟨?_, by rw [hb]; simp [leBytes_length]⟩
    rw [hb]
    show (mulU 64 s 3 >>= _) = _
    rw [mulU_ok (by omega), Out.ok_bind, mulU_ok (by omega), Out.ok_bind, writeAlphaWords_ok ha.words
      (by rw [hE']; exact getElem?_getD hcl) (ha.endsVal _ (getD_mem hcl)) hs (Nat.mul_comm _ _)
      (by omega) (by omega), Out.ok_bind, addU_ok (by omega), Out.ok_bind]
    have hl1 : (leBytes 2 (E'.getD a0 0) ++ leBytes 6 (V.getD s 0)).length = 8 := by
      simp [leBytes_length]
    generalize leBytes 2 (E'.getD a0 0) ++ leBytes 6 (V.getD s 0) = X at hl1
    have hlen : (put dst (4 * pd) X).length = dst.length := put_length (by omega)
    have hl2 : (leBytes 2 (E'.getD a1 0) ++ leBytes 6 (V.getD t 0)).length = 8 := by
      simp [leBytes_length]
    rw [writeAlphaWords_ok ha.words
      (by rw [hE']; exact getElem?_getD hal) (ha.endsVal _ (getD_mem hal)) ht (Nat.mul_comm _ _)
      (by omega) (by omega),
      put_put (j := 4 * (pd + 2)) (a := X) (by omega) (by omega)]

end Verif.Proofs.Crn.Unity
