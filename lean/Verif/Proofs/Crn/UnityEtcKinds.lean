import Verif.Proofs.Crn.UnityEtcBlocks

/-!
# Unity's variant of Crunch: the ETC formats with two colours per block
-/

namespace Verif.Proofs.Crn.Unity

open Verif Verif.Model Verif.Model.Crn Verif.Model.Crn.Unity Verif.Spec.Crn Verif.Spec.Crn.Unity

variable [Build]

/-! ## The endpoints of a block -/

omit [Build] in
theorem leBytes4_colour {c : EtcColour} (h : ColourLt c) :
    leBytes4 (storedColour true c) = [c.r, c.g, c.b, c.table] := by
  obtain ⟨r, g, b, t⟩ := c
  obtain ⟨hr, hg, hb, ht⟩ := h
  simp only at hr hg hb ht
  unfold leBytes4 storedColour colourWord word4
  simp only [if_true, and_255, shr_eq]
  rw [show (r + 2 ^ 8 * (g + 2 ^ 8 * (b + 2 ^ 8 * t))) % 256 = r by omega,
    show (r + 2 ^ 8 * (g + 2 ^ 8 * (b + 2 ^ 8 * t))) / 2 ^ 8 % 256 = g by omega,
    show (r + 2 ^ 8 * (g + 2 ^ 8 * (b + 2 ^ 8 * t))) / 2 ^ 16 % 256 = b by omega,
    show (r + 2 ^ 8 * (g + 2 ^ 8 * (b + 2 ^ 8 * t))) / 2 ^ 24 % 256 = t by omega]

omit [Build] in
theorem ite_le_one (p : Prop) [Decidable p] : (if p then 1 else 0) ≤ 1 := by
  split <;> omega

theorem etcDiff_ok {r g b t r' g' b' t' : Nat} (hr : r < 32) (hg : g < 32) (hb : b < 32)
    (hr' : r' < 32) (hg' : g' < 32) (hb' : b' < 32) :
    etcDiff [r, g, b, t] [r', g', b', t']
      = .ok (if (near r r' && near g g' && near b b') = true then 1 else 0) := by
  have step : ∀ x y : Nat, x < 32 → y < 32 → ∀ d : Nat, d ≤ 1 →
      (if d = 0 then pure d else do
        let a3 ← addU 8 x 3
        if ¬ (a3 ≥ y) then pure 0
        else do
          let b4 ← addU 8 y 4
          if ¬ (b4 ≥ x) then pure 0 else pure d : Out Nat)
        = .ok (if d = 1 ∧ near x y = true then 1 else 0) := by
    intro x y hx hy d hd
    by_cases h0 : d = 0
    · rw [if_pos h0, if_neg (by omega), h0]; rfl
    · obtain rfl : d = 1 := by omega
      rw [if_neg h0, addU_ok (by omega), Out.ok_bind, addU_ok (by omega)]
      unfold near
      by_cases h1 : x + 3 ≥ y
      · rw [if_neg (by omega), Out.ok_bind]
        by_cases h2 : y + 4 ≥ x
        · rw [if_neg (by omega), if_pos (by simp; omega)]; rfl
        · rw [if_pos (by omega), if_neg (by simp; omega)]; rfl
      · rw [if_pos (by omega), if_neg (by simp; omega)]; rfl
  have s1 := step r r' hr hr' 1 (by omega)
  have s2 := step g g' hg hg' (if 1 = 1 ∧ near r r' = true then 1 else 0) (ite_le_one _)
  have s3 := step b b' hb hb' (if (if 1 = 1 ∧ near r r' = true then 1 else 0) = 1 ∧ near g g' = true
    then 1 else 0) (ite_le_one _)
  unfold etcDiff
  have hf : ∀ (f : Nat → Nat → Out Nat) (s v0 v1 v2 : Nat), f 0 s = .ok v0 → f 1 v0 = .ok v1 →
      f 2 v1 = .ok v2 → forRange 3 f s = .ok v2 := by
    intro f s v0 v1 v2 h0 h1 h2
    show ((Out.ok s >>= f 0) >>= f 1) >>= f 2 = _
    rw [Out.ok_bind, h0, Out.ok_bind, h1, Out.ok_bind, h2]
  refine (hf _ _ _ _ _ s1 s2 s3).trans (congrArg Out.ok ?_)
  cases near r r' <;> cases near g g' <;> cases near b b' <;> rfl

theorem etcColourByte_ok {a b : Nat} (ha : a < 32) (hb : b < 32) {diff : Bool}
    (hd : diff = true → near a b = true) :
    etcColourByte (if diff = true then 1 else 0) a b
      = .ok (if diff = true then 8 * a + (b + 8 - a) % 8 else 16 * (a / 2) + b / 2) := by
  have key : ∀ (ck diff : Bool) (a b : Fin 32), (diff = true → near a.val b.val = true) →
      @etcColourByte ⟨ck⟩ (if diff = true then 1 else 0) a.val b.val
        = .ok (if diff = true then 8 * a.val + (b.val + 8 - a.val) % 8
          else 16 * (a.val / 2) + b.val / 2) := by
    decide +kernel
  exact key Build.overflowChecks diff ⟨a, ha⟩ ⟨b, hb⟩ hd

theorem etcBlockEndpoint_ok {c c' : EtcColour} (h : ColourLt c) (h' : ColourLt c') {flip : Nat}
    (hf : flip < 2) :
    etcBlockEndpoint [c.r, c.g, c.b, c.table] [c'.r, c'.g, c'.b, c'.table] flip
      = .ok (etcEndpointBytes c c' flip) := by
  obtain ⟨r, g, b, t⟩ := c
  obtain ⟨r', g', b', t'⟩ := c'
  obtain ⟨hr, hg, hb, ht⟩ := h
  obtain ⟨hr', hg', hb', ht'⟩ := h'
  simp only at hr hg hb ht hr' hg' hb' ht' ⊢
  have hlast : ∀ (d : Bool), (t <<< 5 % 2 ^ 8 ||| t' <<< 2 % 2 ^ 8 ||| (if d = true then 1 else 0) <<< 1 % 2 ^ 8
      ||| flip) = 32 * t + 4 * t' + (if d = true then 2 else 0) + flip := by
    intro d
    have key : ∀ (t t' : Fin 8) (f : Fin 2) (d : Bool), (t.val <<< 5 % 2 ^ 8 ||| t'.val <<< 2 % 2 ^ 8
        ||| (if d = true then 1 else 0) <<< 1 % 2 ^ 8 ||| f.val)
        = 32 * t.val + 4 * t'.val + (if d = true then 2 else 0) + f.val := by decide +kernel
    exact key ⟨t, ht⟩ ⟨t', ht'⟩ ⟨flip, hf⟩ d
  unfold etcBlockEndpoint etcEndpointBytes
  rw [etcDiff_ok hr hg hb hr' hg' hb', Out.ok_bind]
  simp only
  have hd : ∀ d, d = (near r r' && near g g' && near b b') →
      (d = true → near r r' = true) ∧ (d = true → near g g' = true) ∧ (d = true → near b b' = true) := by
    rintro d rfl
    simp only [Bool.and_eq_true]
    exact ⟨fun h => h.1.1, fun h => h.1.2, fun h => h.2⟩
  obtain ⟨d1, d2, d3⟩ := hd _ rfl
  generalize (near r r' && near g g' && near b b') = d at *
  have i0 : ∀ x y z w : Nat, idx [x, y, z, w] 0 = .ok x := fun _ _ _ _ => rfl
  have i1 : ∀ x y z w : Nat, idx [x, y, z, w] 1 = .ok y := fun _ _ _ _ => rfl
  have i2 : ∀ x y z w : Nat, idx [x, y, z, w] 2 = .ok z := fun _ _ _ _ => rfl
  have i3 : ∀ x y z w : Nat, idx [x, y, z, w] 3 = .ok w := fun _ _ _ _ => rfl
  rw [i0, Out.ok_bind, i0, Out.ok_bind, etcColourByte_ok hr hr' d1, Out.ok_bind, i1, Out.ok_bind, i1,
    Out.ok_bind, etcColourByte_ok hg hg' d2, Out.ok_bind, i2, Out.ok_bind, i2, Out.ok_bind,
    etcColourByte_ok hb hb' d3, Out.ok_bind, i3, Out.ok_bind, i3, Out.ok_bind,
    shlU_ok (by omega), Out.ok_bind, shlU_ok (by omega), Out.ok_bind, shlU_ok (by omega), Out.ok_bind,
    hlast]
  cases d <;> rfl

theorem writeBytes4_ok {dst : List UInt8} {pd : Nat} {b0 b1 b2 b3 : UInt8} (h : 4 * pd + 4 ≤ dst.length)
    (hl : dst.length < 2 ^ 64) :
    writeBytes4 dst pd [b0, b1, b2, b3] = .ok (put dst (4 * pd) [b0, b1, b2, b3]) := by
  have h0 := b0.toNat_lt
  have h1 := b1.toNat_lt
  have h2 := b2.toNat_lt
  have h3 := b3.toNat_lt
  have hv : ∀ (x y : Nat) (b : UInt8), x % 256 = b.toNat → UInt8.ofNat x = b := by
    intro x _ b hx
    apply UInt8.toNat_inj.mp
    rw [UInt8.toNat_ofNat']
    exact hx
  obtain ⟨v, e0, e1, e2, e3⟩ : ∃ v, UInt8.ofNat v = b0 ∧ UInt8.ofNat (v >>> 8) = b1 ∧
      UInt8.ofNat (v >>> 16) = b2 ∧ UInt8.ofNat (v >>> 24) = b3 := by
    refine ⟨b0.toNat + 2 ^ 8 * (b1.toNat + 2 ^ 8 * (b2.toNat + 2 ^ 8 * b3.toNat)),
      hv _ 0 _ (by omega), hv _ 0 _ (by rw [shr_eq]; omega), hv _ 0 _ (by rw [shr_eq]; omega),
      hv _ 0 _ (by rw [shr_eq]; omega)⟩
  have e : writeBytes4 dst pd [b0, b1, b2, b3] = writeInt dst pd v := by
    unfold writeInt
    rw [e0, e1, e2, e3]
    rfl
  rw [e, writeInt_ok h hl]
  congr 2
  rw [← e0, ← e1, ← e2, ← e3]
  simp [leBytes, Nat.shiftRight_eq_div_pow, List.range_succ]

omit [Build] in
theorem two_flatMap_get {α : Type} (f g : α → Nat) (d : α) :
    ∀ (l : List α) (i b : Nat), i < l.length → b < 2 →
      (l.flatMap fun a => [f a, g a])[2 * i + b]?
        = some (if b = 0 then f (l.getD i d) else g (l.getD i d)) := by
  intro l
  induction l with
  | nil => intro i b hi; simp at hi
  | cons a l ih =>
    intro i b hi hb
    rw [List.flatMap_cons]
    cases i with
    | zero =>
      rcases (show b = 0 ∨ b = 1 by omega) with rfl | rfl <;> rfl
    | succ i =>
      rw [show 2 * (i + 1) + b = 2 * i + b + 2 by omega]
      have := ih i b (by simpa using hi) hb
      simpa using this

/-! ## Colours -/

/-- The palettes and tables of the decoder for the colours of an ETC format with subblocks. -/
structure EtcColourOk (u : Unpacker) (colour : Indices) (cols : List EtcColour)
    (sels : List (List Nat)) : Prop where
  colEnds : u.colorEndpoints = cols.map (storedColour true)
  colSels : u.colorSelectors = sels.flatMap (storedSelectors true)
  endNum : colour.endpoints = cols.length
  selNum : colour.selectors = sels.length
  colLt : ∀ c ∈ cols, ColourLt c
  selOk : ∀ l ∈ sels, l.length = 16 ∧ ∀ v ∈ l, v < 4
  endsLt : cols.length < 2 ^ 16
  selsLt : sels.length < 2 ^ 16
  nonempty : 0 < cols.length
  endTables : TablesOk colour.endpointCode u.tables.endpoint0
  selTables : 0 < sels.length → TablesOk colour.selectorCode u.tables.selector0

variable {u : Unpacker} {colour : Indices} {cols : List EtcColour} {sels : List (List Nat)}

theorem EtcColourOk.num (h : EtcColourOk u colour cols sels) : u.colorEndpoints.length = cols.length := by
  rw [h.colEnds, List.length_map]

theorem EtcColourOk.at (h : EtcColourOk u colour cols sels) {c : Nat} (hc : c < cols.length) :
    ColourLt (cols.getD c {}) ∧ leBytes4 (u.colorEndpoints.getD c 0)
      = [(cols.getD c {}).r, (cols.getD c {}).g, (cols.getD c {}).b, (cols.getD c {}).table] := by
  have hlt : ColourLt (cols.getD c {}) := by
    apply h.colLt
    rw [List.getD_eq_getElem?_getD, List.getElem?_eq_getElem hc]
    exact List.getElem_mem _
  refine ⟨hlt, ?_⟩
  rw [h.colEnds, map_getD (storedColour true) cols c {} 0 hc]
  exact leBytes4_colour hlt

theorem EtcColourOk.selectorAt (h : EtcColourOk u colour cols sels) {s flip : Nat} (hs : s < sels.length)
    (hf : flip < 2) : ∃ v, u.colorSelectors[(s <<< 1) ||| flip]? = some v ∧
      leBytes 4 v = etcSelectorBytes (if flip = 0 then sels.getD s [] else transpose (sels.getD s [])) := by
  have hm : sels.getD s [] ∈ sels := by
    rw [List.getD_eq_getElem?_getD, List.getElem?_eq_getElem hs]
    exact List.getElem_mem _
  obtain ⟨q1, q2⟩ := h.selOk _ hm
  have e : (s <<< 1) ||| flip = 2 * s + flip := by
    rw [shl_eq, mul_or _ (show flip < 2 ^ 1 by omega)]; omega
  refine ⟨if flip = 0 then etcWord (sels.getD s []) else etcWord (transpose (sels.getD s [])), ?_, ?_⟩
  · rw [e, h.colSels]
    exact two_flatMap_get etcWord (fun l => etcWord (transpose l)) [] sels s flip hs hf
  · by_cases h0 : flip = 0
    · rw [if_pos h0, if_pos h0]
      exact (etcWord_bytes q1 q2).1
    · rw [if_neg h0, if_neg h0]
      exact (etcWord_bytes (transpose_length _) (transpose_lt (by omega) q2)).1

variable {buf : List UInt8} {last : Nat}

theorem EtcColourOk.next (h : EtcColourOk u colour cols sels) (msg : String) {i v : Nat} {c : Codec}
    {bits rest : List Bool} (hn : Spec.Crn.Unity.nextEndpoint colour i bits = some (v, rest))
    (hc : At buf last c bits) :
    ∃ c', Model.Crn.Unity.nextEndpoint msg u.tables.endpoint0 u.colorEndpoints.length i c
        = .ok (v, c') ∧ At buf last c' rest ∧ v < u.colorEndpoints.length := by
  rw [h.num, ← h.endNum]
  exact nextEndpoint_ok (fun _ => h.endTables) (by rw [h.endNum]; exact h.endsLt) msg hn hc

theorem writeEtcColour_ok (h : EtcColourOk u colour cols sels) {c c' s flip : Nat} (hc : c < cols.length)
    (hc' : c' < cols.length) (hs : s < sels.length) (hf : flip < 2) {pd : Nat} {dst : List UInt8}
    (hd : 4 * pd + 8 ≤ dst.length) (hl : dst.length < 2 ^ 32) :
    ∃ be v, etcBlockEndpoint (leBytes4 (u.colorEndpoints.getD c 0)) (leBytes4 (u.colorEndpoints.getD c' 0)) flip
        = .ok be ∧ u.colorSelectors[(s <<< 1) ||| flip]? = some v ∧
      be.length = 4 ∧
      (do
        let dst ← writeBytes4 dst pd be
        writeInt dst (pd + 1) v) = .ok (put dst (4 * pd) (be ++ leBytes 4 v)) ∧
      be ++ leBytes 4 v = etcEndpointBytes (cols.getD c {}) (cols.getD c' {}) flip ++
        etcSelectorBytes (if flip = 0 then sels.getD s [] else transpose (sels.getD s [])) := by
  obtain ⟨k1, k2⟩ := h.at hc
  obtain ⟨k3, k4⟩ := h.at hc'
  obtain ⟨v, hv, hvb⟩ := h.selectorAt hs hf
  refine ⟨_, v, by rw [k2, k4]; exact etcBlockEndpoint_ok k1 k3 hf, hv, rfl, ?_, by rw [hvb]⟩
  obtain ⟨b0, b1, b2, b3, hb⟩ : ∃ b0 b1 b2 b3, etcEndpointBytes (cols.getD c {}) (cols.getD c' {}) flip
      = [b0, b1, b2, b3] := ⟨_, _, _, _, rfl⟩
  rw [hb, writeBytes4_ok (by omega) (by omega), Out.ok_bind]
  have hlen : (put dst (4 * pd) [b0, b1, b2, b3]).length = dst.length := put_length (by simp; omega)
  rw [writeInt_ok (by omega) (by omega), put_put (j := 4 * (pd + 1)) (a := [b0, b1, b2, b3])
    (by simp; omega) (by rw [leBytes_length]; simp; omega)]

theorem etcColourBytes_length (h : EtcColourOk u colour cols sels) {c c' s flip : Nat} (hs : s < sels.length)
    (hf : flip < 2) : (etcEndpointBytes (cols.getD c {}) (cols.getD c' {}) flip ++
        etcSelectorBytes (if flip = 0 then sels.getD s [] else transpose (sels.getD s []))).length = 8 := by
  obtain ⟨v, _, hvb⟩ := h.selectorAt hs hf
  rw [← hvb, List.length_append, leBytes_length]
  rfl

theorem etc1Kind_ok (h : EtcColourOk u colour cols sels) :
    EtcKindOk buf last u (etc1Kind u) (etc1Write u) colour [] (fun i => [i.c]) (fun t => [t.1])
      (fun i => i.c < cols.length ∧ i.a0 = 0 ∧ i.a1 = 0) (fun t => t.1 < sels.length) 2
      (etcColourBytes cols sels) where
  zero := ⟨⟨h.nonempty, rfl, rfl⟩, rfl⟩
  u16 := by
    rintro ⟨c, a0, a1⟩ ⟨h1, rfl, rfl⟩
    have hlt := h.endsLt
    simp only at h1
    unfold Idx.u16
    simp only [asU]
    rw [Nat.mod_eq_of_lt (show c < 2 ^ 16 by omega)]
  inside := fun i hi => by rw [h.num]; exact hi.1
  head := fun _ => rfl
  second := fun i v hi hv => ⟨⟨by rw [← h.num]; exact hv, hi.2⟩, rfl⟩
  next := fun i c bits v rest hn hc => h.next _ hn hc
  fresh := by
    intro i c bits e rest hi hn hat
    obtain ⟨v, hv', rfl⟩ := forEach_one hn
    obtain ⟨c', e', hc', hv⟩ := h.next "Failed to decode ETC1 Texture." hv' hat
    refine ⟨{ i with c := v }, c', ?_, hc', ⟨by rw [← h.num]; exact hv, hi.2⟩, rfl⟩
    show (Model.Crn.Unity.nextEndpoint _ _ u.colorEndpoints.length _ _ >>= _) = _
    rw [e', Res.ok_bind]
    rfl
  select := by
    intro c bits s rest hs hat
    obtain ⟨v, hv', rfl⟩ := forEach_one hs
    obtain ⟨c', e', hc', hv⟩ := selector_ok (dm := u.tables.selector0)
      (by intro hp; exact h.selTables (h.selNum ▸ hp)) "Failed to decode ETC1 Texture." hv' hat
    refine ⟨(v, 0), c', ?_, hc', h.selNum ▸ hv, rfl⟩
    show (selector _ _ _ >>= _) = _
    rw [e', Res.ok_bind]
    rfl
  write := by
    rintro ⟨c, a0, a1⟩ ⟨s, t⟩ pd dst ⟨refs, be, sec, flip, bsel⟩ ⟨hi, _⟩ hs hsec rfl rfl hf hd hl
    simp only at hi hs hsec hf ⊢
    rw [h.num] at hsec
    obtain ⟨be, v, q1, q2, q3, q4, q5⟩ := writeEtcColour_ok h hi hsec hs hf (pd := pd) (dst := dst) (by omega) hl
    have hb : etcColourBytes cols sels { refs := refs, endpoint := [c], second := sec, flip := flip, selector := [s] }
        = be ++ leBytes 4 v := q5.symm
    refine ⟨?_, by rw [hb, q5]; exact etcColourBytes_length h hs hf⟩
    rw [hb, ← q4]
    show writeEtcColour u _ _ _ _ _ _ = _
    unfold writeEtcColour
    rw [q1, Out.ok_bind]
    obtain ⟨X, hX⟩ : ∃ X, writeBytes4 dst pd be = .ok X := by
      cases hx : writeBytes4 dst pd be with
      | ok X => exact ⟨X, rfl⟩
      | panic => rw [hx] at q4; simp [Out.panic_bind] at q4
    rw [hX, Out.ok_bind, Out.ok_bind, addU_ok (by omega), Out.ok_bind, idx_of_some q2, Out.ok_bind]

theorem etc2aKind_ok (h : EtcColourOk u colour cols sels) {alpha : Indices} {alphas : List (List UInt8)}
    {E' : List Nat} {asels : List (List Nat)}
    (hE' : u.alphaEndpoints = E') (hends : alphas = E'.map (leBytes 2))
    (hnE : alpha.endpoints = E'.length) (hnS : alpha.selectors = asels.length)
    (hElt : E'.length < 2 ^ 16) (hSlt : asels.length < 2 ^ 16) (hEpos : 0 < E'.length)
    (hval : ∀ v ∈ E', v < 2 ^ 16)
    (hasel : ∀ l ∈ asels, l.length = 16 ∧ ∀ v ∈ l, v < 8)
    (hwords : Words3 u.alphaSelectors
      (asels.flatMap fun l => [swap6 (eacNumber l), swap6 (eacNumber (transpose l))]))
    (hend : TablesOk alpha.endpointCode u.tables.endpoint1)
    (hsel : 0 < asels.length → TablesOk alpha.selectorCode u.tables.selector1) :
    EtcKindOk buf last u (etc2aKind u) (etc2aWrite u) colour [alpha] (fun i => [i.c, i.a0])
      (fun t => [t.1, t.2])
      (fun i => i.c < cols.length ∧ i.a0 < E'.length ∧ i.a1 = 0)
      (fun t => t.1 < sels.length ∧ t.2 < asels.length) 4
      (fun b => eacBytes alphas asels b ++ etcColourBytes cols sels b) where
  zero := ⟨⟨h.nonempty, hEpos, rfl⟩, rfl⟩
  u16 := by
    rintro ⟨c, a0, a1⟩ ⟨h1, h2, rfl⟩
    have hlt := h.endsLt
    simp only at h1 h2
    unfold Idx.u16
    simp only [asU]
    rw [Nat.mod_eq_of_lt (show c < 2 ^ 16 by omega), Nat.mod_eq_of_lt (show a0 < 2 ^ 16 by omega)]
  inside := fun i hi => by rw [h.num]; exact hi.1
  head := fun _ => rfl
  second := fun i v hi hv => ⟨⟨by rw [← h.num]; exact hv, hi.2⟩, rfl⟩
  next := fun i c bits v rest hn hc => h.next _ hn hc
  fresh := by
    intro i c bits e rest hi hn hat
    obtain ⟨v, v', m, h1, h2, rfl⟩ := forEach_two hn
    obtain ⟨c1, e1, hc1, hv1⟩ := h.next "Failed to decode ETC2 Texture." h1 hat
    obtain ⟨c2, e2, hc2, hv2⟩ := nextEndpoint_ok (dm := u.tables.endpoint1)
      (fun _ => hend) (by rw [hnE]; exact hElt) "Failed to decode ETC2 Texture." h2 hc1
    refine ⟨{ i with c := v, a0 := v' }, c2, ?_, hc2, ⟨by rw [← h.num]; exact hv1, hnE ▸ hv2, hi.2.2⟩, rfl⟩
    show (Model.Crn.Unity.nextEndpoint _ _ u.colorEndpoints.length _ _ >>= _) = _
    rw [e1, Res.ok_bind]
    simp only
    rw [hE', ← hnE, e2, Res.ok_bind]
    rfl
  select := by
    intro c bits s rest hs hat
    obtain ⟨v, v', m, h1, h2, rfl⟩ := forEach_two hs
    obtain ⟨c1, e1, hc1, hv1⟩ := selector_ok (dm := u.tables.selector0)
      (by intro hp; exact h.selTables (h.selNum ▸ hp)) "Failed to decode ETC2 Texture." h1 hat
    obtain ⟨c2, e2, hc2, hv2⟩ := selector_ok (dm := u.tables.selector1)
      (by intro hp; exact hsel (hnS ▸ hp)) "Failed to decode ETC2 Texture." h2 hc1
    refine ⟨(v, v'), c2, ?_, hc2, ⟨h.selNum ▸ hv1, hnS ▸ hv2⟩, rfl⟩
    show (selector _ _ _ >>= _) = _
    rw [e1, Res.ok_bind]
    simp only
    rw [e2, Res.ok_bind]
    rfl
  write := by
    rintro ⟨c, a0, a1⟩ ⟨s, t⟩ pd dst ⟨refs, be, sec, flip, bsel⟩ ⟨hi, hia, _⟩ ⟨hs, ht⟩ hsec rfl rfl hf hd hl
    simp only at hi hia hs ht hsec hf ⊢
    rw [h.num] at hsec
    have hm : asels.getD t [] ∈ asels := by
      rw [List.getD_eq_getElem?_getD, List.getElem?_eq_getElem ht]
      exact List.getElem_mem _
    obtain ⟨w1, w2⟩ := hasel _ hm
    have hV := two_flatMap_get (fun l => swap6 (eacNumber l)) (fun l => swap6 (eacNumber (transpose l))) []
      asels t flip ht hf
    have hVlen : 2 * t + flip < (asels.flatMap fun l => [swap6 (eacNumber l), swap6 (eacNumber (transpose l))]).length := by
      rw [two_flatMap_length]; omega
    have hV' : leBytes 6 ((asels.flatMap fun l => [swap6 (eacNumber l), swap6 (eacNumber (transpose l))]).getD
        (2 * t + flip) 0) = eacSelectorBytes (if flip = 0 then asels.getD t [] else transpose (asels.getD t [])) := by
      rw [List.getD_eq_getElem?_getD, hV, Option.getD_some]
      by_cases h0 : flip = 0
      · rw [if_pos h0, if_pos h0]
        exact eac_bytes w1 w2
      · rw [if_neg h0, if_neg h0]
        exact eac_bytes (transpose_length _) (transpose_lt (by omega) w2)
    have halpha : eacBytes alphas asels { refs := refs, endpoint := [c, a0], second := sec, flip := flip, selector := [s, t] }
        = leBytes 2 (E'.getD a0 0) ++ leBytes 6 ((asels.flatMap fun l => [swap6 (eacNumber l), swap6 (eacNumber (transpose l))]).getD
        (2 * t + flip) 0) := by
      rw [hV']
      unfold eacBytes
      simp only
      rw [hends, show ([c, a0] : List Nat).getD 1 0 = a0 from rfl, map_getD (leBytes 2) E' a0 0 [] hia]
      rfl
    have hwa := writeAlphaWords_ok hwords (u := u) (e := a0) (ev := E'.getD a0 0) (p := 2 * t + flip)
      (f := 3 * (2 * t + flip)) (pd := pd) (by rw [hE']; exact getElem?_getD hia) (hval _ (getD_mem hia))
      hVlen rfl (dst := dst) (by omega) (by omega)
    rw [← halpha] at hwa
    have hl1 : (eacBytes alphas asels { refs := refs, endpoint := [c, a0], second := sec, flip := flip, selector := [s, t] }).length = 8 := by
      rw [halpha]; simp [leBytes_length]
    generalize eacBytes alphas asels { refs := refs, endpoint := [c, a0], second := sec, flip := flip, selector := [s, t] } = A at hwa hl1 halpha
    have hlen : (put dst (4 * pd) A).length = dst.length := put_length (by omega)
    obtain ⟨be, v, q1, q2, q3, q4, q5⟩ := writeEtcColour_ok h hi hsec hs hf (pd := pd + 2)
      (dst := put dst (4 * pd) A) (by omega) (by omega)
    have hb : etcColourBytes cols sels { refs := refs, endpoint := [c, a0], second := sec, flip := flip, selector := [s, t] }
        = be ++ leBytes 4 v := q5.symm
    have hl2 : (be ++ leBytes 4 v).length = 8 := by rw [q5]; exact etcColourBytes_length h hs hf
    rw [hb]
    refine ⟨?_, by rw [List.length_append]; omega⟩
    rw [put_put (j := 4 * (pd + 2)) (a := A) (by omega) (by omega)] at q4
    rw [← q4]
    show etc2aWrite u _ _ _ _ _ _ _ = _
    have hff : (if flip ≠ 0 then addU 64 (t * 6) 3 else pure (t * 6) : Out Nat)
        = .ok (3 * (2 * t + flip)) := by
      by_cases h0 : flip = 0
      · rw [if_neg (by omega)]
        exact congrArg Out.ok (by omega)
      · rw [if_pos h0, addU_ok (by omega)]
        exact congrArg Out.ok (by omega)
    obtain ⟨X, hX⟩ : ∃ X, writeBytes4 (put dst (4 * pd) A) (pd + 2) be = .ok X := by
      cases hx : writeBytes4 (put dst (4 * pd) A) (pd + 2) be with
      | ok X => exact ⟨X, rfl⟩
      | panic => rw [hx] at q4; simp [Out.panic_bind] at q4
    unfold etc2aWrite
    simp only
    rw [q1, Out.ok_bind, mulU_ok (by omega), Out.ok_bind, hff, Out.ok_bind, hwa, Out.ok_bind, addU_ok (by omega), Out.ok_bind, hX,
      Out.ok_bind, Out.ok_bind, addU_ok (by omega), Out.ok_bind, idx_of_some q2, Out.ok_bind]

end Verif.Proofs.Crn.Unity
