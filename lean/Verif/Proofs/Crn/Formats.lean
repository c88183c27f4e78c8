import Verif.Proofs.Crn.Chunks

/-!
# The chunks of the four formats
-/

namespace Verif.Proofs.Crn

open Verif Verif.Model Verif.Model.Crn Verif.Spec.Crn

variable [Build]

/-! ## One or two planes -/

omit [Build] in
theorem forPlanes_one {α β : Type} {r : Plane → α → Reader β} {p : Plane} {a : α} {l : List β}
    {bits rest : List Bool} (h : forPlanes r [p] [a] bits = some (l, rest)) :
    ∃ b, r p a bits = some (b, rest) ∧ l = [b] := by
  unfold forPlanes at h
  obtain ⟨b, m, h1, h⟩ := reader_bind.mp h
  obtain ⟨t, m', h2, h⟩ := reader_bind.mp h
  obtain ⟨rfl, rfl⟩ := reader_pure.mp h
  unfold forPlanes at h2
  obtain ⟨rfl, rfl⟩ := reader_pure.mp h2
  exact ⟨b, h1, rfl⟩

omit [Build] in
theorem forPlanes_two {α β : Type} {r : Plane → α → Reader β} {p p' : Plane} {a a' : α} {l : List β}
    {bits rest : List Bool} (h : forPlanes r [p, p'] [a, a'] bits = some (l, rest)) :
    ∃ b b' mid, r p a bits = some (b, mid) ∧ r p' a' mid = some (b', rest) ∧ l = [b, b'] := by
  unfold forPlanes at h
  obtain ⟨b, m, h1, h⟩ := reader_bind.mp h
  obtain ⟨t, m', h2, h⟩ := reader_bind.mp h
  obtain ⟨rfl, rfl⟩ := reader_pure.mp h
  obtain ⟨b', h3, rfl⟩ := forPlanes_one h2
  exact ⟨b, b', m, h1, h3, rfl⟩

/-- A block of the specification. -/
def blkOf (planes : List Plane) (enc : Nat) (es : List (List Nat)) (q : Nat) (ss : List Nat) :
    List UInt8 :=
  (List.range planes.length).flatMap fun i =>
    (planes.getD i ⟨[], [], [], []⟩).block ((es.getD i []).getD (tileOf enc q) 0) (ss.getD i 0)

omit [Build] in
theorem blkOf_one (p : Plane) (enc q : Nat) (l : List Nat) (s : Nat) :
    blkOf [p] enc [l] q [s] = p.block (l.getD (tileOf enc q) 0) s := by
  simp [blkOf]

omit [Build] in
theorem blkOf_two (p p' : Plane) (enc q : Nat) (l l' : List Nat) (s s' : Nat) :
    blkOf [p, p'] enc [l, l'] q [s, s']
      = p.block (l.getD (tileOf enc q) 0) s ++ p'.block (l'.getD (tileOf enc q) 0) s' := by
  simp [blkOf, List.range_succ]

/-- The endpoints of the tiles. -/
def EndsFor (E l : List Nat) (n : Nat) (ends : List Nat) : Prop :=
  ∀ t, t < n → ends[t]? = some (E.getD (l.getD t 0) 0) ∧ l.getD t 0 < E.length

/-- The tiles of the blocks. -/
def TilesFor (enc : Nat) (tiles : List Nat) : Prop :=
  ∀ q, q < 4 → tiles[q]? = some (tileOf enc q) ∧ tileOf enc q < tileCount enc

omit [Build] in
theorem AlphaPlaneOk.block {p : Plane} {dmE dmS : DataModel} {E S : List Nat}
    (hp : AlphaPlaneOk p dmE dmS E S) {e s : Nat} (he : e < E.length) (hs : s < S.length) :
    p.block e s = leBytes 2 (E.getD e 0) ++ leBytes 6 (S.getD s 0) := by
  unfold Plane.block
  rw [hp.ends, hp.sels, map_getD _ _ _ 0 _ he, map_getD _ _ _ 0 _ hs]

omit [Build] in
theorem ColourPlaneOk.block {p : Plane} {dmE dmS : DataModel} {E S : List Nat}
    (hp : ColourPlaneOk p dmE dmS E S) {e s : Nat} (he : e < E.length) (hs : s < S.length) :
    p.block e s = leBytes 4 (E.getD e 0) ++ leBytes 4 (S.getD s 0) := by
  unfold Plane.block
  rw [hp.ends, hp.sels, map_getD _ _ _ 0 _ he, map_getD _ _ _ 0 _ hs]

omit [Build] in
theorem dst_room {B : Nat} {bl : List (List UInt8)} {n : Nat} {dst : List UInt8}
    (hd : dst = bl.flatten) (hl : ∀ x ∈ bl, x.length = B) (hn : n < bl.length) :
    dst.length = B * bl.length ∧ B * n + B ≤ dst.length := by
  have h := flatten_len hl
  have h2 : B * (n + 1) ≤ B * bl.length := Nat.mul_le_mul_left _ hn
  rw [Nat.mul_succ] at h2
  rw [hd, h]
  exact ⟨rfl, h2⟩

/-! ## DXT5A -/

theorem dxt5a_step {buf : List UInt8} {last : Nat} {u : Unpacker} {p : Plane} {dmE : DataModel}
    {E S : List Nat} (hp : AlphaPlaneOk p dmE u.tables.selector1 E S)
    (hu : u.alphaSelectors = S.flatMap words3) (hnum : u.header.alphaSelectors.num = S.length)
    {enc : Nat} {l ends tiles : List Nat} (he : EndsFor E l (tileCount enc) ends)
    (ht : TilesFor enc tiles) :
    BlockStep buf last [p] 1 8 (dxt5aBlock u ends tiles) (blkOf [p] enc [l]) := by
  intro q n visible st bits rest ss bl hq h hc hd hl hv hsz
  obtain ⟨s, h1, rfl⟩ := forPlanes_one h
  have hlen : p.selectors.length = S.length := by rw [hp.sels, List.length_map]
  rw [hlen] at h1
  obtain ⟨c', e', hc', hs⟩ := nextIndex_ok hp.selTables hp.selsLt msgDxt5a h1 hc
  obtain ⟨t1, t2⟩ := ht q hq
  obtain ⟨g1, g2⟩ := he _ t2
  have hb : blkOf [p] enc [l] q [s] = leBytes 2 (E.getD (l.getD (tileOf enc q) 0) 0)
      ++ leBytes 6 (S.getD s 0) := by rw [blkOf_one, hp.block g2 hs]
  have hbl : (blkOf [p] enc [l] q [s]).length = 8 := by
    rw [hb, List.length_append, leBytes_length, leBytes_length]
  have hstep : dxt5aBlock u ends tiles q visible (8 / 4 * n) st = (if visible then do
      let dst ← writeAlpha u (E.getD (l.getD (tileOf enc q) 0) 0) s (8 / 4 * n) st.dst
      pure { st with codec := c', s0 := s, dst }
    else pure { st with codec := c', s0 := s }) := by
    unfold dxt5aBlock
    rw [hnum, e', Res.ok_bind]
    simp only
    rw [idx_of_some t1, Res.lift_ok, Res.ok_bind, idx_of_some g1, Res.lift_ok, Res.ok_bind]
  cases visible with
  | false => exact ⟨_, hstep, hc', rfl, ⟨rfl, rfl, rfl⟩, hbl, hd⟩
  | true =>
    obtain ⟨r1, r2⟩ := dst_room hd hl (hv rfl)
    have hw := writeAlpha_ok hu hp.selsLt hp.selsVal (hp.endsVal _ (getD_mem g2)) hs
      (pd := 8 / 4 * n) (dst := st.dst) (by omega) (by omega)
    rw [← hb, hd, show 4 * (8 / 4 * n) = 8 * n by omega, put_flatten hl hbl (hv rfl), ← hd] at hw
    refine ⟨{ st with codec := c', s0 := s, dst := _ }, ?_, hc', rfl, ⟨rfl, rfl, rfl⟩, hbl, rfl⟩
    rw [hstep, if_pos rfl, hw, Res.lift_ok, Res.ok_bind]
    rfl

/-! ## DXT5 -/

theorem dxt5_step {buf : List UInt8} {last : Nat} {u : Unpacker} {p p' : Plane}
    {dmE dmE' : DataModel} {E S E' S' : List Nat} (hp : AlphaPlaneOk p dmE u.tables.selector1 E S)
    (hp' : ColourPlaneOk p' dmE' u.tables.selector0 E' S')
    (hu : u.alphaSelectors = S.flatMap words3) (hnum : u.header.alphaSelectors.num = S.length)
    (hu' : u.colorSelectors = S') {enc : Nat} {l l' ends ends' tiles : List Nat}
    (he : EndsFor E l (tileCount enc) ends) (he' : EndsFor E' l' (tileCount enc) ends')
    (ht : TilesFor enc tiles) :
    BlockStep buf last [p, p'] 2 16 (dxt5Block u ends ends' tiles) (blkOf [p, p'] enc [l, l']) := by
  intro q n visible st bits rest ss bl hq h hc hd hl hv hsz
  obtain ⟨s, s', mid, h1, h2, rfl⟩ := forPlanes_two h
  have hlen : p.selectors.length = S.length := by rw [hp.sels, List.length_map]
  have hlen' : p'.selectors.length = S'.length := by rw [hp'.sels, List.length_map]
  rw [hlen] at h1
  rw [hlen'] at h2
  obtain ⟨c1, e1, hc1, hs⟩ := nextIndex_ok hp.selTables hp.selsLt msgDxt5 h1 hc
  obtain ⟨c2, e2, hc2, hs'⟩ := nextIndex_ok hp'.selTables hp'.selsLt msgDxt5 h2 hc1
  obtain ⟨t1, t2⟩ := ht q hq
  obtain ⟨g1, g2⟩ := he _ t2
  obtain ⟨g1', g2'⟩ := he' _ t2
  have hb : blkOf [p, p'] enc [l, l'] q [s, s'] = leBytes 2 (E.getD (l.getD (tileOf enc q) 0) 0)
      ++ leBytes 6 (S.getD s 0) ++ leBytes 4 (E'.getD (l'.getD (tileOf enc q) 0) 0)
      ++ leBytes 4 (S'.getD s' 0) := by
    rw [blkOf_two, hp.block g2 hs, hp'.block g2' hs', List.append_assoc, List.append_assoc,
      List.append_assoc]
  have hbl : (blkOf [p, p'] enc [l, l'] q [s, s']).length = 16 := by
    rw [hb]
    simp only [List.length_append, leBytes_length]
  have hS' : asU 32 S'.length = S'.length := by
    have := hp'.selsLt
    unfold asU
    omega
  cases visible with
  | false =>
    refine ⟨{ st with codec := c2, s0 := s, s1 := s' }, ?_, hc2, rfl, ⟨rfl, rfl, rfl⟩, hbl, hd⟩
    unfold dxt5Block
    rw [hnum, e1, Res.ok_bind]
    simp only
    rw [hu', hS', e2, Res.ok_bind]
    rfl
  | true =>
    obtain ⟨r1, r2⟩ := dst_room hd hl (hv rfl)
    have hw := writeAlpha_ok hu hp.selsLt hp.selsVal (hp.endsVal _ (getD_mem g2)) hs
      (pd := 16 / 4 * n) (dst := st.dst) (by omega) (by omega)
    refine ⟨{ st with codec := c2, s0 := s, s1 := s', dst := (bl.set n _).flatten }, ?_, hc2, rfl,
      ⟨rfl, rfl, rfl⟩, hbl, rfl⟩
    unfold dxt5Block
    rw [hnum, e1, Res.ok_bind]
    simp only
    rw [hu', hS', e2, Res.ok_bind]
    simp only
    rw [if_pos trivial, idx_of_some t1, Res.lift_ok, Res.ok_bind, idx_of_some g1, Res.lift_ok, Res.ok_bind,
      hw, Res.lift_ok, Res.ok_bind, idx_of_some g1', Res.lift_ok, Res.ok_bind, addU_ok (by omega),
      Res.lift_ok, Res.ok_bind]
    have q1 := put_length (l := st.dst) (i := 4 * (16 / 4 * n))
      (b := leBytes 2 (E.getD (l.getD (tileOf enc q) 0) 0) ++ leBytes 6 (S.getD s 0))
      (by rw [List.length_append, leBytes_length, leBytes_length]; omega)
    rw [writeInt_ok (by omega) (by omega), Res.lift_ok, Res.ok_bind, idx_of_some (getElem?_getD hs'),
      Res.lift_ok, Res.ok_bind, addU_ok (by omega), Res.lift_ok, Res.ok_bind,
      put_put (i := 4 * (16 / 4 * n)) (by rw [List.length_append, leBytes_length, leBytes_length]; omega)
        (by simp only [List.length_append, leBytes_length]; omega)]
    have q2 := put_length (l := st.dst) (i := 4 * (16 / 4 * n))
      (b := leBytes 2 (E.getD (l.getD (tileOf enc q) 0) 0) ++ leBytes 6 (S.getD s 0)
        ++ leBytes 4 (E'.getD (l'.getD (tileOf enc q) 0) 0))
      (by simp only [List.length_append, leBytes_length]; omega)
    rw [writeInt_ok (by omega) (by omega), Res.lift_ok, Res.ok_bind,
      put_put (i := 4 * (16 / 4 * n)) (by simp only [List.length_append, leBytes_length]; omega)
        (by simp only [List.length_append, leBytes_length]; omega), ← hb, hd,
      show 4 * (16 / 4 * n) = 16 * n by omega, put_flatten hl hbl (hv rfl)]
    rfl

/-! ## DXN -/

theorem dxn_step {buf : List UInt8} {last : Nat} {u : Unpacker} {p : Plane} {dmE : DataModel}
    {E S : List Nat} (hp : AlphaPlaneOk p dmE u.tables.selector1 E S)
    (hu : u.alphaSelectors = S.flatMap words3) (hnum : u.header.alphaSelectors.num = S.length)
    {enc : Nat} {l l' ends ends' tiles : List Nat} (he : EndsFor E l (tileCount enc) ends)
    (he' : EndsFor E l' (tileCount enc) ends') (ht : TilesFor enc tiles) :
    BlockStep buf last [p, p] 2 16 (dxnBlock u ends ends' tiles) (blkOf [p, p] enc [l, l']) := by
  intro q n visible st bits rest ss bl hq h hc hd hl hv hsz
  obtain ⟨s, s', mid, h1, h2, rfl⟩ := forPlanes_two h
  have hlen : p.selectors.length = S.length := by rw [hp.sels, List.length_map]
  rw [hlen] at h1 h2
  obtain ⟨c1, e1, hc1, hs⟩ := nextIndex_ok hp.selTables hp.selsLt msgDxn h1 hc
  obtain ⟨c2, e2, hc2, hs'⟩ := nextIndex_ok hp.selTables hp.selsLt msgDxn h2 hc1
  obtain ⟨t1, t2⟩ := ht q hq
  obtain ⟨g1, g2⟩ := he _ t2
  obtain ⟨g1', g2'⟩ := he' _ t2
  have hb : blkOf [p, p] enc [l, l'] q [s, s'] = leBytes 2 (E.getD (l.getD (tileOf enc q) 0) 0)
      ++ leBytes 6 (S.getD s 0) ++ (leBytes 2 (E.getD (l'.getD (tileOf enc q) 0) 0)
      ++ leBytes 6 (S.getD s' 0)) := by
    rw [blkOf_two, hp.block g2 hs, hp.block g2' hs']
  have hbl : (blkOf [p, p] enc [l, l'] q [s, s']).length = 16 := by
    rw [hb]
    simp only [List.length_append, leBytes_length]
  cases visible with
  | false =>
    refine ⟨{ st with codec := c2, s0 := s, s1 := s' }, ?_, hc2, rfl, ⟨rfl, rfl, rfl⟩, hbl, hd⟩
    unfold dxnBlock
    rw [hnum, e1, Res.ok_bind]
    simp only
    rw [e2, Res.ok_bind]
    rfl
  | true =>
    obtain ⟨r1, r2⟩ := dst_room hd hl (hv rfl)
    have hw := writeAlpha_ok hu hp.selsLt hp.selsVal (hp.endsVal _ (getD_mem g2)) hs
      (pd := 16 / 4 * n) (dst := st.dst) (by omega) (by omega)
    have q1 := put_length (l := st.dst) (i := 4 * (16 / 4 * n))
      (b := leBytes 2 (E.getD (l.getD (tileOf enc q) 0) 0) ++ leBytes 6 (S.getD s 0))
      (by rw [List.length_append, leBytes_length, leBytes_length]; omega)
    have hw' := writeAlpha_ok hu hp.selsLt hp.selsVal (hp.endsVal _ (getD_mem g2')) hs'
      (pd := 16 / 4 * n + 2) (dst := put st.dst (4 * (16 / 4 * n))
        (leBytes 2 (E.getD (l.getD (tileOf enc q) 0) 0) ++ leBytes 6 (S.getD s 0)))
      (by omega) (by omega)
    refine ⟨{ st with codec := c2, s0 := s, s1 := s', dst := (bl.set n _).flatten }, ?_, hc2, rfl,
      ⟨rfl, rfl, rfl⟩, hbl, rfl⟩
    unfold dxnBlock
    rw [hnum, e1, Res.ok_bind]
    simp only
    rw [e2, Res.ok_bind]
    simp only
    rw [if_pos trivial, idx_of_some t1, Res.lift_ok, Res.ok_bind, idx_of_some g1, Res.lift_ok, Res.ok_bind,
      hw, Res.lift_ok, Res.ok_bind, idx_of_some g1', Res.lift_ok, Res.ok_bind, addU_ok (by omega),
      Res.lift_ok, Res.ok_bind, hw', Res.lift_ok, Res.ok_bind,
      put_put (i := 4 * (16 / 4 * n)) (by simp only [List.length_append, leBytes_length]; omega)
        (by simp only [List.length_append, leBytes_length]; omega), ← hb, hd,
      show 4 * (16 / 4 * n) = 16 * n by omega, put_flatten hl hbl (hv rfl)]
    rfl

/-! ## DXT1 -/

/-- One block of DXT1, on either path. -/
def dxt1Either (u : Unpacker) (ends tiles : List Nat) (q : Nat) (visible : Bool) (pd : Nat)
    (st : LevelState) : Res LevelState := do
  let (p, codec) ← nextIndex msgDxt1 u.tables.selector0 (asU 32 u.colorSelectors.length) st.s0
    st.codec
  if visible then do
    let t ← idx tiles q
    let e ← idx ends t
    let dst ← writeInt st.dst pd e
    let s ← idx u.colorSelectors p
    let pd1 ← addU 64 pd 1
    let dst ← writeInt dst pd1 s
    pure { st with codec, s0 := p, dst }
  else pure { st with codec, s0 := p }

theorem dxt1_step {buf : List UInt8} {last : Nat} {u : Unpacker} {p : Plane} {dmE : DataModel}
    {E S : List Nat} (hp : ColourPlaneOk p dmE u.tables.selector0 E S) (hu : u.colorSelectors = S)
    {enc : Nat} {l ends tiles : List Nat} (he : EndsFor E l (tileCount enc) ends)
    (ht : TilesFor enc tiles) :
    BlockStep buf last [p] 1 8 (dxt1Either u ends tiles) (blkOf [p] enc [l]) := by
  intro q n visible st bits rest ss bl hq h hc hd hl hv hsz
  obtain ⟨s, h1, rfl⟩ := forPlanes_one h
  have hlen : p.selectors.length = S.length := by rw [hp.sels, List.length_map]
  rw [hlen] at h1
  obtain ⟨c', e', hc', hs⟩ := nextIndex_ok hp.selTables hp.selsLt msgDxt1 h1 hc
  obtain ⟨t1, t2⟩ := ht q hq
  obtain ⟨g1, g2⟩ := he _ t2
  have hb : blkOf [p] enc [l] q [s] = leBytes 4 (E.getD (l.getD (tileOf enc q) 0) 0)
      ++ leBytes 4 (S.getD s 0) := by rw [blkOf_one, hp.block g2 hs]
  have hbl : (blkOf [p] enc [l] q [s]).length = 8 := by
    rw [hb, List.length_append, leBytes_length, leBytes_length]
  have hS : asU 32 S.length = S.length := by
    have := hp.selsLt
    unfold asU
    omega
  cases visible with
  | false =>
    refine ⟨{ st with codec := c', s0 := s }, ?_, hc', rfl, ⟨rfl, rfl, rfl⟩, hbl, hd⟩
    unfold dxt1Either
    rw [hu, hS, e', Res.ok_bind]
    rfl
  | true =>
    obtain ⟨r1, r2⟩ := dst_room hd hl (hv rfl)
    have q1 := put_length (l := st.dst) (i := 4 * (8 / 4 * n))
      (b := leBytes 4 (E.getD (l.getD (tileOf enc q) 0) 0)) (by rw [leBytes_length]; omega)
    refine ⟨{ st with codec := c', s0 := s, dst := (bl.set n _).flatten }, ?_, hc', rfl,
      ⟨rfl, rfl, rfl⟩, hbl, rfl⟩
    unfold dxt1Either
    rw [hu, hS, e', Res.ok_bind]
    simp only
    rw [if_pos trivial, idx_of_some t1, Res.lift_ok, Res.ok_bind, idx_of_some g1, Res.lift_ok, Res.ok_bind,
      writeInt_ok (by omega) (by omega), Res.lift_ok, Res.ok_bind, idx_of_some (getElem?_getD hs),
      Res.lift_ok, Res.ok_bind, addU_ok (by omega), Res.lift_ok, Res.ok_bind,
      writeInt_ok (by omega) (by omega), Res.lift_ok, Res.ok_bind,
      put_put (i := 4 * (8 / 4 * n)) (by simp only [leBytes_length]; omega)
        (by simp only [leBytes_length]; omega), ← hb, hd,
      show 4 * (8 / 4 * n) = 8 * n by omega, put_flatten hl hbl (hv rfl)]
    rfl

/-- The order of reading and writing does not matter when all goes well. -/
theorem dxt1Block_ok {u : Unpacker} {ends tiles : List Nat} {q pd : Nat} {st st' : LevelState}
    (h : dxt1Either u ends tiles q true pd st = .ok st') : dxt1Block u ends tiles q pd st = .ok st' := by
  unfold dxt1Either at h
  obtain ⟨⟨p, codec⟩, h1, h⟩ := Res.bind_eq_ok.mp h
  simp only at h
  rw [if_pos trivial] at h
  obtain ⟨t, h2, h⟩ := Res.bind_eq_ok.mp h
  obtain ⟨e, h3, h⟩ := Res.bind_eq_ok.mp h
  obtain ⟨dst, h4, h⟩ := Res.bind_eq_ok.mp h
  unfold dxt1Block
  rw [h2, Res.ok_bind, h3, Res.ok_bind, h4, Res.ok_bind, h1, Res.ok_bind]
  exact h

theorem dxt1Skip_eq {u : Unpacker} {ends tiles : List Nat} {sr sb : Bool} {bx b pd : Nat}
    {st : LevelState} : dxt1Skip u ends tiles sr sb bx b pd st
      = dxt1Either u ends tiles (bx + b * 2) (!(bx ≠ 0 && sr || b ≠ 0 && sb)) pd st := by
  unfold dxt1Skip dxt1Either
  congr 1
  funext x
  obtain ⟨p, codec⟩ := x
  simp only
  by_cases hbx : bx = 0 <;> by_cases hb : b = 0 <;> cases sr <;> cases sb <;> simp [hbx, hb]

theorem dxt1Full_ok {buf : List UInt8} {last : Nat} {u : Unpacker} {planes : List Plane}
    {ends tiles : List Nat} {blk : Nat → List Nat → List UInt8}
    (step : BlockStep buf last planes 1 8 (dxt1Either u ends tiles) blk) {z : LevelSize}
    {nx : Nat} (hz : z.pitch = 8 * nx) {n : Nat} {st : LevelState}
    {bits rest : List Bool} {ss : List (List Nat)} {bl : List (List UInt8)}
    (h : scan (readSels planes) 4 (selsOf 1 st) bits = some (ss, rest))
    (hc : At buf last st.codec bits) (hd : st.dst = bl.flatten) (hl : ∀ x ∈ bl, x.length = 8)
    (hi : Inside 8 nx false false n bl.length) :
    BlocksDone buf last 1 8 nx false false n blk ss rest bl st
      (dxt1Full u z ends tiles ((8 * n) >>> 2) st) := by
  obtain ⟨s0, s1, s2, s3, e0, e1, e2, e3, done⟩ := fourSteps step h hc hd hl hi
  suffices hr : dxt1Full u z ends tiles ((8 * n) >>> 2) st = .ok s3 by rw [hr]; exact done
  have hi0 := hi.b0
  have big := hi.big
  unfold dxt1Full
  rw [(size_parts (Or.inl rfl) n).2, dxt1Block_ok e0, Res.ok_bind, addU_ok (by omega), Res.lift_ok,
    Res.ok_bind, show 8 / 4 * n + 2 = 8 / 4 * (n + 1) by omega, dxt1Block_ok e1, Res.ok_bind, hz,
    (size_parts (Or.inl rfl) nx).2, addU_ok (by omega), Res.lift_ok, Res.ok_bind,
    show 8 / 4 * n + 8 / 4 * nx = 8 / 4 * (n + nx) by omega, dxt1Block_ok e2, Res.ok_bind,
    addU_ok (by omega), Res.lift_ok, Res.ok_bind,
    show 8 / 4 * (n + 1) + 8 / 4 * nx = 8 / 4 * (n + nx + 1) by omega, dxt1Block_ok e3]

theorem dxt1Border_ok {buf : List UInt8} {last : Nat} {u : Unpacker} {planes : List Plane}
    {ends tiles : List Nat} {blk : Nat → List Nat → List UInt8}
    (step : BlockStep buf last planes 1 8 (dxt1Either u ends tiles) blk) {z : LevelSize}
    {nx : Nat} (hz : z.pitch = 8 * nx) {sr sb : Bool} {n : Nat} {st : LevelState}
    {bits rest : List Bool} {ss : List (List Nat)} {bl : List (List UInt8)}
    (h : scan (readSels planes) 4 (selsOf 1 st) bits = some (ss, rest))
    (hc : At buf last st.codec bits) (hd : st.dst = bl.flatten) (hl : ∀ x ∈ bl, x.length = 8)
    (hi : Inside 8 nx sr sb n bl.length) :
    BlocksDone buf last 1 8 nx sr sb n blk ss rest bl st
      (dxt1Border u z ends tiles sr sb (8 * n) st) := by
  obtain ⟨s0, s1, s2, s3, e0, e1, e2, e3, done⟩ := fourSteps step h hc hd hl hi
  suffices hr : dxt1Border u z ends tiles sr sb (8 * n) st = .ok s3 by rw [hr]; exact done
  have hi0 := hi.b0
  have big := hi.big
  unfold dxt1Border
  simp only [Res.forRange, Res.ok_bind, dxt1Skip_eq]
  rw [hz, mulU_ok (by omega), Res.lift_ok, Res.ok_bind, addU_ok (by omega), Res.lift_ok, Res.ok_bind,
    Nat.mul_zero, show 8 * n + 0 = 8 * n from rfl, (size_parts (Or.inl rfl) n).2]
  simp only [ne_eq, Nat.reduceAdd, Nat.reduceMul, not_true_eq_false, decide_false, Bool.false_and,
    Bool.or_false, Bool.not_false, e0, Res.ok_bind]
  rw [addU_ok (by omega), Res.lift_ok, Res.ok_bind]
  simp only [Res.pure_eq, Res.ok_bind]
  rw [show 8 / 4 * n + 2 = 8 / 4 * (n + 1) by omega]
  simp only [Nat.one_ne_zero, not_false_eq_true, decide_true, Bool.true_and, e1, Res.ok_bind]
  rw [addU_ok (by omega), Res.lift_ok, Res.ok_bind, Res.ok_bind]
  simp only
  rw [mulU_ok (by omega), Res.lift_ok, Res.ok_bind, Res.ok_bind, addU_ok (by omega), Res.lift_ok,
    Res.ok_bind, show 8 * n + 8 * nx * 1 = 8 * (n + nx) by omega, (size_parts (Or.inl rfl) (n + nx)).2]
  simp only [Bool.false_or, e2, Res.ok_bind]
  rw [addU_ok (by omega), Res.lift_ok, Res.ok_bind, Res.ok_bind]
  simp only
  rw [show 8 / 4 * (n + nx) + 2 = 8 / 4 * (n + nx + 1) by omega, e3, Res.ok_bind,
    addU_ok (by omega), Res.lift_ok, Res.ok_bind, Res.ok_bind]

/-! ## Chunks -/

/-- What relates the state of the decoder to the last chunk, the remaining bits and the blocks. -/
structure Rel (buf : List UInt8) (last k B : Nat) (c : Chunk) (bits : List Bool)
    (bl : List (List UInt8)) (st : LevelState) : Prop where
  codec : At buf last st.codec bits
  enc : st.enc = encOf c.pending
  pending : ∀ v ∈ c.pending, v < 8
  ends : c.endpoint = endsOf k st
  sels : c.selector = selsOf k st
  dst : st.dst = bl.flatten
  lens : ∀ b ∈ bl, b.length = B

/-- What a chunk does. -/
def ChunkStep (buf : List UInt8) (last : Nat) (code : List Nat) (planes : List Plane) (k B nx : Nat)
    (z : LevelSize) (fn : Nat → Nat → Nat → LevelState → Res LevelState) : Prop :=
  ∀ (x y n : Nat) (c c' : Chunk) (bits rest : List Bool) (bl : List (List UInt8)) (st : LevelState),
    chunk code planes c bits = some (c', rest) → Rel buf last k B c bits bl st →
    x < z.chunksX → y < z.chunksY → z.chunksX < 2 ^ 16 → z.chunksY < 2 ^ 16 →
    Inside B nx (decide (z.blocksX % 2 = 1 ∧ x + 1 = z.chunksX))
      (decide (z.blocksY % 2 = 1 ∧ y + 1 = z.chunksY)) n bl.length →
    ∃ st', fn x y (B * n) st = .ok st' ∧ (∀ q, q < 4 → (c'.blocks.getD q []).length = B) ∧
      Rel buf last k B c' rest
        (writeChunk nx (decide (z.blocksX % 2 = 1 ∧ x + 1 = z.chunksX))
          (decide (z.blocksY % 2 = 1 ∧ y + 1 = z.chunksY)) n (fun q => c'.blocks.getD q []) bl) st'

theorem skipBottom_ok (z : LevelSize) {y : Nat} (h : y < z.chunksY) :
    z.skipBottom y = .ok (decide (z.blocksY % 2 = 1 ∧ y + 1 = z.chunksY)) := by
  unfold LevelSize.skipBottom
  rw [subU_ok (by omega), Out.ok_bind]
  refine congrArg Out.ok ?_
  rw [show (1 : Nat) = 2 ^ 1 - 1 from rfl, Nat.and_two_pow_sub_one_eq_mod]
  simp only [decide_eq_decide]
  omega

theorem skipRight_ok (z : LevelSize) {x : Nat} (h : x < z.chunksX) (hz : z.chunksX < 2 ^ 16) :
    z.skipRight x = .ok (decide (z.blocksX % 2 = 1 ∧ x + 1 = z.chunksX)) := by
  unfold LevelSize.skipRight
  rw [asI_small (by omega)]
  unfold subI
  rw [fitI_ok (by unfold InI; omega), Out.ok_bind]
  refine congrArg Out.ok ?_
  rw [show (1 : Nat) = 2 ^ 1 - 1 from rfl, Nat.and_two_pow_sub_one_eq_mod]
  simp only [decide_eq_decide]
  omega

/-- What a chunk of the specification consists of. -/
theorem chunk_some {code : List Nat} {planes : List Plane} {c c' : Chunk} {bits rest : List Bool}
    (h : chunk code planes c bits = some (c', rest)) :
    ∃ pending b1 es b2 ss, encodings code c.pending bits = some (pending, b1) ∧
      forPlanes (fun p e => scan (nextPaletteIndex p.endpointCode p.endpoints.length)
        (tileCount (pending.headD 0)) e) planes c.endpoint b1 = some (es, b2) ∧
      scan (readSels planes) 4 c.selector b2 = some (ss, rest) ∧
      c' = ⟨pending.tail, es.map fun l => l.getLastD 0, ss.getLastD [],
        (List.range 4).map fun q => blkOf planes (pending.headD 0) es q (ss.getD q [])⟩ := by
  unfold chunk at h
  obtain ⟨pending, b1, h1, h⟩ := reader_bind.mp h
  obtain ⟨es, b2, h2, h⟩ := reader_bind.mp h
  obtain ⟨ss, b3, h3, h⟩ := reader_bind.mp h
  obtain ⟨rfl, rfl⟩ := reader_pure.mp h
  exact ⟨pending, b1, es, b2, ss, h1, h2, h3, rfl⟩

omit [Build] in
theorem blocks_getD {planes : List Plane} {enc : Nat} {es ss : List (List Nat)} {q : Nat}
    (hq : q < 4) :
    ((List.range 4).map fun q => blkOf planes enc es q (ss.getD q [])).getD q []
      = blkOf planes enc es q (ss.getD q []) := by
  rcases q with _ | _ | _ | _ | q
  · rfl
  · rfl
  · rfl
  · rfl
  · omega

/-- From the blocks to the chunk. -/
theorem blocks_rel {buf : List UInt8} {last k B nx : Nat} {sr sb : Bool} {n enc : Nat}
    {planes : List Plane} {es ss : List (List Nat)} {rest : List Bool} {bl : List (List UInt8)}
    {pending : List Nat} {st : LevelState} {r : Res LevelState}
    (done : BlocksDone buf last k B nx sr sb n (blkOf planes enc es) ss rest bl st r)
    (hl : ∀ b ∈ bl, b.length = B) (henc : st.enc = encOf pending) (hp : ∀ v ∈ pending, v < 8)
    (hes : es.map (fun l => l.getLastD 0) = endsOf k st) (c' : Chunk)
    (hc' : c' = ⟨pending, es.map fun l => l.getLastD 0, ss.getLastD [],
        (List.range 4).map fun q => blkOf planes enc es q (ss.getD q [])⟩) :
    ∃ st', r = .ok st' ∧ (∀ q, q < 4 → (c'.blocks.getD q []).length = B) ∧
      Rel buf last k B c' rest (writeChunk nx sr sb n (fun q => c'.blocks.getD q []) bl) st' := by
  obtain ⟨st', e, hc, hs, hf, hlen, hd⟩ := done
  subst hc'
  have hb : ∀ q, q < 4 → (((List.range 4).map fun q => blkOf planes enc es q (ss.getD q [])).getD q
      []).length = B := by
    intro q hq
    rw [blocks_getD hq]
    exact hlen q hq
  have hw : writeChunk nx sr sb n (fun q => blkOf planes enc es q (ss.getD q [])) bl
      = writeChunk nx sr sb n (fun q => ((List.range 4).map fun q =>
          blkOf planes enc es q (ss.getD q [])).getD q []) bl := rfl
  refine ⟨st', e, hb, hc, ?_, hp, ?_, hs.symm, ?_, ?_⟩
  · rw [hf.enc, henc]
  · rw [hf.ends]; exact hes
  · rw [hd, hw]
  · unfold writeChunk
    exact putIf_all (putIf_all (putIf_all (putIf_all hl (hb 0 (by omega))) (hb 1 (by omega)))
      (hb 2 (by omega))) (hb 3 (by omega))

theorem scan_first {α : Type} {r : α → Reader α} {n : Nat} {a b : α} {bits rest : List Bool}
    {l : List α} (hn : 0 < n) (h : scan r n a bits = some (l, rest)) : l.getLastD a = l.getLastD b := by
  have hl := scan_length h
  cases l with
  | nil => simp at hl; omega
  | cons x l => rw [List.getLastD_cons, List.getLastD_cons]

omit [Build] in
theorem tileCount_pos (enc : Nat) : 0 < tileCount enc := by unfold tileCount; omega

theorem dxt1Chunk_ok {buf : List UInt8} {last : Nat} {code : List Nat} {u : Unpacker} {p : Plane}
    (henc : TablesOk code u.tables.encoding) {E S : List Nat}
    (hp : ColourPlaneOk p u.tables.endpoint0 u.tables.selector0 E S) (hE : u.colorEndpoints = E)
    (hS : u.colorSelectors = S) {z : LevelSize} {nx : Nat} (hz : z.pitch = 8 * nx) :
    ChunkStep buf last code [p] 1 8 nx z (dxt1Chunk u z) := by
  intro x y n c c' bits rest bl st h hr hx hy hzx hzy hi
  obtain ⟨pending, b1, es, b2, ss, h1, h2, h3, hc'⟩ := chunk_some h
  obtain ⟨hc, hen, hpend, hends, hsels, hd, hl⟩ := hr
  obtain ⟨c1, e1, hc1, hlt, hpend'⟩ := nextEncoding_ok henc msgDxt1 h1 hc hen hpend
  generalize pending.headD 0 = enc at *
  obtain ⟨tiles, t1, t2, t3⟩ := tiles_eq hlt
  rw [hends] at h2
  obtain ⟨l, h4, rfl⟩ := forPlanes_one h2
  have hlen : p.endpoints.length = E.length := by rw [hp.ends, List.length_map]
  rw [hlen] at h4
  obtain ⟨c2, ends, e2, hc2, he⟩ := tileEndpoints_ok hp.endTables hp.endsLt (tileCount_le _) msgDxt1 h4
    hc1
  rw [hsels] at h3
  have step := dxt1_step (buf := buf) (last := last) hp hS he t3
  unfold dxt1Chunk
  rw [skipBottom_ok z hy, Res.lift_ok, Res.ok_bind, e1, Res.ok_bind]
  simp only
  rw [idx_of_some t2, Res.lift_ok, Res.ok_bind, hE, e2, Res.ok_bind]
  simp only
  rw [idx_of_some t1, Res.lift_ok, Res.ok_bind, skipRight_ok z hx hzx, Res.lift_ok, Res.ok_bind]
  generalize decide (z.blocksX % 2 = 1 ∧ x + 1 = z.chunksX) = sr at *
  generalize decide (z.blocksY % 2 = 1 ∧ y + 1 = z.chunksY) = sb at *
  have hes : [l].map (fun l => l.getLastD 0) = [l.getLastD st.e0] := by
    rw [List.map_singleton, scan_first (tileCount_pos _) h4]
  by_cases hsk : sr = false ∧ sb = false
  · obtain ⟨rfl, rfl⟩ := hsk
    rw [if_pos (show (!false && !false) = true from rfl)]
    exact blocks_rel (dxt1Full_ok step hz
      (st := { st with codec := c2, enc := encOf pending.tail, e0 := l.getLastD st.e0 })
      h3 hc2 hd hl hi) hl rfl hpend' hes c' hc'
  · rw [if_neg (by cases sr <;> cases sb <;> simp at hsk ⊢)]
    exact blocks_rel (dxt1Border_ok step hz
      (st := { st with codec := c2, enc := encOf pending.tail, e0 := l.getLastD st.e0 })
      h3 hc2 hd hl hi) hl rfl hpend' hes c' hc'

theorem dxt5aChunk_ok {buf : List UInt8} {last : Nat} {code : List Nat} {u : Unpacker} {p : Plane}
    (henc : TablesOk code u.tables.encoding) {E S : List Nat}
    (hp : AlphaPlaneOk p u.tables.endpoint1 u.tables.selector1 E S) (hE : u.alphaEndpoints = E)
    (hS : u.alphaSelectors = S.flatMap words3)
    (hnum : 0 < E.length → u.header.alphaSelectors.num = S.length)
    {z : LevelSize} {nx : Nat} (hz : z.pitch = 8 * nx) :
    ChunkStep buf last code [p] 1 8 nx z (dxt5aChunk u z) := by
  intro x y n c c' bits rest bl st h hr hx hy hzx hzy hi
  obtain ⟨pending, b1, es, b2, ss, h1, h2, h3, hc'⟩ := chunk_some h
  obtain ⟨hc, hen, hpend, hends, hsels, hd, hl⟩ := hr
  obtain ⟨c1, e1, hc1, hlt, hpend'⟩ := nextEncoding_ok henc msgDxt5a h1 hc hen hpend
  generalize pending.headD 0 = enc at *
  obtain ⟨tiles, t1, t2, t3⟩ := tiles_eq hlt
  rw [hends] at h2
  obtain ⟨l, h4, rfl⟩ := forPlanes_one h2
  have hlen : p.endpoints.length = E.length := by rw [hp.ends, List.length_map]
  rw [hlen] at h4
  obtain ⟨c2, ends, e2, hc2, he⟩ := tileEndpoints_ok hp.endTables hp.endsLt (tileCount_le _) msgDxt5a
    h4 hc1
  rw [hsels] at h3
  have hpos := (he 0 (tileCount_pos _)).2
  have step := dxt5a_step (buf := buf) (last := last) hp hS (hnum (by omega)) he t3
  unfold dxt5aChunk
  rw [skipBottom_ok z hy, Res.lift_ok, Res.ok_bind, e1, Res.ok_bind]
  simp only
  rw [idx_of_some t2, Res.lift_ok, Res.ok_bind, idx_of_some t1, Res.lift_ok, Res.ok_bind,
    skipRight_ok z hx hzx, Res.lift_ok, Res.ok_bind, hE, e2, Res.ok_bind]
  have hes : [l].map (fun l => l.getLastD 0) = [l.getLastD st.e0] := by
    rw [List.map_singleton, scan_first (tileCount_pos _) h4]
  exact blocks_rel (blockLoop_ok (Or.inl rfl) step hz
    (st := { st with codec := c2, enc := encOf pending.tail, e0 := l.getLastD st.e0 })
    h3 hc2 hd hl hi) hl rfl hpend' hes c' hc'

theorem dxt5Chunk_ok {buf : List UInt8} {last : Nat} {code : List Nat} {u : Unpacker} {p p' : Plane}
    (henc : TablesOk code u.tables.encoding) {E S E' S' : List Nat}
    (hp : AlphaPlaneOk p u.tables.endpoint1 u.tables.selector1 E S) (hE : u.alphaEndpoints = E)
    (hS : u.alphaSelectors = S.flatMap words3)
    (hnum : 0 < E.length → u.header.alphaSelectors.num = S.length)
    (hp' : ColourPlaneOk p' u.tables.endpoint0 u.tables.selector0 E' S') (hE' : u.colorEndpoints = E')
    (hS' : u.colorSelectors = S') {z : LevelSize} {nx : Nat} (hz : z.pitch = 16 * nx) :
    ChunkStep buf last code [p, p'] 2 16 nx z (dxt5Chunk u z) := by
  intro x y n c c' bits rest bl st h hr hx hy hzx hzy hi
  obtain ⟨pending, b1, es, b2, ss, h1, h2, h3, hc'⟩ := chunk_some h
  obtain ⟨hc, hen, hpend, hends, hsels, hd, hl⟩ := hr
  obtain ⟨c1, e1, hc1, hlt, hpend'⟩ := nextEncoding_ok henc msgDxt5 h1 hc hen hpend
  generalize pending.headD 0 = enc at *
  obtain ⟨tiles, t1, t2, t3⟩ := tiles_eq hlt
  rw [hends] at h2
  obtain ⟨l, l', mid, h4, h5, rfl⟩ := forPlanes_two h2
  have hlen : p.endpoints.length = E.length := by rw [hp.ends, List.length_map]
  have hlen' : p'.endpoints.length = E'.length := by rw [hp'.ends, List.length_map]
  rw [hlen] at h4
  rw [hlen'] at h5
  obtain ⟨c2, ends, e2, hc2, he⟩ := tileEndpoints_ok hp.endTables hp.endsLt (tileCount_le _) msgDxt5
    h4 hc1
  obtain ⟨c3, ends', e3, hc3, he'⟩ := tileEndpoints_ok hp'.endTables hp'.endsLt (tileCount_le _)
    msgDxt5 h5 hc2
  rw [hsels] at h3
  have hpos := (he 0 (tileCount_pos _)).2
  have step := dxt5_step (buf := buf) (last := last) hp hp' hS (hnum (by omega)) hS' he he' t3
  unfold dxt5Chunk
  rw [skipBottom_ok z hy, Res.lift_ok, Res.ok_bind, e1, Res.ok_bind]
  simp only
  rw [idx_of_some t2, Res.lift_ok, Res.ok_bind, idx_of_some t1, Res.lift_ok, Res.ok_bind,
    skipRight_ok z hx hzx, Res.lift_ok, Res.ok_bind, hE, e2, Res.ok_bind]
  simp only
  rw [hE', e3, Res.ok_bind]
  have hes : [l, l'].map (fun l => l.getLastD 0) = [l.getLastD st.e0, l'.getLastD st.e1] := by
    rw [List.map_cons, List.map_singleton, scan_first (tileCount_pos _) h4,
      scan_first (tileCount_pos _) h5]
  exact blocks_rel (blockLoop_ok (Or.inr rfl) step hz
    (st := { st with codec := c3, enc := encOf pending.tail, e0 := l.getLastD st.e0,
                     e1 := l'.getLastD st.e1 })
    h3 hc3 hd hl hi) hl rfl hpend' hes c' hc'

theorem dxnChunk_ok {buf : List UInt8} {last : Nat} {code : List Nat} {u : Unpacker} {p : Plane}
    (henc : TablesOk code u.tables.encoding) {E S : List Nat}
    (hp : AlphaPlaneOk p u.tables.endpoint1 u.tables.selector1 E S) (hE : u.alphaEndpoints = E)
    (hS : u.alphaSelectors = S.flatMap words3)
    (hnum : 0 < E.length → u.header.alphaSelectors.num = S.length)
    {z : LevelSize} {nx : Nat} (hz : z.pitch = 16 * nx) :
    ChunkStep buf last code [p, p] 2 16 nx z (dxnChunk u z) := by
  intro x y n c c' bits rest bl st h hr hx hy hzx hzy hi
  obtain ⟨pending, b1, es, b2, ss, h1, h2, h3, hc'⟩ := chunk_some h
  obtain ⟨hc, hen, hpend, hends, hsels, hd, hl⟩ := hr
  obtain ⟨c1, e1, hc1, hlt, hpend'⟩ := nextEncoding_ok henc msgDxn h1 hc hen hpend
  generalize pending.headD 0 = enc at *
  obtain ⟨tiles, t1, t2, t3⟩ := tiles_eq hlt
  rw [hends] at h2
  obtain ⟨l, l', mid, h4, h5, rfl⟩ := forPlanes_two h2
  have hlen : p.endpoints.length = E.length := by rw [hp.ends, List.length_map]
  rw [hlen] at h4 h5
  obtain ⟨c2, ends, e2, hc2, he⟩ := tileEndpoints_ok hp.endTables hp.endsLt (tileCount_le _) msgDxn
    h4 hc1
  obtain ⟨c3, ends', e3, hc3, he'⟩ := tileEndpoints_ok hp.endTables hp.endsLt (tileCount_le _)
    msgDxn h5 hc2
  rw [hsels] at h3
  have hpos := (he 0 (tileCount_pos _)).2
  have step := dxn_step (buf := buf) (last := last) hp hS (hnum (by omega)) he he' t3
  unfold dxnChunk
  rw [skipBottom_ok z hy, Res.lift_ok, Res.ok_bind, e1, Res.ok_bind]
  simp only
  rw [idx_of_some t2, Res.lift_ok, Res.ok_bind, idx_of_some t1, Res.lift_ok, Res.ok_bind,
    skipRight_ok z hx hzx, Res.lift_ok, Res.ok_bind, hE, e2, Res.ok_bind]
  simp only
  rw [e3, Res.ok_bind]
  have hes : [l, l'].map (fun l => l.getLastD 0) = [l.getLastD st.e0, l'.getLastD st.e1] := by
    rw [List.map_cons, List.map_singleton, scan_first (tileCount_pos _) h4,
      scan_first (tileCount_pos _) h5]
  exact blocks_rel (blockLoop_ok (Or.inr rfl) step hz
    (st := { st with codec := c3, enc := encOf pending.tail, e0 := l.getLastD st.e0,
                     e1 := l'.getLastD st.e1 })
    h3 hc3 hd hl hi) hl rfl hpend' hes c' hc'

end Verif.Proofs.Crn
