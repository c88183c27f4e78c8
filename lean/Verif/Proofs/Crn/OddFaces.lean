import Verif.Proofs.Crn.File

/-!
# Levels with several faces and an odd number of block rows

A face of such a level takes one row of blocks too many in the destination, so that the last face
ends outside it. Here is what the decoder does with a chunk that is not inside the destination: it
panics, whatever the build.
-/

namespace Verif.Proofs.Crn

open Verif Verif.Model Verif.Model.Crn Verif.Spec.Crn

variable [Build]

omit [Build] in
theorem Res.forRange_or {σ : Type} {n : Nat} {f : Nat → σ → Res σ} {s : σ} (P : Nat → σ → Prop)
    (h0 : P 0 s) (hs : ∀ i, i < n → ∀ s, P i s → f i s = .panic ∨ ∃ s', f i s = .ok s' ∧ P (i + 1) s') :
    Res.forRange n f s = .panic ∨ ∃ s', Res.forRange n f s = .ok s' ∧ P n s' := by
  induction n with
  | zero => exact Or.inr ⟨s, rfl, h0⟩
  | succ n ih =>
    rcases ih (fun i hi => hs i (by omega)) with h | ⟨s1, h, hp⟩
    · exact Or.inl (by rw [Res.forRange, h, Res.panic_bind])
    · rcases hs n (by omega) s1 hp with h2 | ⟨s2, h2, hp2⟩
      · exact Or.inl (by rw [Res.forRange, h, Res.ok_bind, h2])
      · exact Or.inr ⟨s2, by rw [Res.forRange, h, Res.ok_bind, h2], hp2⟩

/-! ## Blocks -/

theorem writeInt_panic {l : List UInt8} {i v : Nat} (h : l.length ≤ 4 * i) (hi : 4 * i < 2 ^ 64) :
    writeInt l i v = .panic := by
  unfold writeInt
  rw [show mulU 64 i 4 = .ok (4 * i) by rw [mulU_ok (by omega), Nat.mul_comm], Out.ok_bind]
  unfold setIdx
  rw [if_neg (by omega)]
  rfl

theorem writeAlpha_panic {u : Unpacker} {S : List Nat} (hu : u.alphaSelectors = S.flatMap words3)
    (hS : S.length < 2 ^ 16) {e p pd : Nat}
    (hp : p < S.length) {dst : List UInt8} (hd : dst.length ≤ 4 * pd) (hl : 4 * pd < 2 ^ 64) :
    writeAlpha u e p pd dst = .panic := by
  obtain ⟨h3, g0, g1, g2⟩ := words3_get hp
  unfold writeAlpha
  rw [mulU_ok (by omega), Out.ok_bind, hu, Nat.mul_comm p 3, sliceFrom_ok (by omega), Out.ok_bind,
    idx_of_some g0, Out.ok_bind, shlU_ok (by omega), Out.ok_bind, writeInt_panic hd hl]
  rfl

/-- What the body of the loop over the blocks does with a block outside the destination. -/
def BlockOut (buf : List UInt8) (last : Nat) (planes : List Plane) (k B : Nat)
    (block : Nat → Bool → Nat → LevelState → Res LevelState) : Prop :=
  ∀ (q n : Nat) (st : LevelState) (bits rest : List Bool) (ss : List Nat) (bl : List (List UInt8)),
    q < 4 → readSels planes (selsOf k st) bits = some (ss, rest) → At buf last st.codec bits →
    st.dst = bl.flatten → (∀ x ∈ bl, x.length = B) → bl.length ≤ n → B * n < 2 ^ 31 →
    block q true (B / 4 * n) st = .panic

omit [Build] in
theorem dst_out {B : Nat} {bl : List (List UInt8)} {n : Nat} {dst : List UInt8}
    (hd : dst = bl.flatten) (hl : ∀ x ∈ bl, x.length = B) (hn : bl.length ≤ n) :
    dst.length ≤ B * n := by
  rw [hd, flatten_len hl]
  exact Nat.mul_le_mul_left _ hn

theorem dxt5a_out {buf : List UInt8} {last : Nat} {u : Unpacker} {p : Plane} {dmE : DataModel}
    {E S : List Nat} (hp : AlphaPlaneOk p dmE u.tables.selector1 E S)
    (hu : u.alphaSelectors = S.flatMap words3) (hnum : u.header.alphaSelectors.num = S.length)
    {enc : Nat} {l ends tiles : List Nat} (he : EndsFor E l (tileCount enc) ends)
    (ht : TilesFor enc tiles) :
    BlockOut buf last [p] 1 8 (dxt5aBlock u ends tiles) := by
  intro q n st bits rest ss bl hq h hc hd hl hv hsz
  obtain ⟨s, h1, rfl⟩ := forPlanes_one h
  have hlen : p.selectors.length = S.length := by rw [hp.sels, List.length_map]
  rw [hlen] at h1
  obtain ⟨c', e', hc', hs⟩ := nextIndex_ok hp.selTables hp.selsLt msgDxt5a h1 hc
  obtain ⟨t1, t2⟩ := ht q hq
  obtain ⟨g1, g2⟩ := he _ t2
  have r := dst_out hd hl hv
  unfold dxt5aBlock
  rw [hnum, e', Res.ok_bind]
  simp only
  rw [if_pos trivial, idx_of_some t1, Res.lift_ok, Res.ok_bind, idx_of_some g1, Res.lift_ok,
    Res.ok_bind, writeAlpha_panic hu hp.selsLt hs (by omega) (by omega), Res.lift_panic,
    Res.panic_bind]

theorem dxt5_out {buf : List UInt8} {last : Nat} {u : Unpacker} {p p' : Plane}
    {dmE dmE' : DataModel} {E S E' S' : List Nat} (hp : AlphaPlaneOk p dmE u.tables.selector1 E S)
    (hp' : ColourPlaneOk p' dmE' u.tables.selector0 E' S')
    (hu : u.alphaSelectors = S.flatMap words3) (hnum : u.header.alphaSelectors.num = S.length)
    (hu' : u.colorSelectors = S') {enc : Nat} {l ends ends' tiles : List Nat}
    (he : EndsFor E l (tileCount enc) ends) (ht : TilesFor enc tiles) :
    BlockOut buf last [p, p'] 2 16 (dxt5Block u ends ends' tiles) := by
  intro q n st bits rest ss bl hq h hc hd hl hv hsz
  obtain ⟨s, s', mid, h1, h2, rfl⟩ := forPlanes_two h
  have hlen : p.selectors.length = S.length := by rw [hp.sels, List.length_map]
  have hlen' : p'.selectors.length = S'.length := by rw [hp'.sels, List.length_map]
  rw [hlen] at h1
  rw [hlen'] at h2
  obtain ⟨c1, e1, hc1, hs⟩ := nextIndex_ok hp.selTables hp.selsLt msgDxt5 h1 hc
  obtain ⟨c2, e2, hc2, hs'⟩ := nextIndex_ok hp'.selTables hp'.selsLt msgDxt5 h2 hc1
  obtain ⟨t1, t2⟩ := ht q hq
  obtain ⟨g1, g2⟩ := he _ t2
  have hS' : asU 32 S'.length = S'.length := by
    have := hp'.selsLt
    unfold asU
    omega
  have r := dst_out hd hl hv
  unfold dxt5Block
  rw [hnum, e1, Res.ok_bind]
  simp only
  rw [hu', hS', e2, Res.ok_bind]
  simp only
  rw [if_pos trivial, idx_of_some t1, Res.lift_ok, Res.ok_bind, idx_of_some g1, Res.lift_ok,
    Res.ok_bind, writeAlpha_panic hu hp.selsLt hs (by omega) (by omega), Res.lift_panic,
    Res.panic_bind]

theorem dxn_out {buf : List UInt8} {last : Nat} {u : Unpacker} {p : Plane} {dmE : DataModel}
    {E S : List Nat} (hp : AlphaPlaneOk p dmE u.tables.selector1 E S)
    (hu : u.alphaSelectors = S.flatMap words3) (hnum : u.header.alphaSelectors.num = S.length)
    {enc : Nat} {l ends ends' tiles : List Nat} (he : EndsFor E l (tileCount enc) ends)
    (ht : TilesFor enc tiles) :
    BlockOut buf last [p, p] 2 16 (dxnBlock u ends ends' tiles) := by
  intro q n st bits rest ss bl hq h hc hd hl hv hsz
  obtain ⟨s, s', mid, h1, h2, rfl⟩ := forPlanes_two h
  have hlen : p.selectors.length = S.length := by rw [hp.sels, List.length_map]
  rw [hlen] at h1 h2
  obtain ⟨c1, e1, hc1, hs⟩ := nextIndex_ok hp.selTables hp.selsLt msgDxn h1 hc
  obtain ⟨c2, e2, hc2, hs'⟩ := nextIndex_ok hp.selTables hp.selsLt msgDxn h2 hc1
  obtain ⟨t1, t2⟩ := ht q hq
  obtain ⟨g1, g2⟩ := he _ t2
  have r := dst_out hd hl hv
  unfold dxnBlock
  rw [hnum, e1, Res.ok_bind]
  simp only
  rw [e2, Res.ok_bind]
  simp only
  rw [if_pos trivial, idx_of_some t1, Res.lift_ok, Res.ok_bind, idx_of_some g1, Res.lift_ok,
    Res.ok_bind, writeAlpha_panic hu hp.selsLt hs (by omega) (by omega), Res.lift_panic,
    Res.panic_bind]

theorem dxt1_out {buf : List UInt8} {last : Nat} {u : Unpacker} {p : Plane} {dmE : DataModel}
    {E S : List Nat} (hp : ColourPlaneOk p dmE u.tables.selector0 E S) (hu : u.colorSelectors = S)
    {enc : Nat} {l ends tiles : List Nat} (he : EndsFor E l (tileCount enc) ends)
    (ht : TilesFor enc tiles) :
    BlockOut buf last [p] 1 8 (dxt1Either u ends tiles) := by
  intro q n st bits rest ss bl hq h hc hd hl hv hsz
  obtain ⟨s, h1, rfl⟩ := forPlanes_one h
  have hlen : p.selectors.length = S.length := by rw [hp.sels, List.length_map]
  rw [hlen] at h1
  obtain ⟨c', e', hc', hs⟩ := nextIndex_ok hp.selTables hp.selsLt msgDxt1 h1 hc
  obtain ⟨t1, t2⟩ := ht q hq
  obtain ⟨g1, g2⟩ := he _ t2
  have hS : asU 32 S.length = S.length := by
    have := hp.selsLt
    unfold asU
    omega
  have r := dst_out hd hl hv
  unfold dxt1Either
  rw [hu, hS, e', Res.ok_bind]
  simp only
  rw [if_pos trivial, idx_of_some t1, Res.lift_ok, Res.ok_bind, idx_of_some g1, Res.lift_ok,
    Res.ok_bind, writeInt_panic (by omega) (by omega), Res.lift_panic, Res.panic_bind]

/-- The order of reading and writing does not matter for a panic either. -/
theorem dxt1Block_panic {u : Unpacker} {ends tiles : List Nat} {q pd : Nat} {st : LevelState}
    (h : dxt1Either u ends tiles q true pd st = .panic) :
    dxt1Block u ends tiles q pd st = .panic := by
  unfold dxt1Either at h
  unfold dxt1Block
  cases h1 : nextIndex msgDxt1 u.tables.selector0 (asU 32 u.colorSelectors.length) st.s0 st.codec with
  | fail m => rw [h1] at h; cases h
  | ok x =>
    rw [h1, Res.ok_bind] at h
    obtain ⟨p, codec⟩ := x
    simp only at h
    rw [if_pos trivial] at h
    cases h2 : idx tiles q with
    | panic => rfl
    | ok t =>
      rw [h2, Res.lift_ok, Res.ok_bind] at h
      rw [Res.lift_ok, Res.ok_bind]
      cases h3 : idx ends t with
      | panic => rfl
      | ok e =>
        rw [h3, Res.lift_ok, Res.ok_bind] at h
        rw [Res.lift_ok, Res.ok_bind]
        cases h4 : writeInt st.dst pd e with
        | panic => rfl
        | ok dst =>
          rw [h4, Res.lift_ok, Res.ok_bind] at h
          rw [Res.lift_ok, Res.ok_bind, Res.ok_bind]
          exact h
  | panic =>
    cases h2 : idx tiles q with
    | panic => rfl
    | ok t =>
      rw [Res.lift_ok, Res.ok_bind]
      cases h3 : idx ends t with
      | panic => rfl
      | ok e =>
        rw [Res.lift_ok, Res.ok_bind]
        cases h4 : writeInt st.dst pd e with
        | panic => rfl
        | ok dst => rfl

/-! ## Chunks -/

/-- A chunk with a visible block outside the destination. -/
structure Outside (B nx : Nat) (skipRight skipBottom : Bool) (n len : Nat) : Prop where
  out : len ≤ n ∨
    (n < len ∧ (skipRight = false → n + 1 < len) ∧ skipBottom = false ∧ len ≤ n + nx)
  big : B * (n + 2 * nx + 4) < 2 ^ 31
  len : B * len < 2 ^ 31

theorem fourSteps_panic {buf : List UInt8} {last : Nat} {planes : List Plane} {k B : Nat}
    {block : Nat → Bool → Nat → LevelState → Res LevelState} {blk : Nat → List Nat → List UInt8}
    (step : BlockStep buf last planes k B block blk) (out : BlockOut buf last planes k B block)
    {nx : Nat} {skipRight skipBottom : Bool} {n : Nat} {st : LevelState}
    {bits rest : List Bool} {ss : List (List Nat)} {bl : List (List UInt8)}
    (h : scan (readSels planes) 4 (selsOf k st) bits = some (ss, rest))
    (hc : At buf last st.codec bits) (hd : st.dst = bl.flatten) (hl : ∀ x ∈ bl, x.length = B)
    (hi : Outside B nx skipRight skipBottom n bl.length) :
    block 0 true (B / 4 * n) st = .panic ∨
    (skipBottom = false ∧ ∃ s0 s1, block 0 true (B / 4 * n) st = .ok s0 ∧
      block 1 (!skipRight) (B / 4 * (n + 1)) s0 = .ok s1 ∧
      block 2 true (B / 4 * (n + nx)) s1 = .panic) := by
  obtain ⟨a0, a1, a2, a3, m1, m2, m3, rfl, h0, h1, h2, h3⟩ := scan_four h
  obtain ⟨hout, big, hsz⟩ := hi
  have hbn : B * n ≤ B * (n + 2 * nx + 4) := Nat.mul_le_mul_left _ (by omega)
  have hbx : B * (n + nx) ≤ B * (n + 2 * nx + 4) := Nat.mul_le_mul_left _ (by omega)
  rcases hout with ho | ⟨i0, i1, rfl, i2⟩
  · exact Or.inl (out 0 n st bits m1 a0 bl (by omega) h0 hc hd hl ho (by omega))
  · right
    obtain ⟨s0, e0, c0, q0, f0, l0, d0⟩ := step 0 n true st bits m1 a0 bl (by omega) h0 hc hd hl
      (fun _ => i0) hsz
    have len0 := putIf_length true n (blk 0 a0) bl
    obtain ⟨s1, e1, c1, q1, f1, l1, d1⟩ := step 1 (n + 1) (!skipRight) s0 m1 m2 a1 _ (by omega)
      (by rw [q0]; exact h1) c0 d0 (putIf_all hl l0)
      (fun hv => by rw [len0]; exact i1 (by simpa using hv)) (by rw [len0]; exact hsz)
    have len1 := putIf_length (!skipRight) (n + 1) (blk 1 a1) (putIf true n (blk 0 a0) bl)
    have e2 := out 2 (n + nx) s1 m2 m3 a2 _ (by omega) (by rw [q1]; exact h2) c1 d1
      (putIf_all (putIf_all hl l0) l1) (by rw [len1, len0]; exact i2) (by omega)
    exact ⟨rfl, s0, s1, e0, e1, e2⟩

theorem addWords' {B : Nat} (hB : B = 8 ∨ B = 16) {m N : Nat}
    (hi : B * N < 2 ^ 31) (hm : m + 1 ≤ N) :
    addU 64 (B / 4 * m) (B / 4) = .ok (B / 4 * (m + 1)) := by
  have h1 : B * (m + 1) ≤ B * N := Nat.mul_le_mul_left _ hm
  rw [addU_ok (by rcases hB with rfl | rfl <;> omega), Nat.mul_succ]

theorem blockLoop_panic {buf : List UInt8} {last : Nat} {planes : List Plane} {k B : Nat}
    {block : Nat → Bool → Nat → LevelState → Res LevelState} {blk : Nat → List Nat → List UInt8}
    (hB : B = 8 ∨ B = 16) (step : BlockStep buf last planes k B block blk)
    (out : BlockOut buf last planes k B block) {z : LevelSize}
    {nx : Nat} (hz : z.pitch = B * nx) {skipRight skipBottom : Bool} {n : Nat} {st : LevelState}
    {bits rest : List Bool} {ss : List (List Nat)} {bl : List (List UInt8)}
    (h : scan (readSels planes) 4 (selsOf k st) bits = some (ss, rest))
    (hc : At buf last st.codec bits) (hd : st.dst = bl.flatten) (hl : ∀ x ∈ bl, x.length = B)
    (hi : Outside B nx skipRight skipBottom n bl.length) :
    blockLoop z (B / 4) B skipRight skipBottom (B * n) block st = .panic := by
  have big := hi.big
  unfold blockLoop
  simp only [Res.forRange, Res.ok_bind]
  rw [(size_parts hB n).2, hz]
  rcases fourSteps_panic step out h hc hd hl hi with e0 | ⟨rfl, s0, s1, e0, e1, e2⟩
  · simp only [ne_eq, Nat.reduceAdd, Nat.reduceMul, not_true_eq_false, decide_false, Bool.false_and,
      Bool.or_false, Bool.not_false, e0, Res.panic_bind]
  · simp only [ne_eq, Nat.reduceAdd, Nat.reduceMul, not_true_eq_false, decide_false, Bool.false_and,
      Bool.or_false, Bool.not_false, e0, Res.ok_bind]
    rw [addWords' hB big (m := n) (by omega), Res.lift_ok, Res.ok_bind]
    simp only [Res.pure_eq, Res.ok_bind]
    simp only [Nat.one_ne_zero, not_false_eq_true, decide_true, Bool.true_and, e1, Res.ok_bind]
    rw [addWords' hB big (m := n + 1) (by omega), Res.lift_ok, Res.ok_bind, Res.ok_bind]
    simp only
    rw [nextRow_ok hB (m := n + 1 + 1) (nx := nx) (by
      have : B * (n + 1 + 1 + nx + 2) ≤ B * (n + 2 * nx + 4) := Nat.mul_le_mul_left _ (by omega)
      omega) (by omega), Res.ok_bind]
    simp only [show n + 1 + 1 + nx - 2 = n + nx by omega, Bool.and_false, Bool.or_false,
      Bool.not_false, e2, Res.panic_bind]

theorem dxt1Full_panic {buf : List UInt8} {last : Nat} {u : Unpacker} {planes : List Plane}
    {ends tiles : List Nat} {blk : Nat → List Nat → List UInt8}
    (step : BlockStep buf last planes 1 8 (dxt1Either u ends tiles) blk)
    (out : BlockOut buf last planes 1 8 (dxt1Either u ends tiles)) {z : LevelSize}
    {nx : Nat} (hz : z.pitch = 8 * nx) {n : Nat} {st : LevelState}
    {bits rest : List Bool} {ss : List (List Nat)} {bl : List (List UInt8)}
    (h : scan (readSels planes) 4 (selsOf 1 st) bits = some (ss, rest))
    (hc : At buf last st.codec bits) (hd : st.dst = bl.flatten) (hl : ∀ x ∈ bl, x.length = 8)
    (hi : Outside 8 nx false false n bl.length) :
    dxt1Full u z ends tiles ((8 * n) >>> 2) st = .panic := by
  have big := hi.big
  unfold dxt1Full
  rcases fourSteps_panic step out h hc hd hl hi with e0 | ⟨_, s0, s1, e0, e1, e2⟩
  · rw [(size_parts (Or.inl rfl) n).2, dxt1Block_panic e0, Res.panic_bind]
  · rw [(size_parts (Or.inl rfl) n).2, dxt1Block_ok e0, Res.ok_bind, addU_ok (by omega), Res.lift_ok,
      Res.ok_bind, show 8 / 4 * n + 2 = 8 / 4 * (n + 1) by omega, dxt1Block_ok e1, Res.ok_bind, hz,
      (size_parts (Or.inl rfl) nx).2, addU_ok (by omega), Res.lift_ok, Res.ok_bind,
      show 8 / 4 * n + 8 / 4 * nx = 8 / 4 * (n + nx) by omega, dxt1Block_panic e2, Res.panic_bind]

theorem dxt1Border_panic {buf : List UInt8} {last : Nat} {u : Unpacker} {planes : List Plane}
    {ends tiles : List Nat} {blk : Nat → List Nat → List UInt8}
    (step : BlockStep buf last planes 1 8 (dxt1Either u ends tiles) blk)
    (out : BlockOut buf last planes 1 8 (dxt1Either u ends tiles)) {z : LevelSize}
    {nx : Nat} (hz : z.pitch = 8 * nx) {sr sb : Bool} {n : Nat} {st : LevelState}
    {bits rest : List Bool} {ss : List (List Nat)} {bl : List (List UInt8)}
    (h : scan (readSels planes) 4 (selsOf 1 st) bits = some (ss, rest))
    (hc : At buf last st.codec bits) (hd : st.dst = bl.flatten) (hl : ∀ x ∈ bl, x.length = 8)
    (hi : Outside 8 nx sr sb n bl.length) :
    dxt1Border u z ends tiles sr sb (8 * n) st = .panic := by
  have big := hi.big
  unfold dxt1Border
  simp only [Res.forRange, Res.ok_bind, dxt1Skip_eq]
  rw [hz, mulU_ok (by omega), Res.lift_ok, Res.ok_bind, addU_ok (by omega), Res.lift_ok, Res.ok_bind,
    Nat.mul_zero, show 8 * n + 0 = 8 * n from rfl, (size_parts (Or.inl rfl) n).2]
  rcases fourSteps_panic step out h hc hd hl hi with e0 | ⟨rfl, s0, s1, e0, e1, e2⟩
  · simp only [ne_eq, Nat.reduceAdd, Nat.reduceMul, not_true_eq_false, decide_false, Bool.false_and,
      Bool.or_false, Bool.not_false, e0, Res.panic_bind]
  · simp only [ne_eq, Nat.reduceAdd, Nat.reduceMul, not_true_eq_false, decide_false, Bool.false_and,
      Bool.or_false, Bool.not_false, e0, Res.ok_bind]
    rw [addU_ok (by omega), Res.lift_ok, Res.ok_bind]
    simp only [Res.pure_eq, Res.ok_bind]
    rw [show 8 / 4 * n + 2 = 8 / 4 * (n + 1) by omega]
    simp only [Nat.one_ne_zero, not_false_eq_true, decide_true, Bool.true_and, e1, Res.ok_bind]
    rw [addU_ok (by omega), Res.lift_ok, Res.ok_bind, Res.ok_bind]
    simp only
    rw [mulU_ok (by omega), Res.lift_ok, Res.ok_bind, Res.ok_bind, addU_ok (by omega), Res.lift_ok,
      Res.ok_bind, show 8 * n + 8 * nx * 1 = 8 * (n + nx) by omega,
      (size_parts (Or.inl rfl) (n + nx)).2]
    simp only [Bool.and_false, Bool.or_false, Bool.not_false, e2, Res.panic_bind]

/-- What a chunk outside the destination does. -/
def ChunkOut (buf : List UInt8) (last : Nat) (code : List Nat) (planes : List Plane) (k B nx : Nat)
    (z : LevelSize) (fn : Nat → Nat → Nat → LevelState → Res LevelState) : Prop :=
  ∀ (x y n : Nat) (c c' : Chunk) (bits rest : List Bool) (bl : List (List UInt8)) (st : LevelState),
    chunk code planes c bits = some (c', rest) → Rel buf last k B c bits bl st →
    x < z.chunksX → y < z.chunksY → z.chunksX < 2 ^ 16 → z.chunksY < 2 ^ 16 →
    Outside B nx (decide (z.blocksX % 2 = 1 ∧ x + 1 = z.chunksX))
      (decide (z.blocksY % 2 = 1 ∧ y + 1 = z.chunksY)) n bl.length →
    fn x y (B * n) st = .panic

theorem dxt1Chunk_panic {buf : List UInt8} {last : Nat} {code : List Nat} {u : Unpacker} {p : Plane}
    (henc : TablesOk code u.tables.encoding) {E S : List Nat}
    (hp : ColourPlaneOk p u.tables.endpoint0 u.tables.selector0 E S) (hE : u.colorEndpoints = E)
    (hS : u.colorSelectors = S) {z : LevelSize} {nx : Nat} (hz : z.pitch = 8 * nx) :
    ChunkOut buf last code [p] 1 8 nx z (dxt1Chunk u z) := by
  intro x y n c c' bits rest bl st h hr hx hy hzx hzy hi
  obtain ⟨pending, b1, es, b2, ss, h1, h2, h3, hc'⟩ := chunk_some h
  obtain ⟨hc, hen, hpend, hends, hsels, hd, hl⟩ := hr
  obtain ⟨c1, e1, hc1, hlt, hpend'⟩ := nextEncoding_ok henc msgDxt1 h1 hc hen hpend
  generalize pending.headD 0 = enc at *
  obtain ⟨tiles, t1, t2, t3⟩ := tiles_eq hlt
  rw [hends] at h2
  obtain ⟨l, h4, rfl⟩ := forPlanes_one h2
  have hlen : p.endpoints.length = E.length := by rw [hp.ends, List.length_map]
  rw [hlen] at h4
  obtain ⟨c2, ends, e2, hc2, he⟩ := tileEndpoints_ok hp.endTables hp.endsLt (tileCount_le _) msgDxt1 h4
    hc1
  rw [hsels] at h3
  have step := dxt1_step (buf := buf) (last := last) hp hS he t3
  have out := dxt1_out (buf := buf) (last := last) hp hS he t3
  unfold dxt1Chunk
  rw [skipBottom_ok z hy, Res.lift_ok, Res.ok_bind, e1, Res.ok_bind]
  simp only
  rw [idx_of_some t2, Res.lift_ok, Res.ok_bind, hE, e2, Res.ok_bind]
  simp only
  rw [idx_of_some t1, Res.lift_ok, Res.ok_bind, skipRight_ok z hx hzx, Res.lift_ok, Res.ok_bind]
  generalize decide (z.blocksX % 2 = 1 ∧ x + 1 = z.chunksX) = sr at *
  generalize decide (z.blocksY % 2 = 1 ∧ y + 1 = z.chunksY) = sb at *
  by_cases hsk : sr = false ∧ sb = false
  · obtain ⟨rfl, rfl⟩ := hsk
    rw [if_pos (show (!false && !false) = true from rfl)]
    exact dxt1Full_panic step out hz
      (st := { st with codec := c2, enc := encOf pending.tail, e0 := l.getLastD st.e0 })
      h3 hc2 hd hl hi
  · rw [if_neg (by cases sr <;> cases sb <;> simp at hsk ⊢)]
    exact dxt1Border_panic step out hz
      (st := { st with codec := c2, enc := encOf pending.tail, e0 := l.getLastD st.e0 })
      h3 hc2 hd hl hi

theorem dxt5aChunk_panic {buf : List UInt8} {last : Nat} {code : List Nat} {u : Unpacker} {p : Plane}
    (henc : TablesOk code u.tables.encoding) {E S : List Nat}
    (hp : AlphaPlaneOk p u.tables.endpoint1 u.tables.selector1 E S) (hE : u.alphaEndpoints = E)
    (hS : u.alphaSelectors = S.flatMap words3)
    (hnum : 0 < E.length → u.header.alphaSelectors.num = S.length)
    {z : LevelSize} {nx : Nat} (hz : z.pitch = 8 * nx) :
    ChunkOut buf last code [p] 1 8 nx z (dxt5aChunk u z) := by
  intro x y n c c' bits rest bl st h hr hx hy hzx hzy hi
  obtain ⟨pending, b1, es, b2, ss, h1, h2, h3, hc'⟩ := chunk_some h
  obtain ⟨hc, hen, hpend, hends, hsels, hd, hl⟩ := hr
  obtain ⟨c1, e1, hc1, hlt, hpend'⟩ := nextEncoding_ok henc msgDxt5a h1 hc hen hpend
  generalize pending.headD 0 = enc at *
  obtain ⟨tiles, t1, t2, t3⟩ := tiles_eq hlt
  rw [hends] at h2
  obtain ⟨l, h4, rfl⟩ := forPlanes_one h2
  have hlen : p.endpoints.length = E.length := by rw [hp.ends, List.length_map]
  rw [hlen] at h4
  obtain ⟨c2, ends, e2, hc2, he⟩ := tileEndpoints_ok hp.endTables hp.endsLt (tileCount_le _) msgDxt5a
    h4 hc1
  rw [hsels] at h3
  have hpos := (he 0 (tileCount_pos _)).2
  have step := dxt5a_step (buf := buf) (last := last) hp hS (hnum (by omega)) he t3
  have out := dxt5a_out (buf := buf) (last := last) hp hS (hnum (by omega)) he t3
  unfold dxt5aChunk
  rw [skipBottom_ok z hy, Res.lift_ok, Res.ok_bind, e1, Res.ok_bind]
  simp only
  rw [idx_of_some t2, Res.lift_ok, Res.ok_bind, idx_of_some t1, Res.lift_ok, Res.ok_bind,
    skipRight_ok z hx hzx, Res.lift_ok, Res.ok_bind, hE, e2, Res.ok_bind]
  exact blockLoop_panic (Or.inl rfl) step out hz
    (st := { st with codec := c2, enc := encOf pending.tail, e0 := l.getLastD st.e0 })
    h3 hc2 hd hl hi

theorem dxt5Chunk_panic {buf : List UInt8} {last : Nat} {code : List Nat} {u : Unpacker} {p p' : Plane}
    (henc : TablesOk code u.tables.encoding) {E S E' S' : List Nat}
    (hp : AlphaPlaneOk p u.tables.endpoint1 u.tables.selector1 E S) (hE : u.alphaEndpoints = E)
    (hS : u.alphaSelectors = S.flatMap words3)
    (hnum : 0 < E.length → u.header.alphaSelectors.num = S.length)
    (hp' : ColourPlaneOk p' u.tables.endpoint0 u.tables.selector0 E' S') (hE' : u.colorEndpoints = E')
    (hS' : u.colorSelectors = S') {z : LevelSize} {nx : Nat} (hz : z.pitch = 16 * nx) :
    ChunkOut buf last code [p, p'] 2 16 nx z (dxt5Chunk u z) := by
  intro x y n c c' bits rest bl st h hr hx hy hzx hzy hi
  obtain ⟨pending, b1, es, b2, ss, h1, h2, h3, hc'⟩ := chunk_some h
  obtain ⟨hc, hen, hpend, hends, hsels, hd, hl⟩ := hr
  obtain ⟨c1, e1, hc1, hlt, hpend'⟩ := nextEncoding_ok henc msgDxt5 h1 hc hen hpend
  generalize pending.headD 0 = enc at *
  obtain ⟨tiles, t1, t2, t3⟩ := tiles_eq hlt
  rw [hends] at h2
  obtain ⟨l, l', mid, h4, h5, rfl⟩ := forPlanes_two h2
  have hlen : p.endpoints.length = E.length := by rw [hp.ends, List.length_map]
  have hlen' : p'.endpoints.length = E'.length := by rw [hp'.ends, List.length_map]
  rw [hlen] at h4
  rw [hlen'] at h5
  obtain ⟨c2, ends, e2, hc2, he⟩ := tileEndpoints_ok hp.endTables hp.endsLt (tileCount_le _) msgDxt5
    h4 hc1
  obtain ⟨c3, ends', e3, hc3, he'⟩ := tileEndpoints_ok hp'.endTables hp'.endsLt (tileCount_le _)
    msgDxt5 h5 hc2
  rw [hsels] at h3
  have hpos := (he 0 (tileCount_pos _)).2
  have step := dxt5_step (buf := buf) (last := last) hp hp' hS (hnum (by omega)) hS' he he' t3
  have out := dxt5_out (ends' := ends') (buf := buf) (last := last) hp hp' hS (hnum (by omega)) hS' he t3
  unfold dxt5Chunk
  rw [skipBottom_ok z hy, Res.lift_ok, Res.ok_bind, e1, Res.ok_bind]
  simp only
  rw [idx_of_some t2, Res.lift_ok, Res.ok_bind, idx_of_some t1, Res.lift_ok, Res.ok_bind,
    skipRight_ok z hx hzx, Res.lift_ok, Res.ok_bind, hE, e2, Res.ok_bind]
  simp only
  rw [hE', e3, Res.ok_bind]
  exact blockLoop_panic (Or.inr rfl) step out hz
    (st := { st with codec := c3, enc := encOf pending.tail, e0 := l.getLastD st.e0,
                     e1 := l'.getLastD st.e1 })
    h3 hc3 hd hl hi

theorem dxnChunk_panic {buf : List UInt8} {last : Nat} {code : List Nat} {u : Unpacker} {p : Plane}
    (henc : TablesOk code u.tables.encoding) {E S : List Nat}
    (hp : AlphaPlaneOk p u.tables.endpoint1 u.tables.selector1 E S) (hE : u.alphaEndpoints = E)
    (hS : u.alphaSelectors = S.flatMap words3)
    (hnum : 0 < E.length → u.header.alphaSelectors.num = S.length)
    {z : LevelSize} {nx : Nat} (hz : z.pitch = 16 * nx) :
    ChunkOut buf last code [p, p] 2 16 nx z (dxnChunk u z) := by
  intro x y n c c' bits rest bl st h hr hx hy hzx hzy hi
  obtain ⟨pending, b1, es, b2, ss, h1, h2, h3, hc'⟩ := chunk_some h
  obtain ⟨hc, hen, hpend, hends, hsels, hd, hl⟩ := hr
  obtain ⟨c1, e1, hc1, hlt, hpend'⟩ := nextEncoding_ok henc msgDxn h1 hc hen hpend
  generalize pending.headD 0 = enc at *
  obtain ⟨tiles, t1, t2, t3⟩ := tiles_eq hlt
  rw [hends] at h2
  obtain ⟨l, l', mid, h4, h5, rfl⟩ := forPlanes_two h2
  have hlen : p.endpoints.length = E.length := by rw [hp.ends, List.length_map]
  rw [hlen] at h4 h5
  obtain ⟨c2, ends, e2, hc2, he⟩ := tileEndpoints_ok hp.endTables hp.endsLt (tileCount_le _) msgDxn
    h4 hc1
  obtain ⟨c3, ends', e3, hc3, he'⟩ := tileEndpoints_ok hp.endTables hp.endsLt (tileCount_le _)
    msgDxn h5 hc2
  rw [hsels] at h3
  have hpos := (he 0 (tileCount_pos _)).2
  have step := dxn_step (buf := buf) (last := last) hp hS (hnum (by omega)) he he' t3
  have out := dxn_out (ends' := ends') (buf := buf) (last := last) hp hS (hnum (by omega)) he t3
  unfold dxnChunk
  rw [skipBottom_ok z hy, Res.lift_ok, Res.ok_bind, e1, Res.ok_bind]
  simp only
  rw [idx_of_some t2, Res.lift_ok, Res.ok_bind, idx_of_some t1, Res.lift_ok, Res.ok_bind,
    skipRight_ok z hx hzx, Res.lift_ok, Res.ok_bind, hE, e2, Res.ok_bind]
  simp only
  rw [e3, Res.ok_bind]
  exact blockLoop_panic (Or.inr rfl) step out hz
    (st := { st with codec := c3, enc := encOf pending.tail, e0 := l.getLastD st.e0,
                     e1 := l'.getLastD st.e1 })
    h3 hc3 hd hl hi

/-! ## The level -/

/-- The sizes of the level: several faces, and an odd number of block rows. -/
structure OddSizes (faces nx ny cx cy : Nat) : Prop where
  cx : cx = (nx + 1) / 2
  cy : cy = (ny + 1) / 2
  nxPos : 0 < nx
  nxLt : nx < 2 ^ 15
  nyLt : ny < 2 ^ 15
  several : 2 ≤ faces
  odd : ny % 2 = 1

omit [Build] in
/-- A chunk is inside the destination or not. -/
theorem inside_or {B R nx Y X : Nat} {sr sb : Bool} (hX : 2 * X < nx) (hr : sr = false ↔ 2 * X + 1 < nx)
    (hY : 2 * Y ≤ R + 1) (hb : B * (R * nx + 4 * nx + 4) < 2 ^ 31) :
    (2 * Y < R ∧ Inside B nx sr sb (2 * Y * nx + 2 * X) (R * nx)) ∨
      Outside B nx sr sb (2 * Y * nx + 2 * X) (R * nx) := by
  have e : 2 * Y * nx + 2 * X + nx = (2 * Y + 1) * nx + 2 * X := by
    rw [Nat.add_mul (2 * Y) 1 nx, Nat.one_mul]; omega
  have hT : 2 * Y * nx ≤ R * nx + nx := by
    have := Nat.mul_le_mul_right nx hY
    rwa [Nat.add_mul R 1 nx, Nat.one_mul] at this
  have big : B * (2 * Y * nx + 2 * X + 2 * nx + 4) < 2 ^ 31 :=
    Nat.lt_of_le_of_lt (Nat.mul_le_mul_left _ (by omega)) hb
  have hlen : B * (R * nx) < 2 ^ 31 := Nat.lt_of_le_of_lt (Nat.mul_le_mul_left _ (by omega)) hb
  by_cases h0 : 2 * Y < R
  · by_cases h1 : sb = false → 2 * Y + 1 < R
    · refine Or.inl ⟨h0, flat_lt h0 hX, fun h => flat_lt h0 (hr.mp h), fun h => ?_, fun h h' => ?_,
        Nat.lt_of_le_of_lt (Nat.mul_le_mul_left _ (by omega)) hb⟩
      · rw [e]; exact flat_lt (h1 h) hX
      · rw [e, Nat.add_assoc]; exact flat_lt (h1 h') (hr.mp h)
    · have hsb : sb = false := by cases sb <;> simp_all
      have hge : R ≤ 2 * Y + 1 := by
        rcases Nat.lt_or_ge (2 * Y + 1) R with h | h
        · exact absurd (fun _ => h) h1
        · exact h
      refine Or.inr ⟨Or.inr ⟨flat_lt h0 hX, fun h => flat_lt h0 (hr.mp h), hsb, ?_⟩, big, hlen⟩
      rw [e]
      have := Nat.mul_le_mul_right nx hge
      omega
  · have := Nat.mul_le_mul_right nx (show R ≤ 2 * Y by omega)
    exact Or.inr ⟨Or.inl (by omega), big, hlen⟩

/-- The state before chunk row `Y`, if there is one: the rows before it start inside. -/
def RowOr (buf : List UInt8) (last k B R nx cx : Nat) (cs : List Chunk) (c0 : Chunk)
    (bs : Nat → List Bool) (Y : Nat) (s : Nat × LevelState) : Prop :=
  s.1 = B * (2 * Y * nx) ∧ (0 < Y → 2 * Y < R + 2) ∧ ∃ bl,
    Rel buf last k B ((cs.take (Y * cx)).getLastD c0) (bs (Y * cx)) bl s.2 ∧ bl.length = R * nx

theorem chunkRow_or {buf : List UInt8} {last : Nat} {code : List Nat} {planes : List Plane}
    {k B faces nx ny cx cy : Nat} {z : LevelSize}
    {fn : Nat → Nat → Nat → LevelState → Res LevelState} (hB : B = 8 ∨ B = 16)
    (step : ChunkStep buf last code planes k B nx z fn) (out : ChunkOut buf last code planes k B nx z fn) (hs : OddSizes faces nx ny cx cy)
    (hzx : z.blocksX = nx) (hzy : z.blocksY = ny) (hcx : z.chunksX = cx) (hcy : z.chunksY = cy)
    (hbig : B * (faces * ny * nx + 4 * nx + 4) < 2 ^ 31) {cs : List Chunk} {c0 : Chunk}
    {bs : Nat → List Bool} (hlen : cs.length = faces * cy * cx)
    (hread : ∀ j b, cs[j]? = some b →
      chunk code planes ((cs.take j).getLastD c0) (bs j) = some (b, bs (j + 1)))
    {f y : Nat} (hf : f < faces) (hy : y < cy) {s : Nat × LevelState}
    (h : RowOr buf last k B (faces * ny) nx cx cs c0 bs (f * cy + y) s) :
    let r : Res (Nat × LevelState) := (do
        let (rowDst, st) := s
        let (blockDst, delta) ← (if y &&& 1 = 1 then do
            let n ← subI 32 (asI 32 cx) 1
            let n ← mulI 32 n B
            let n ← mulI 32 n 2
            let b ← addU 64 rowDst (asUI 64 n)
            pure (b, -(B : Int) * 2)
          else pure (rowDst, (B : Int) * 2))
        let (_, st) ← Res.forRange cx (fun i (s : Nat × LevelState) => do
          let (blockDst, st) := s
          let x := if y &&& 1 = 1 then cx - 1 - i else i
          let st ← fn x y blockDst st
          let b ← addI 32 (asI 32 blockDst) delta
          pure (asUI 64 b, st)) (blockDst, st)
        let p ← mulU 32 (B * nx) 2
        let rowDst ← addU 64 rowDst p
        pure (rowDst, st))
    r = .panic ∨ ∃ s', r = .ok s' ∧
      RowOr buf last k B (faces * ny) nx cx cs c0 bs (f * cy + y + 1) s' := by
  intro r
  obtain ⟨rowDst, st⟩ := s
  obtain ⟨hrow, hstart, bl, hrel, hlev⟩ := h
  simp only at hrow hrel
  generalize hY : f * cy + y = Y at hrow hstart hrel ⊢
  have hYlt : Y < faces * cy := hY ▸ flat_lt hf hy
  have hodd : (y &&& 1 = 1) ↔ y % 2 = 1 := by
    rw [show (1 : Nat) = 2 ^ 1 - 1 from rfl, Nat.and_two_pow_sub_one_eq_mod]
  obtain ⟨ecx, ecy, hnx0, hnx, hny, _, _⟩ := hs
  have hB16 : B ≤ 16 := by omega
  generalize hRe : faces * ny = R at *
  have hYR : 2 * Y ≤ R + 1 := by omega
  have hR : 2 * Y * nx ≤ R * nx + nx := by
    have := Nat.mul_le_mul_right nx hYR
    rwa [Nat.add_mul R 1 nx, Nat.one_mul] at this
  have hb1 : B * (2 * Y * nx) + B * (3 * nx) + B * 4 < 2 ^ 31 := by
    have e : B * (2 * Y * nx) + B * (3 * nx) + B * 4 = B * (2 * Y * nx + 3 * nx + 4) := by
      simp only [Nat.mul_add]
    rw [e]
    exact Nat.lt_of_le_of_lt (Nat.mul_le_mul_left _ (by omega)) hbig
  have hb2 : B * (2 * cx) ≤ B * nx + B := by
    have : B * (2 * cx) ≤ B * (nx + 1) := Nat.mul_le_mul_left _ (by omega)
    rwa [Nat.mul_succ] at this
  have hb3 : B * (3 * nx) = 3 * (B * nx) := Nat.mul_left_comm _ _ _
  have hsplit := fun X (hX : X < cx) => inside_or (B := B) (R := R) (nx := nx) (Y := Y) (X := X)
    (sr := decide (nx % 2 = 1 ∧ X + 1 = cx)) (sb := decide (ny % 2 = 1 ∧ y + 1 = cy)) (by omega)
    (by rw [decide_eq_false_iff_not]; omega) hYR hbig
  have hTpos : y % 2 = 1 → 2 ≤ 2 * Y * nx := by
    intro ho
    have := Nat.mul_le_mul (show 2 ≤ 2 * Y by omega) (show 1 ≤ nx by omega)
    omega
  have eT : 2 * (Y + 1) * nx = 2 * Y * nx + 2 * nx := by rw [Nat.mul_add, Nat.add_mul]
  generalize 2 * Y * nx = T at *
  -- where the row starts
  have hfirst : (if y &&& 1 = 1 then do
      let n ← subI 32 (asI 32 cx) 1
      let n ← mulI 32 n B
      let n ← mulI 32 n 2
      let b ← addU 64 rowDst (asUI 64 n)
      pure (b, -(B : Int) * 2)
    else pure (rowDst, (B : Int) * 2) : Res (Nat × Int))
      = .ok (B * T + (if y % 2 = 1 then B * 2 * (cx - 1) else 0),
          if y % 2 = 1 then -(B : Int) * 2 else (B : Int) * 2) := by
    by_cases ho : y % 2 = 1
    · rw [if_pos (hodd.mpr ho), if_pos ho, if_pos ho, asI_small (by omega)]
      unfold subI mulI
      rw [fitI_ok (by unfold InI; omega), Res.lift_ok, Res.ok_bind,
        fitI_ok (by unfold InI; rcases hB with rfl | rfl <;> omega), Res.lift_ok, Res.ok_bind,
        fitI_ok (by unfold InI; rcases hB with rfl | rfl <;> omega), Res.lift_ok, Res.ok_bind]
      have ha : asUI 64 (((cx : Int) - 1) * B * 2) = B * 2 * (cx - 1) := by
        unfold asUI
        rcases hB with rfl | rfl <;> omega
      rw [ha, hrow, addU_ok (by rcases hB with rfl | rfl <;> omega), Res.lift_ok, Res.ok_bind]
      rfl
    · rw [if_neg (fun hc => ho (hodd.mp hc)), if_neg ho, if_neg ho, hrow]
      rfl
  have hinner := Res.forRange_or (n := cx)
    (s := (B * T + (if y % 2 = 1 then B * 2 * (cx - 1) else 0), st))
    (f := fun i (s : Nat × LevelState) => do
      let (blockDst, st) := s
      let x := if y &&& 1 = 1 then cx - 1 - i else i
      let st ← fn x y blockDst st
      let b ← addI 32 (asI 32 blockDst) (if y % 2 = 1 then -(B : Int) * 2 else (B : Int) * 2)
      pure (asUI 64 b, st))
    (fun i s => (s.1 : Int) = B * T + B * 2 * (if y % 2 = 1 then (cx : Int) - 1 - i else i) ∧
      (0 < i → 2 * Y < R) ∧
      ∃ bl, Rel buf last k B ((cs.take (Y * cx + i)).getLastD c0) (bs (Y * cx + i)) bl s.2 ∧
        bl.length = R * nx)
    (by
      refine ⟨?_, by omega, bl, hrel, hlev⟩
      by_cases ho : y % 2 = 1
      · rw [if_pos ho, if_pos ho]
        rcases hB with rfl | rfl <;> omega
      · rw [if_neg ho, if_neg ho]
        rcases hB with rfl | rfl <;> omega)
    (by
      rintro i hi ⟨bd, st⟩ ⟨hbd, _, bl, hrel, hlev⟩
      simp only at hbd hrel
      have hk : Y * cx + i < cs.length := by rw [hlen]; exact flat_lt hYlt hi
      have hg : cs[Y * cx + i]? = some cs[Y * cx + i] := List.getElem?_eq_getElem hk
      have hX : (if y &&& 1 = 1 then cx - 1 - i else i) = if y % 2 = 1 then cx - 1 - i else i := by
        by_cases ho : y % 2 = 1
        · rw [if_pos ho, if_pos (hodd.mpr ho)]
        · rw [if_neg ho, if_neg (fun hc => ho (hodd.mp hc))]
      have hXlt : (if y % 2 = 1 then cx - 1 - i else i) < cx := by split <;> omega
      have hbd' : bd = B * (T + 2 * (if y % 2 = 1 then cx - 1 - i else i)) := by
        by_cases ho : y % 2 = 1
        · rw [if_pos ho] at hbd ⊢
          rcases hB with rfl | rfl <;> omega
        · rw [if_neg ho] at hbd ⊢
          rcases hB with rfl | rfl <;> omega
      have hin := hsplit _ hXlt
      rw [← hlev] at hin
      rcases hin with ⟨hYin, hin⟩ | hout
      · right
        obtain ⟨st', e1, _, hrel'⟩ := step (if y % 2 = 1 then cx - 1 - i else i) y _ _ _ _ _ bl st
          (hread _ _ hg) hrel (by rw [hcx]; exact hXlt) (by rw [hcy]; exact hy)
          (by omega) (by omega) (by rw [hzx, hzy, hcx, hcy]; exact hin)
        rw [hzx, hzy, hcx, hcy] at hrel'
        have hlen' := fun a b c d e => writeChunk_length a b c d e bl
        obtain ⟨bl', hrel', hlev'⟩ : ∃ bl', Rel buf last k B cs[Y * cx + i] (bs (Y * cx + i + 1)) bl' st' ∧
            bl'.length = R * nx := ⟨_, hrel', by rw [hlen', hlev]⟩
        refine ⟨(asUI 64 ((bd : Int) + if y % 2 = 1 then -(B : Int) * 2 else (B : Int) * 2), st'),
          ?_, ?_, fun _ => hYin, bl', ?_, hlev'⟩
        · simp only
          rw [hX, hbd', e1, Res.ok_bind, ← hbd', asI_small (by
            rw [hbd']
            rcases hB with rfl | rfl <;> omega)]
          unfold addI
          rw [fitI_ok (by
            unfold InI
            rw [hbd']
            by_cases ho : y % 2 = 1
            · rw [if_pos ho]; rcases hB with rfl | rfl <;> omega
            · rw [if_neg ho]; rcases hB with rfl | rfl <;> omega), Res.lift_ok, Res.ok_bind]
          rfl
        · simp only
          unfold asUI
          by_cases ho : y % 2 = 1
          · have := hTpos ho
            simp only [if_pos ho] at hbd hXlt ⊢
            rcases hB with rfl | rfl <;> omega
          · simp only [if_neg ho] at hbd hXlt ⊢
            rcases hB with rfl | rfl <;> omega
        · rw [show Y * cx + (i + 1) = Y * cx + i + 1 by omega, take_last hg]
          exact hrel'
      · left
        have := out (if y % 2 = 1 then cx - 1 - i else i) y _ _ _ _ _ bl st
          (hread _ _ hg) hrel (by rw [hcx]; exact hXlt) (by rw [hcy]; exact hy)
          (by omega) (by omega) (by rw [hzx, hzy, hcx, hcy]; exact hout)
        simp only
        rw [hX, hbd', this, Res.panic_bind])
  rcases hinner with e2 | ⟨⟨bd, st'⟩, e2, _, hYin, bl', hrel', hlev'⟩
  · left
    show (do
      let x ← _
      _ : Res (Nat × LevelState)) = .panic
    rw [hfirst, Res.ok_bind]
    simp only
    rw [e2, Res.panic_bind]
  · right
    simp only at hrel'
    rw [show Y * cx + cx = (Y + 1) * cx by rw [Nat.succ_mul]] at hrel'
    have hYin := hYin (by omega)
    refine ⟨(rowDst + B * nx * 2, st'), ?_, ?_, by omega, bl', hrel', hlev'⟩
    · show (do
        let x ← _
        _ : Res (Nat × LevelState)) = _
      rw [hfirst, Res.ok_bind]
      simp only
      rw [e2, Res.ok_bind]
      simp only
      rw [mulU_ok (by omega), Res.lift_ok, Res.ok_bind, addU_ok (by omega), Res.lift_ok, Res.ok_bind]
      rfl
    · show rowDst + B * nx * 2 = _
      rw [eT, hrow, Nat.mul_add, Nat.mul_left_comm B 2 nx, Nat.mul_comm 2]

theorem chunkLoop_panic {buf : List UInt8} {last : Nat} {code : List Nat} {planes : List Plane}
    {k B faces nx ny cx cy : Nat} {z : LevelSize}
    {fn : Nat → Nat → Nat → LevelState → Res LevelState} (hB : B = 8 ∨ B = 16)
    (step : ChunkStep buf last code planes k B nx z fn) (out : ChunkOut buf last code planes k B nx z fn) (hs : OddSizes faces nx ny cx cy)
    (hzx : z.blocksX = nx) (hzy : z.blocksY = ny) (hcx : z.chunksX = cx) (hcy : z.chunksY = cy)
    (hbig : B * (faces * ny * nx + 4 * nx + 4) < 2 ^ 31) {cs : List Chunk} {c0 : Chunk}
    {bits rest : List Bool} (h : scan (chunk code planes) (faces * cy * cx) c0 bits = some (cs, rest))
    {st : LevelState}
    (h0 : Rel buf last k B c0 bits (List.replicate (faces * ny * nx) (List.replicate B 0)) st) :
    chunkLoop faces cx cy (B * nx) B fn st = .panic := by
  have hlen := scan_length h
  obtain ⟨bs, b0, _, hread⟩ := scan_steps h
  have hall := Res.forRange_or (n := faces) (s := ((0 : Nat), st))
    (f := fun _ (s : Nat × LevelState) =>
      Res.forRange cy (fun y (s : Nat × LevelState) => do
        let (rowDst, st) := s
        let (blockDst, delta) ← (if y &&& 1 = 1 then do
            let n ← subI 32 (asI 32 cx) 1
            let n ← mulI 32 n B
            let n ← mulI 32 n 2
            let b ← addU 64 rowDst (asUI 64 n)
            pure (b, -(B : Int) * 2)
          else pure (rowDst, (B : Int) * 2))
        let (_, st) ← Res.forRange cx (fun i (s : Nat × LevelState) => do
          let (blockDst, st) := s
          let x := if y &&& 1 = 1 then cx - 1 - i else i
          let st ← fn x y blockDst st
          let b ← addI 32 (asI 32 blockDst) delta
          pure (asUI 64 b, st)) (blockDst, st)
        let p ← mulU 32 (B * nx) 2
        let rowDst ← addU 64 rowDst p
        pure (rowDst, st)) s)
    (fun f s => RowOr buf last k B (faces * ny) nx cx cs c0 bs (f * cy) s)
    (by
      refine ⟨by simp, by simp, List.replicate (faces * ny * nx) (List.replicate B 0), ?_, by simp⟩
      simp only [Nat.zero_mul, List.take_zero, List.getLastD_nil, b0]; exact h0)
    (by
      intro f hf s hs'
      rw [Nat.succ_mul]
      exact Res.forRange_or (fun y s => RowOr buf last k B (faces * ny) nx cx cs c0 bs (f * cy + y) s)
        hs' (fun y hy s h' => chunkRow_or hB step out hs hzx hzy hcx hcy hbig hlen hread hf hy h'))
  rcases hall with e | ⟨_, _, _, hend, _⟩
  · unfold chunkLoop
    rw [e]
    rfl
  · exfalso
    obtain ⟨_, h2, _, _, _, hs2, hodd⟩ := hs
    have e : ny + 1 = 2 * cy := by omega
    have e2 : faces * ny + faces = 2 * (faces * cy) := by
      rw [← Nat.mul_succ, Nat.succ_eq_add_one, e, Nat.mul_left_comm]
    have := hend (Nat.mul_pos (by omega) (by omega))
    omega

theorem unpackFormat_panic {file buf : List UInt8} {last : Nat} {cs : Codes} {colour alpha : Plane}
    {u : Unpacker} {E S E' S' : List Nat} (hu : UnpackerOk file cs colour alpha u E S E' S')
    {planes : List Plane} (hp : planesOf (format file) colour alpha = some planes)
    {nx ny cx cy B : Nat} (hB : B = if format file = 0 ∨ format file = 9 then 8 else 16)
    (hs : OddSizes (faces file) nx ny cx cy)
    (hbig : B * (faces file * ny * nx + 4 * nx + 4) < 2 ^ 31)
    {l : List Chunk} {bits rest : List Bool}
    (h : scan (chunk cs.encoding planes) (faces file * cy * cx) (firstChunk planes) bits
      = some (l, rest)) {c : Codec} (hc : At buf last c bits) :
    unpackFormat u ⟨nx, ny, cx, cy, B * nx⟩
      { codec := c, dst := List.replicate (B * (faces file * ny * nx)) 0 } = .panic := by
  have hfmt : u.header.format = format file := by rw [hu.header]; rfl
  have hfac : u.header.faces = faces file := by rw [hu.header]; rfl
  have hflat : ∀ n B : Nat, (List.replicate n (List.replicate B (0 : UInt8))).flatten
      = List.replicate (B * n) 0 := by
    intro n B
    rw [List.flatten_replicate_replicate, Nat.mul_comm]
  unfold planesOf at hp
  unfold unpackFormat
  simp only [hfmt, hfac]
  by_cases f0 : format file = 0
  · rw [if_pos f0] at hp ⊢
    obtain rfl := Option.some.inj hp
    rw [if_pos (Or.inl f0)] at hB
    subst hB
    refine chunkLoop_panic (Or.inl rfl) (dxt1Chunk_ok hu.encoding hu.colour hu.colourEnds hu.colourSels rfl) (dxt1Chunk_panic hu.encoding hu.colour hu.colourEnds hu.colourSels rfl)
      hs rfl rfl rfl rfl hbig h ⟨hc, rfl, by simp [firstChunk], rfl, rfl, (hflat _ _).symm, ?_⟩
    intro b hb; rw [List.eq_of_mem_replicate hb]; simp
  · rw [if_neg f0] at hp ⊢
    by_cases f2 : 2 ≤ format file ∧ format file ≤ 6
    · rw [if_pos f2] at hp ⊢
      obtain rfl := Option.some.inj hp
      rw [if_neg (by omega)] at hB
      subst hB
      refine chunkLoop_panic (Or.inr rfl) (dxt5Chunk_ok hu.encoding hu.alpha hu.alphaEnds hu.alphaSels
        hu.alphaNum hu.colour hu.colourEnds hu.colourSels rfl) (dxt5Chunk_panic hu.encoding hu.alpha hu.alphaEnds hu.alphaSels
        hu.alphaNum hu.colour hu.colourEnds hu.colourSels rfl)
        hs rfl rfl rfl rfl hbig h ⟨hc, rfl, by simp [firstChunk], rfl, rfl, (hflat _ _).symm, ?_⟩
      intro b hb; rw [List.eq_of_mem_replicate hb]; simp
    · rw [if_neg f2] at hp ⊢
      by_cases f7 : format file = 7 ∨ format file = 8
      · rw [if_pos f7] at hp
        obtain rfl := Option.some.inj hp
        rw [if_neg (by omega)] at hB
        subst hB
        rw [if_neg (by omega), if_pos f7]
        refine chunkLoop_panic (Or.inr rfl) (dxnChunk_ok hu.encoding hu.alpha hu.alphaEnds hu.alphaSels
          hu.alphaNum rfl) (dxnChunk_panic hu.encoding hu.alpha hu.alphaEnds hu.alphaSels
          hu.alphaNum rfl)
          hs rfl rfl rfl rfl hbig h ⟨hc, rfl, by simp [firstChunk], rfl, rfl, (hflat _ _).symm, ?_⟩
        intro b hb; rw [List.eq_of_mem_replicate hb]; simp
      · rw [if_neg f7] at hp
        by_cases f9 : format file = 9
        · rw [if_pos f9] at hp ⊢
          obtain rfl := Option.some.inj hp
          rw [if_pos (Or.inr f9)] at hB
          subst hB
          refine chunkLoop_panic (Or.inl rfl) (dxt5aChunk_ok hu.encoding hu.alpha hu.alphaEnds hu.alphaSels
            hu.alphaNum rfl) (dxt5aChunk_panic hu.encoding hu.alpha hu.alphaEnds hu.alphaSels
            hu.alphaNum rfl)
            hs rfl rfl rfl rfl hbig h ⟨hc, rfl, by simp [firstChunk], rfl, rfl, (hflat _ _).symm, ?_⟩
          intro b hb; rw [List.eq_of_mem_replicate hb]; simp
        · rw [if_neg f9] at hp
          exact absurd hp (by simp)

theorem oddLevel2_panic {file src : List UInt8} {size last : Nat} {cs : Codes} {colour alpha : Plane}
    {u : Unpacker} {E S E' S' : List Nat} (hu : UnpackerOk file cs colour alpha u E S E' S')
    {planes : List Plane} (hp : planesOf (format file) colour alpha = some planes)
    {B : Nat} (hB : B = if format file = 0 ∨ format file = 9 then 8 else 16)
    (hf : 2 ≤ faces file) (hodd : blocksY file % 2 = 1)
    (hbig : 16 * (faces file * blocksY file * blocksX file) < 2 ^ 30)
    {l : List Chunk} {bits rest : List Bool}
    (h : scan (chunk cs.encoding planes) (chunkCount file) (firstChunk planes) bits = some (l, rest))
    {c : Codec} (hc0 : Codec.start src size = .ok c) (hc : At src last c bits) :
    unpackLevel2 u src size (B * blocksX file * blocksY file) (blocksX file * B) 0
      = .panic := by
  have hfmt : u.header.format = format file := by rw [hu.header]; rfl
  have hfac : u.header.faces = faces file := by rw [hu.header]; rfl
  have hw : u.header.width = width file := by rw [hu.header]; rfl
  have hh : u.header.height = height file := by rw [hu.header]; rfl
  have hwl : width file < 2 ^ 16 := be_lt file _ 2
  have hhl : height file < 2 ^ 16 := be_lt file _ 2
  have hfl : faces file < 2 ^ 8 := be_lt file _ 1
  have hnx : blocksX file < 2 ^ 15 := blocksOf_lt hwl
  have hny : blocksY file < 2 ^ 15 := blocksOf_lt hhl
  have hnx0 : 0 < blocksX file := blocksOf_pos _
  have hny0 : 0 < blocksY file := blocksOf_pos _
  have hBB : B = 8 ∨ B = 16 := by split at hB <;> omega
  have hT : blocksY file * blocksX file ≤ faces file * blocksY file * blocksX file := by
    rw [Nat.mul_assoc]; exact Nat.le_mul_of_pos_left _ (by omega)
  have hT2 : B * blocksX file * blocksY file = B * (blocksY file * blocksX file) := by
    rw [Nat.mul_assoc, Nat.mul_comm (blocksX file)]
  have hT3 : B * blocksX file * blocksY file * faces file
      = B * (faces file * blocksY file * blocksX file) := by
    rw [hT2, Nat.mul_assoc, Nat.mul_comm _ (faces file), Nat.mul_assoc]
  have hbits : ∀ n, n < 2 ^ 16 → shrU 32 n 0 = .ok n := fun n _ => by
    rw [shrU_ok (by omega)]; rfl
  unfold chunkCount at h
  have e := unpackFormat_panic hu hp hB
    (⟨rfl, rfl, hnx0, hnx, hny, hf, hodd⟩ : OddSizes (faces file) (blocksX file) (blocksY file) _ _)
    (by rcases hBB with rfl | rfl <;> omega) h hc
  unfold unpackLevel2
  rw [hw, hh, hbits _ hwl, Res.lift_ok, Res.ok_bind, hbits _ hhl, Res.lift_ok, Res.ok_bind,
    addU_ok (by omega), Res.lift_ok, Res.ok_bind, addU_ok (by omega), Res.lift_ok, Res.ok_bind]
  simp only [blocksOf_shift, hfmt, ← hB, hfac]
  rw [show blocksOf (width file) = blocksX file from rfl, show blocksOf (height file) = blocksY file from rfl]
  rw [mulU_ok (by rcases hBB with rfl | rfl <;> omega), Res.lift_ok, Res.ok_bind]
  rw [if_neg (by
    rintro ⟨_, hc | hc⟩
    · rw [Nat.mul_comm] at hc; omega
    · apply hc
      rw [show (3 : Nat) = 2 ^ 2 - 1 from rfl, Nat.and_two_pow_sub_one_eq_mod]
      rcases hBB with rfl | rfl <;> omega)]
  rw [if_neg (by rcases hBB with rfl | rfl <;> omega), Nat.mul_comm (blocksX file) B]
  rw [mulU_ok (by rw [hT3]; rcases hBB with rfl | rfl <;> omega), Res.lift_ok, Res.ok_bind,
    mulU_ok (by rw [hT2]; rcases hBB with rfl | rfl <;> omega), Res.lift_ok, Res.ok_bind,
    if_neg (by omega), addU_ok (by omega), Res.lift_ok, Res.ok_bind, addU_ok (by omega), Res.lift_ok,
    Res.ok_bind, hc0, Res.orErr_ok, Res.ok_bind, hT3]
  have es : ∀ n : Nat, (n + 1) >>> 1 = (n + 1) / 2 := fun n => by
    rw [Nat.shiftRight_eq_div_pow]
  rw [es, es, e, Res.panic_bind]

/-- A complete file with several faces and an odd number of block rows. -/
theorem crunchUnpackLevel_panic {file dxt : List UInt8} (h : unpack file = some dxt)
    (hsmall : file.length < 2 ^ 32) (hins : SectionsInside file) (hf : 2 ≤ faces file)
    (hodd : blocksY file % 2 = 1)
    (hbig : 16 * (faces file * blocksY file * blocksX file) < 2 ^ 30) :
    crunchUnpackLevel file (asU 32 file.length) 0 = .panic := by
  obtain ⟨hh, hlv, hhb, cs, colour, alpha, planes, chunks, h1, h2, h3, h4, h5, rfl⟩ := unpack_some h
  have h74 : 74 ≤ file.length := by unfold headerBytes at hhb; omega
  obtain ⟨u, E, S, E', S', eu, hu⟩ := init_ok hh hhb h74 h1 h2 h3 hins
  obtain ⟨bits, rest, hb, h, h0, hend⟩ := readSection_some h5
  obtain ⟨es, c, ec, hc⟩ := section_start hb
  have hfmt : format file = 0 ∨ (2 ≤ format file ∧ format file ≤ 9) := by
    unfold planesOf at h4
    split at h4
    · omega
    · split at h4
      · omega
      · split at h4
        · omega
        · split at h4
          · omega
          · exact absurd h4 (by simp)
  have hwl : width file < 2 ^ 16 := be_lt file _ 2
  have hhl : height file < 2 ^ 16 := be_lt file _ 2
  have hnx : blocksX file < 2 ^ 15 := blocksOf_lt hwl
  have hnx0 : 0 < blocksX file := blocksOf_pos _
  have hny0 : 0 < blocksY file := blocksOf_pos _
  generalize hB : (if format file = 0 ∨ format file = 9 then 8 else 16) = B
  have hBB : B = 8 ∨ B = 16 := by split at hB <;> omega
  have hT : blocksY file * blocksX file ≤ faces file * blocksY file * blocksX file := by
    rw [Nat.mul_assoc]; exact Nat.le_mul_of_pos_left _ (by omega)
  have hT2 : B * blocksX file * blocksY file = B * (blocksY file * blocksX file) := by
    rw [Nat.mul_assoc, Nat.mul_comm (blocksX file)]
  have hTp : 0 < blocksY file * blocksX file := Nat.mul_pos hny0 hnx0
  have hbits : ∀ n, n < 2 ^ 16 → shrU 32 n 0 = .ok n := fun n _ => by
    rw [shrU_ok (by omega)]; rfl
  have hlevel := oddLevel2_panic hu h4 hB.symm hf hodd hbig h ec hc
  have hofs : u.header.levelOfs[0]? = some (levelOfs file 0) := by
    rw [hu.header]
    show ((List.range (levels file)).map (levelOfs file))[0]? = _
    rw [List.getElem?_map, List.getElem?_range hlv]; rfl
  have hnext : nextLevelOfs u 0 = .ok (levelEnd file) := by
    unfold nextLevelOfs levelEnd
    rw [addU_ok (by omega), Out.ok_bind]
    have hlvs : u.header.levels = levels file := by rw [hu.header]; rfl
    rw [hlvs]
    by_cases hl1 : 1 < levels file
    · refine (if_pos hl1).trans ?_
      rw [if_pos hl1]
      apply idx_of_some
      rw [hu.header]
      show ((List.range (levels file)).map (levelOfs file))[0 + 1]? = _
      rw [List.getElem?_map, List.getElem?_range hl1]; rfl
    · refine (if_neg hl1).trans ?_
      rw [if_neg hl1, hu.size]; rfl
  have hunpack : unpackLevel u (B * blocksX file * blocksY file) (blocksX file * B) 0
      = .panic := by
    unfold unpackLevel
    rw [if_neg (by rw [hT2]; rcases hBB with rfl | rfl <;> omega), idx_of_some hofs, Res.lift_ok,
      Res.ok_bind, hnext, Res.lift_ok, Res.ok_bind, if_neg (by omega), hu.data, es, Res.lift_ok,
      Res.ok_bind, subU_ok (by omega), Res.lift_ok, Res.ok_bind, hlevel]
  unfold crunchUnpackLevel
  rw [show asU 32 file.length = file.length from Nat.mod_eq_of_lt hsmall,
    textureInfo_ok h74 rfl hhb hh (by omega), Res.lift_ok, Res.ok_bind]
  simp only
  rw [if_neg (by simp)]
  unfold unpackBegin
  rw [if_neg (by omega), eu, Res.orErr_ok, Res.ok_bind, hbits _ hwl, Res.lift_ok, Res.ok_bind,
    hbits _ hhl, Res.lift_ok, Res.ok_bind, addU_ok (by omega), Res.lift_ok, Res.ok_bind,
    addU_ok (by omega), Res.lift_ok, Res.ok_bind, bytesPerDxtBlock_ok hfmt, hB, Res.ok_bind]
  rw [Nat.max_comm 1 (width file), Nat.max_comm 1 (height file), blocksOf_shift, blocksOf_shift,
    show blocksOf (width file) = blocksX file from rfl, show blocksOf (height file) = blocksY file from rfl,
    Nat.max_eq_right (show 1 ≤ blocksX file from hnx0), Nat.max_eq_right (show 1 ≤ blocksY file from hny0)]
  rw [mulU_ok (by rcases hBB with rfl | rfl <;> omega), Res.lift_ok, Res.ok_bind,
    mulU_ok (by
      rw [Nat.mul_comm (blocksX file) B, hT2]
      rcases hBB with rfl | rfl <;> omega), Res.lift_ok, Res.ok_bind]
  rw [show blocksX file * B * blocksY file = B * blocksX file * blocksY file by
    rw [Nat.mul_comm (blocksX file) B], hunpack, Res.panic_bind]

end Verif.Proofs.Crn
