import Verif.Proofs.Crn.Indices

/-!
# The chunks of a level: the decoder against the specification

The four functions for the formats share their shape: the encoding, the endpoints of the tiles, and
then four blocks. `BlockStep` says what one block does, and `ChunkStep` what a chunk does.
-/

namespace Verif.Proofs.Crn

open Verif Verif.Model Verif.Model.Crn Verif.Spec.Crn

variable [Build]

/-! ## States -/

/-- The last endpoint indices of the planes. -/
def endsOf (k : Nat) (st : LevelState) : List Nat := if k = 1 then [st.e0] else [st.e0, st.e1]

/-- The last selector indices of the planes. -/
def selsOf (k : Nat) (st : LevelState) : List Nat := if k = 1 then [st.s0] else [st.s0, st.s1]

/-- What a block leaves alone. -/
structure Frame (st st' : LevelState) : Prop where
  enc : st'.enc = st.enc
  e0 : st'.e0 = st.e0
  e1 : st'.e1 = st.e1

omit [Build] in
theorem Frame.trans {a b c : LevelState} (h : Frame a b) (h' : Frame b c) : Frame a c :=
  ⟨h'.enc.trans h.enc, h'.e0.trans h.e0, h'.e1.trans h.e1⟩

omit [Build] in
theorem Frame.ends {a b : LevelState} (h : Frame a b) (k : Nat) : endsOf k b = endsOf k a := by
  unfold endsOf; rw [h.e0, h.e1]

/-- `bl` with block `n` replaced, if it is visible. -/
def putIf (v : Bool) (n : Nat) (b : List UInt8) (bl : List (List UInt8)) : List (List UInt8) :=
  if v then bl.set n b else bl

omit [Build] in
theorem putIf_length (v : Bool) (n : Nat) (b : List UInt8) (bl : List (List UInt8)) :
    (putIf v n b bl).length = bl.length := by
  unfold putIf; split <;> simp

omit [Build] in
theorem putIf_all {B : Nat} {v : Bool} {n : Nat} {b : List UInt8} {bl : List (List UInt8)}
    (h : ∀ x ∈ bl, x.length = B) (hb : b.length = B) : ∀ x ∈ putIf v n b bl, x.length = B := by
  intro x hx
  unfold putIf at hx
  split at hx
  · rcases List.mem_or_eq_of_mem_set hx with h1 | h1
    · exact h x h1
    · rw [h1, hb]
  · exact h x hx

/-- The blocks of a chunk in their places. -/
def writeChunk (nx : Nat) (skipRight skipBottom : Bool) (n : Nat) (blk : Nat → List UInt8)
    (bl : List (List UInt8)) : List (List UInt8) :=
  putIf (!(skipRight || skipBottom)) (n + nx + 1) (blk 3)
    (putIf (!skipBottom) (n + nx) (blk 2)
      (putIf (!skipRight) (n + 1) (blk 1) (putIf true n (blk 0) bl)))

/-- The selector indices of the next block. -/
def readSels (planes : List Plane) : List Nat → Reader (List Nat) :=
  forPlanes (fun p s => nextPaletteIndex p.selectorCode p.selectors.length s) planes

/-- What the body of the loop over the blocks of a chunk does. -/
def BlockStep (buf : List UInt8) (last : Nat) (planes : List Plane) (k B : Nat)
    (block : Nat → Bool → Nat → LevelState → Res LevelState)
    (blk : Nat → List Nat → List UInt8) : Prop :=
  ∀ (q n : Nat) (visible : Bool) (st : LevelState) (bits rest : List Bool) (ss : List Nat)
    (bl : List (List UInt8)),
    q < 4 → readSels planes (selsOf k st) bits = some (ss, rest) → At buf last st.codec bits →
    st.dst = bl.flatten → (∀ x ∈ bl, x.length = B) → (visible = true → n < bl.length) →
    B * bl.length < 2 ^ 31 →
    ∃ st', block q visible (B / 4 * n) st = .ok st' ∧ At buf last st'.codec rest ∧
      selsOf k st' = ss ∧ Frame st st' ∧ (blk q ss).length = B ∧
      st'.dst = (putIf visible n (blk q ss) bl).flatten

omit [Build] in
theorem scan_cons {α : Type} {r : α → Reader α} {n : Nat} {a : α} {bits rest : List Bool}
    {l : List α} (h : scan r (n + 1) a bits = some (l, rest)) :
    ∃ b mid l', r a bits = some (b, mid) ∧ scan r n b mid = some (l', rest) ∧ l = b :: l' := by
  unfold scan at h
  obtain ⟨b, mid, h1, h⟩ := reader_bind.mp h
  obtain ⟨l', m', h2, h⟩ := reader_bind.mp h
  obtain ⟨rfl, rfl⟩ := reader_pure.mp h
  exact ⟨b, mid, l', h1, h2, rfl⟩

omit [Build] in
theorem scan_four {α : Type} {r : α → Reader α} {a : α} {bits rest : List Bool} {l : List α}
    (h : scan r 4 a bits = some (l, rest)) :
    ∃ a0 a1 a2 a3 b1 b2 b3, l = [a0, a1, a2, a3] ∧ r a bits = some (a0, b1) ∧
      r a0 b1 = some (a1, b2) ∧ r a1 b2 = some (a2, b3) ∧ r a2 b3 = some (a3, rest) := by
  obtain ⟨a0, b1, l0, h0, t0, rfl⟩ := scan_cons h
  obtain ⟨a1, b2, l1, h1, t1, rfl⟩ := scan_cons t0
  obtain ⟨a2, b3, l2, h2, t2, rfl⟩ := scan_cons t1
  obtain ⟨a3, b4, l3, h3, t3, rfl⟩ := scan_cons t2
  obtain ⟨rfl, rfl⟩ := reader_pure.mp t3
  exact ⟨a0, a1, a2, a3, b1, b2, b3, rfl, h0, h1, h2, h3⟩

/-- The result of the four blocks of a chunk. -/
def BlocksDone (buf : List UInt8) (last k B nx : Nat) (skipRight skipBottom : Bool) (n : Nat)
    (blk : Nat → List Nat → List UInt8) (ss : List (List Nat)) (rest : List Bool)
    (bl : List (List UInt8)) (st : LevelState) (r : Res LevelState) : Prop :=
  ∃ st', r = .ok st' ∧ At buf last st'.codec rest ∧ selsOf k st' = ss.getLastD [] ∧ Frame st st' ∧
    (∀ q, q < 4 → (blk q (ss.getD q [])).length = B) ∧
    st'.dst = (writeChunk nx skipRight skipBottom n (fun q => blk q (ss.getD q [])) bl).flatten

/-- Where the blocks of a chunk are. -/
structure Inside (B nx : Nat) (skipRight skipBottom : Bool) (n len : Nat) : Prop where
  b0 : n < len
  b1 : skipRight = false → n + 1 < len
  b2 : skipBottom = false → n + nx < len
  b3 : skipRight = false → skipBottom = false → n + nx + 1 < len
  big : B * (len + 2 * nx + 4) < 2 ^ 31

omit [Build] in
theorem size_parts {B : Nat} (hB : B = 8 ∨ B = 16) (m : Nat) :
    (B / 4 * m) <<< 2 = B * m ∧ (B * m) >>> 2 = B / 4 * m := by
  rw [Nat.shiftLeft_eq, Nat.shiftRight_eq_div_pow]
  rcases hB with rfl | rfl <;> omega

theorem nextRow_ok {α : Type} {B : Nat} (hB : B = 8 ∨ B = 16) {m nx : Nat}
    (h : B * (m + nx + 2) < 2 ^ 31) (hm : 2 ≤ m) (f : Nat → Res α) :
    (do
      let pd ← shlU 64 (B / 4 * m) 2
      let d ← addI 32 (-(B : Int) * 2) (asI 32 (B * nx))
      let v ← addI 32 (asI 32 pd) d
      let pd ← shrU 64 (asUI 64 v) 2
      f pd : Res α) = f (B / 4 * (m + nx - 2)) := by
  have e : B * (m + nx + 2) = B * m + B * nx + B * 2 := by rw [Nat.mul_add, Nat.mul_add]
  have e2 : B * (m + nx - 2) = B * m + B * nx - B * 2 := by rw [Nat.mul_sub, Nat.mul_add]
  have h2 : B * 2 ≤ B * m := Nat.mul_le_mul_left _ hm
  rw [shlU_ok (by omega), Res.lift_ok, Res.ok_bind, (size_parts hB m).1]
  have hp : B ≤ 16 := by omega
  have hb : (-(B : Int) * 2) = -((B * 2 : Nat) : Int) := by omega
  rw [Nat.mod_eq_of_lt (show B * m < 2 ^ 64 by omega), asI_small (show B * nx < 2 ^ 31 by omega)]
  unfold addI
  rw [fitI_ok (by unfold InI; omega), Res.lift_ok, Res.ok_bind,
    asI_small (show B * m < 2 ^ 31 by omega), fitI_ok (by unfold InI; omega), Res.lift_ok, Res.ok_bind,
    shrU_ok (by omega), Res.lift_ok, Res.ok_bind]
  have hv : asUI 64 (((B * m : Nat) : Int) + (-(B : Int) * 2 + ((B * nx : Nat) : Int)))
      = B * (m + nx - 2) := by
    unfold asUI
    omega
  rw [hv, (size_parts hB _).2]

theorem fourSteps {buf : List UInt8} {last : Nat} {planes : List Plane} {k B : Nat}
    {block : Nat → Bool → Nat → LevelState → Res LevelState} {blk : Nat → List Nat → List UInt8}
    (step : BlockStep buf last planes k B block blk)
    {nx : Nat} {skipRight skipBottom : Bool} {n : Nat} {st : LevelState}
    {bits rest : List Bool} {ss : List (List Nat)} {bl : List (List UInt8)}
    (h : scan (readSels planes) 4 (selsOf k st) bits = some (ss, rest))
    (hc : At buf last st.codec bits) (hd : st.dst = bl.flatten) (hl : ∀ x ∈ bl, x.length = B)
    (hi : Inside B nx skipRight skipBottom n bl.length) :
    ∃ s0 s1 s2 s3, block 0 true (B / 4 * n) st = .ok s0 ∧
      block 1 (!skipRight) (B / 4 * (n + 1)) s0 = .ok s1 ∧
      block 2 (!skipBottom) (B / 4 * (n + nx)) s1 = .ok s2 ∧
      block 3 (!(skipRight || skipBottom)) (B / 4 * (n + nx + 1)) s2 = .ok s3 ∧
      BlocksDone buf last k B nx skipRight skipBottom n blk ss rest bl st (.ok s3) := by
  obtain ⟨a0, a1, a2, a3, m1, m2, m3, rfl, h0, h1, h2, h3⟩ := scan_four h
  obtain ⟨i0, i1, i2, i3, big⟩ := hi
  have e : B * (bl.length + 2 * nx + 4) = B * bl.length + B * (2 * nx + 4) := by
    rw [Nat.add_assoc, Nat.mul_add]
  have hsz : B * bl.length < 2 ^ 31 := by omega
  obtain ⟨s0, e0, c0, q0, f0, l0, d0⟩ := step 0 n true st bits m1 a0 bl (by omega) h0 hc hd hl
    (fun _ => i0) hsz
  have len0 := putIf_length true n (blk 0 a0) bl
  obtain ⟨s1, e1, c1, q1, f1, l1, d1⟩ := step 1 (n + 1) (!skipRight) s0 m1 m2 a1 _ (by omega)
    (by rw [q0]; exact h1) c0 d0 (putIf_all hl l0)
    (fun hv => by rw [len0]; exact i1 (by simpa using hv)) (by rw [len0]; exact hsz)
  have len1 := putIf_length (!skipRight) (n + 1) (blk 1 a1) (putIf true n (blk 0 a0) bl)
  obtain ⟨s2, e2, c2, q2, f2, l2, d2⟩ := step 2 (n + nx) (!skipBottom) s1 m2 m3 a2 _ (by omega)
    (by rw [q1]; exact h2) c1 d1 (putIf_all (putIf_all hl l0) l1)
    (fun hv => by rw [len1, len0]; exact i2 (by simpa using hv)) (by rw [len1, len0]; exact hsz)
  have len2 := putIf_length (!skipBottom) (n + nx) (blk 2 a2)
    (putIf (!skipRight) (n + 1) (blk 1 a1) (putIf true n (blk 0 a0) bl))
  obtain ⟨s3, e3, c3, q3, f3, l3, d3⟩ := step 3 (n + nx + 1) (!(skipRight || skipBottom)) s2 m3 rest
    a3 _ (by omega) (by rw [q2]; exact h3) c2 d2 (putIf_all (putIf_all (putIf_all hl l0) l1) l2)
    (fun hv => by
      rw [len2, len1, len0]
      simp only [Bool.not_eq_true', Bool.or_eq_false_iff] at hv
      exact i3 hv.1 hv.2) (by rw [len2, len1, len0]; exact hsz)
  refine ⟨s0, s1, s2, s3, e0, e1, e2, e3, s3, rfl, c3, q3, f0.trans (f1.trans (f2.trans f3)), ?_, d3⟩
  intro q hq
  rcases q with _ | _ | _ | _ | q
  · exact l0
  · exact l1
  · exact l2
  · exact l3
  · omega

omit [Build] in
theorem words_lt {B : Nat} (hB : B = 8 ∨ B = 16) {nx n len : Nat} {sr sb : Bool}
    (hi : Inside B nx sr sb n len) {m : Nat} (hm : m ≤ n + 2 * nx + 4) : B / 4 * m < 2 ^ 29 := by
  have hb := hi.big
  have h0 := hi.b0
  have h1 : B * m ≤ B * (len + 2 * nx + 4) := Nat.mul_le_mul_left _ (by omega)
  rcases hB with rfl | rfl <;> omega

theorem addWords {B : Nat} (hB : B = 8 ∨ B = 16) {nx n len : Nat} {sr sb : Bool}
    (hi : Inside B nx sr sb n len) {m : Nat} (hm : m + 1 ≤ n + 2 * nx + 4) :
    addU 64 (B / 4 * m) (B / 4) = .ok (B / 4 * (m + 1)) := by
  have := words_lt hB hi hm
  rw [Nat.mul_succ] at this ⊢
  rw [addU_ok (by omega)]

theorem blockLoop_ok {buf : List UInt8} {last : Nat} {planes : List Plane} {k B : Nat}
    {block : Nat → Bool → Nat → LevelState → Res LevelState} {blk : Nat → List Nat → List UInt8}
    (hB : B = 8 ∨ B = 16) (step : BlockStep buf last planes k B block blk) {z : LevelSize}
    {nx : Nat} (hz : z.pitch = B * nx) {skipRight skipBottom : Bool} {n : Nat} {st : LevelState}
    {bits rest : List Bool} {ss : List (List Nat)} {bl : List (List UInt8)}
    (h : scan (readSels planes) 4 (selsOf k st) bits = some (ss, rest))
    (hc : At buf last st.codec bits) (hd : st.dst = bl.flatten) (hl : ∀ x ∈ bl, x.length = B)
    (hi : Inside B nx skipRight skipBottom n bl.length) :
    BlocksDone buf last k B nx skipRight skipBottom n blk ss rest bl st
      (blockLoop z (B / 4) B skipRight skipBottom (B * n) block st) := by
  obtain ⟨s0, s1, s2, s3, e0, e1, e2, e3, done⟩ := fourSteps step h hc hd hl hi
  suffices hr : blockLoop z (B / 4) B skipRight skipBottom (B * n) block st = .ok s3 by
    rw [hr]; exact done
  have hi0 := hi.b0
  have big := hi.big
  unfold blockLoop
  simp only [Res.forRange, Res.ok_bind]
  rw [(size_parts hB n).2, hz]
  simp only [ne_eq, Nat.reduceAdd, Nat.reduceMul, not_true_eq_false, decide_false, Bool.false_and,
    Bool.or_false, Bool.not_false, e0, Res.ok_bind]
  rw [addWords hB hi (m := n) (by omega), Res.lift_ok, Res.ok_bind]
  simp only [Res.pure_eq, Res.ok_bind]
  simp only [Nat.one_ne_zero, not_false_eq_true, decide_true, Bool.true_and, e1, Res.ok_bind]
  rw [addWords hB hi (m := n + 1) (by omega), Res.lift_ok, Res.ok_bind, Res.ok_bind]
  simp only
  rw [nextRow_ok hB (m := n + 1 + 1) (nx := nx) (by
    have : B * (n + 1 + 1 + nx + 2) ≤ B * (bl.length + 2 * nx + 4) :=
      Nat.mul_le_mul_left _ (by omega)
    omega) (by omega), Res.ok_bind]
  simp only [show n + 1 + 1 + nx - 2 = n + nx by omega, Bool.false_or, e2, Res.ok_bind]
  rw [addWords hB hi (m := n + nx) (by omega), Res.lift_ok, Res.ok_bind, Res.ok_bind]
  simp only [e3, Res.ok_bind]
  rw [addWords hB hi (m := n + nx + 1) (by omega), Res.lift_ok, Res.ok_bind, Res.ok_bind]
  simp only
  rw [nextRow_ok hB (m := n + nx + 1 + 1) (nx := nx) (by
    have : B * (n + nx + 1 + 1 + nx + 2) ≤ B * (bl.length + 2 * nx + 4) :=
      Nat.mul_le_mul_left _ (by omega)
    omega) (by omega), Res.ok_bind]

/-! ## Planes -/

/-- The palettes and tables of the decoder for a colour plane. -/
structure ColourPlaneOk (p : Plane) (dmE dmS : DataModel) (E S : List Nat) : Prop where
  ends : p.endpoints = E.map (leBytes 4)
  sels : p.selectors = S.map (leBytes 4)
  endsLt : E.length < 2 ^ 16
  selsLt : S.length < 2 ^ 16
  endTables : 0 < E.length → TablesOk p.endpointCode dmE
  selTables : 0 < S.length → TablesOk p.selectorCode dmS

/-- The palettes and tables of the decoder for an alpha plane. -/
structure AlphaPlaneOk (p : Plane) (dmE dmS : DataModel) (E S : List Nat) : Prop where
  ends : p.endpoints = E.map (leBytes 2)
  sels : p.selectors = S.map (leBytes 6)
  endsLt : E.length < 2 ^ 16
  selsLt : S.length < 2 ^ 16
  endTables : 0 < E.length → TablesOk p.endpointCode dmE
  selTables : 0 < S.length → TablesOk p.selectorCode dmS
  endsVal : ∀ v ∈ E, v < 2 ^ 16
  selsVal : ∀ v ∈ S, v < 2 ^ 48

omit [Build] in
theorem map_getD {α β : Type} (f : α → β) (l : List α) (i : Nat) (a : α) (b : β)
    (h : i < l.length) : (l.map f).getD i b = f (l.getD i a) := by
  simp [List.getD_eq_getElem?_getD, List.getElem?_eq_getElem h]

omit [Build] in
theorem getD_mem {l : List Nat} {i : Nat} (h : i < l.length) : l.getD i 0 ∈ l := by
  rw [List.getD_eq_getElem?_getD, List.getElem?_eq_getElem h]
  exact List.getElem_mem _

omit [Build] in
theorem getElem?_getD {l : List Nat} {i : Nat} (h : i < l.length) : l[i]? = some (l.getD i 0) := by
  rw [List.getD_eq_getElem?_getD, List.getElem?_eq_getElem h]; rfl

omit [Build] in
theorem words3_get {S : List Nat} {p : Nat} (h : p < S.length) :
    3 * p + 3 ≤ (S.flatMap words3).length ∧
    ((S.flatMap words3).drop (3 * p))[0]? = some (S.getD p 0 % 65536) ∧
    ((S.flatMap words3).drop (3 * p))[1]? = some (S.getD p 0 / 65536 % 65536) ∧
    ((S.flatMap words3).drop (3 * p))[2]? = some (S.getD p 0 / 4294967296) := by
  induction S generalizing p with
  | nil => simp at h
  | cons a S ih =>
    cases p with
    | zero => simp [words3]
    | succ p =>
      have := ih (p := p) (by simpa using h)
      rw [List.flatMap_cons, show 3 * (p + 1) = 3 + 3 * p by omega, ← List.drop_drop,
        show (words3 a ++ S.flatMap words3).drop 3 = S.flatMap words3 from rfl]
      refine ⟨?_, this.2⟩
      have h1 : (words3 a ++ S.flatMap words3).length = 3 + (S.flatMap words3).length := by
        simp [words3]; omega
      omega

theorem writeAlpha_ok {u : Unpacker} {S : List Nat} (hu : u.alphaSelectors = S.flatMap words3)
    (hS : S.length < 2 ^ 16) (hv : ∀ v ∈ S, v < 2 ^ 48) {e p pd : Nat} (he : e < 2 ^ 16)
    (hp : p < S.length) {dst : List UInt8} (hd : 4 * pd + 8 ≤ dst.length)
    (hl : dst.length < 2 ^ 64) :
    writeAlpha u e p pd dst = .ok (put dst (4 * pd) (leBytes 2 e ++ leBytes 6 (S.getD p 0))) := by
  obtain ⟨h3, g0, g1, g2⟩ := words3_get hp
  have hx := hv _ (getD_mem hp)
  generalize S.getD p 0 = x at g0 g1 g2 hx
  unfold writeAlpha
  rw [mulU_ok (by omega), Out.ok_bind, hu, Nat.mul_comm p 3, sliceFrom_ok (by omega), Out.ok_bind,
    idx_of_some g0, Out.ok_bind, shlU_ok (by omega), Out.ok_bind,
    Nat.mod_eq_of_lt (show (x % 65536) <<< 16 < 2 ^ 32 by rw [Nat.shiftLeft_eq]; omega), or_shl he, writeInt_ok (by omega) hl,
    Out.ok_bind, idx_of_some g1, Out.ok_bind, idx_of_some g2, Out.ok_bind, shlU_ok (by omega),
    Out.ok_bind, Nat.mod_eq_of_lt (show (x / 4294967296) <<< 16 < 2 ^ 32 by
      rw [Nat.shiftLeft_eq]; omega), addU_ok (by omega), Out.ok_bind,
    or_shl (by omega)]
  have hlen : (put dst (4 * pd) (leBytes 4 (e + x % 65536 * 2 ^ 16))).length = dst.length :=
    put_length (by rw [leBytes_length]; omega)
  rw [writeInt_ok (by omega) (by omega), put_put (by rw [leBytes_length]; omega)
    (by rw [leBytes_length, leBytes_length]; omega)]
  refine congrArg Out.ok (congrArg (put dst (4 * pd)) ?_)
  have e1 := leBytes_append (m := 2) (n := 6) (x := e) (y := x) (by omega)
  have e2 := leBytes_append (m := 4) (n := 4) (x := e + x % 65536 * 2 ^ 16)
    (y := x / 65536 % 65536 + x / 4294967296 * 2 ^ 16) (by omega)
  rw [e1, e2]
  congr 1
  omega

end Verif.Proofs.Crn
