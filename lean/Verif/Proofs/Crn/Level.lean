import Verif.Proofs.Crn.Formats

/-!
# A level: the loops over the chunks against the specification
-/

namespace Verif.Proofs.Crn

open Verif Verif.Model Verif.Model.Crn Verif.Spec.Crn

variable [Build]

/-! ## The chunks one by one -/

omit [Build] in
/-- The steps of `scan`: the bits before every step. -/
theorem scan_steps {α : Type} {r : α → Reader α} {n : Nat} {a : α} {bits rest : List Bool}
    {l : List α} (h : scan r n a bits = some (l, rest)) :
    ∃ bs : Nat → List Bool, bs 0 = bits ∧ bs n = rest ∧
      ∀ k b, l[k]? = some b → r ((l.take k).getLastD a) (bs k) = some (b, bs (k + 1)) := by
  induction n generalizing a bits l with
  | zero =>
    obtain ⟨rfl, rfl⟩ := reader_pure.mp h
    exact ⟨fun _ => bits, rfl, rfl, by simp⟩
  | succ n ih =>
    obtain ⟨b, mid, l', h1, h2, rfl⟩ := scan_cons h
    obtain ⟨bs, e0, en, hs⟩ := ih h2
    refine ⟨fun k => match k with | 0 => bits | k + 1 => bs k, rfl, en, ?_⟩
    intro k c hk
    cases k with
    | zero =>
      obtain rfl : b = c := by simpa using hk
      simpa [e0] using h1
    | succ k =>
      rw [List.take_succ_cons, List.getLastD_cons]
      exact hs k c (by simpa using hk)

omit [Build] in
theorem take_last {α : Type} {l : List α} {k : Nat} {a b : α} (h : l[k]? = some b) :
    (l.take (k + 1)).getLastD a = b := by
  rw [List.take_add_one, h, Option.toList_some, List.getLastD_concat]

/-! ## The blocks -/

omit [Build] in
theorem putIf_get {v : Bool} {m j : Nat} {b : List UInt8} {bl : List (List UInt8)}
    (h : v = true → m < bl.length) :
    (putIf v m b bl)[j]? = if v = true ∧ j = m then some b else bl[j]? := by
  unfold putIf
  by_cases hv : v = true
  · rw [if_pos hv, List.getElem?_set]
    by_cases hj : m = j
    · rw [if_pos hj, if_pos (h hv), if_pos ⟨hv, hj.symm⟩]
    · rw [if_neg hj, if_neg (fun hc => hj hc.2.symm)]
  · rw [if_neg hv, if_neg (fun hc => hv hc.1)]

omit [Build] in
theorem flat_inj {nx F F' x x' : Nat} (hx : x < nx) (hx' : x' < nx) :
    F * nx + x = F' * nx + x' ↔ F = F' ∧ x = x' := by
  constructor
  · intro h
    have h1 : (F * nx + x) / nx = F := by
      rw [Nat.mul_comm, Nat.mul_add_div (by omega), Nat.div_eq_of_lt hx, Nat.add_zero]
    have h2 : (F' * nx + x') / nx = F' := by
      rw [Nat.mul_comm, Nat.mul_add_div (by omega), Nat.div_eq_of_lt hx', Nat.add_zero]
    have : F = F' := by rw [← h1, ← h2, h]
    subst this
    exact ⟨rfl, by omega⟩
  · rintro ⟨rfl, rfl⟩; rfl

/-- The place of a chunk: its row and column, of `R` rows and `nx` columns of blocks. -/
structure Place (R nx Y X : Nat) (sr sb : Bool) : Prop where
  row : 2 * Y < R
  col : 2 * X < nx
  right : sr = false ↔ 2 * X + 1 < nx
  bottom : sb = false ↔ 2 * Y + 1 < R

omit [Build] in
theorem flat_lt {R nx F x : Nat} (hF : F < R) (hx : x < nx) : F * nx + x < R * nx := by
  have : (F + 1) * nx ≤ R * nx := Nat.mul_le_mul_right _ hF
  rw [Nat.succ_mul] at this
  omega

omit [Build] in
theorem Place.inside {R nx Y X : Nat} {sr sb : Bool} (h : Place R nx Y X sr sb) {B : Nat}
    (hb : B * (R * nx + 2 * nx + 4) < 2 ^ 31) :
    Inside B nx sr sb (2 * Y * nx + 2 * X) (R * nx) := by
  have e : 2 * Y * nx + 2 * X + nx = (2 * Y + 1) * nx + 2 * X := by
    rw [Nat.add_mul (2 * Y) 1 nx, Nat.one_mul]; omega
  refine ⟨flat_lt h.row h.col, fun hr => flat_lt h.row (h.right.mp hr), fun hs => ?_,
    fun hr hs => ?_, hb⟩
  · rw [e]; exact flat_lt (h.bottom.mp hs) h.col
  · rw [e, Nat.add_assoc]; exact flat_lt (h.bottom.mp hs) (h.right.mp hr)

omit [Build] in
theorem writeChunk_length (nx : Nat) (sr sb : Bool) (n : Nat) (blk : Nat → List UInt8)
    (bl : List (List UInt8)) : (writeChunk nx sr sb n blk bl).length = bl.length := by
  unfold writeChunk
  simp only [putIf_length]

omit [Build] in
theorem writeChunk_get {R nx Y X : Nat} {sr sb : Bool} (h : Place R nx Y X sr sb)
    {blk : Nat → List UInt8} {bl : List (List UInt8)} (hl : bl.length = R * nx) {F x : Nat}
    (hF : F < R) (hx : x < nx) :
    (writeChunk nx sr sb (2 * Y * nx + 2 * X) blk bl)[F * nx + x]?
      = if F / 2 = Y ∧ x / 2 = X then some (blk (F % 2 * 2 + x % 2)) else bl[F * nx + x]? := by
  have e : 2 * Y * nx + 2 * X + nx = (2 * Y + 1) * nx + 2 * X := by
    rw [Nat.add_mul (2 * Y) 1 nx, Nat.one_mul]; omega
  obtain ⟨b0, b1, b2, b3, _⟩ := h.inside (B := 0) (by omega)
  unfold writeChunk
  rw [putIf_get (by
      intro hv
      simp only [Bool.not_eq_true', Bool.or_eq_false_iff] at hv
      simp only [putIf_length, hl]
      exact b3 hv.1 hv.2),
    putIf_get (by intro hv; simp only [putIf_length, hl]; exact b2 (by simpa using hv)),
    putIf_get (by intro hv; simp only [putIf_length, hl]; exact b1 (by simpa using hv)),
    putIf_get (by intro _; rw [hl]; exact b0)]
  have c0 : F * nx + x = 2 * Y * nx + 2 * X ↔ F = 2 * Y ∧ x = 2 * X := flat_inj hx h.col
  have c1 : sr = false → (F * nx + x = 2 * Y * nx + 2 * X + 1 ↔ F = 2 * Y ∧ x = 2 * X + 1) :=
    fun hr => flat_inj hx (h.right.mp hr)
  have c2 : F * nx + x = 2 * Y * nx + 2 * X + nx ↔ F = 2 * Y + 1 ∧ x = 2 * X := by
    rw [e]; exact flat_inj hx h.col
  have c3 : sr = false →
      (F * nx + x = 2 * Y * nx + 2 * X + nx + 1 ↔ F = 2 * Y + 1 ∧ x = 2 * X + 1) := by
    intro hr
    rw [e, Nat.add_assoc]; exact flat_inj hx (h.right.mp hr)
  have hr := h.right
  have hb := h.bottom
  by_cases hm : F / 2 = Y ∧ x / 2 = X
  · rw [if_pos hm]
    have hF2 : F % 2 = 0 ∨ F % 2 = 1 := by omega
    have hx2 : x % 2 = 0 ∨ x % 2 = 1 := by omega
    rcases hF2 with f0 | f1 <;> rcases hx2 with x0 | x1
    · rw [if_neg (by rintro ⟨hv, hc⟩; have := (c3 (by cases sr <;> simp_all)).mp hc; omega),
        if_neg (by rintro ⟨hv, hc⟩; have := c2.mp hc; omega),
        if_neg (by rintro ⟨hv, hc⟩; have := (c1 (by simpa using hv)).mp hc; omega),
        if_pos ⟨rfl, c0.mpr (by omega)⟩, f0, x0]
    · have hsr : sr = false := hr.mpr (by omega)
      rw [if_neg (by rintro ⟨hv, hc⟩; have := (c3 hsr).mp hc; omega),
        if_neg (by rintro ⟨hv, hc⟩; have := c2.mp hc; omega),
        if_pos ⟨by rw [hsr]; rfl, (c1 hsr).mpr (by omega)⟩, f0, x1]
    · have hsb : sb = false := hb.mpr (by omega)
      rw [if_neg (by rintro ⟨hv, hc⟩; have := (c3 (by cases sr <;> simp_all)).mp hc; omega),
        if_pos ⟨by rw [hsb]; rfl, c2.mpr (by omega)⟩, f1, x0]
    · have hsr : sr = false := hr.mpr (by omega)
      have hsb : sb = false := hb.mpr (by omega)
      rw [if_pos ⟨by rw [hsr, hsb]; rfl, (c3 hsr).mpr (by omega)⟩, f1, x1]
  · rw [if_neg hm, if_neg (by
        rintro ⟨hv, hc⟩
        have := (c3 (by cases sr <;> simp_all)).mp hc
        omega),
      if_neg (by rintro ⟨hv, hc⟩; have := c2.mp hc; omega),
      if_neg (by rintro ⟨hv, hc⟩; have := (c1 (by simpa using hv)).mp hc; omega),
      if_neg (by rintro ⟨hv, hc⟩; have := c0.mp hc; omega)]

/-! ## The level -/

/-- The number of the chunk with column `x` in row `F` of all faces. -/
def chunkAt (cx cy F x : Nat) : Nat :=
  F / 2 * cx + if F / 2 % cy % 2 = 1 then cx - 1 - x / 2 else x / 2

/-- The block in row `F` and column `x`. -/
def blockAt (cx cy : Nat) (cs : List Chunk) (F x : Nat) : List UInt8 :=
  ((cs.map Chunk.blocks).getD (chunkAt cx cy F x) []).getD (F % 2 * 2 + x % 2) []

/-- The blocks after `k` chunks. -/
structure LevelAt (B R nx cx cy : Nat) (cs : List Chunk) (k : Nat) (bl : List (List UInt8)) :
    Prop where
  len : bl.length = R * nx
  get : ∀ F x, F < R → x < nx → bl[F * nx + x]?
    = some (if chunkAt cx cy F x < k then blockAt cx cy cs F x else List.replicate B 0)

omit [Build] in
theorem chunk_pos {cx cy Y i F x : Nat} (hi : i < cx) (hx : x / 2 < cx) :
    chunkAt cx cy F x = Y * cx + i ↔
      F / 2 = Y ∧ x / 2 = if Y % cy % 2 = 1 then cx - 1 - i else i := by
  unfold chunkAt
  constructor
  · intro h
    have h2 := (flat_inj (F := F / 2) (F' := Y) (nx := cx)
      (x := if F / 2 % cy % 2 = 1 then cx - 1 - x / 2 else x / 2) (x' := i) (by split <;> omega) hi).mp h
    obtain ⟨rfl, h2⟩ := h2
    refine ⟨rfl, ?_⟩
    by_cases ho : F / 2 % cy % 2 = 1
    · rw [if_pos ho] at h2 ⊢; omega
    · rw [if_neg ho] at h2 ⊢; omega
  · rintro ⟨rfl, h⟩
    by_cases ho : F / 2 % cy % 2 = 1
    · rw [if_pos ho] at h ⊢; omega
    · rw [if_neg ho] at h ⊢; omega

omit [Build] in
theorem levelAt_step {B R nx cx cy : Nat} {cs : List Chunk} {Y i : Nat} {bl : List (List UInt8)}
    (hcx : cx = (nx + 1) / 2) (hi : i < cx) {sr sb : Bool}
    (hp : Place R nx Y (if Y % cy % 2 = 1 then cx - 1 - i else i) sr sb) {c : Chunk}
    (hc : cs[Y * cx + i]? = some c) (h : LevelAt B R nx cx cy cs (Y * cx + i) bl) :
    LevelAt B R nx cx cy cs (Y * cx + i + 1)
      (writeChunk nx sr sb (2 * Y * nx + 2 * (if Y % cy % 2 = 1 then cx - 1 - i else i))
        (fun q => c.blocks.getD q []) bl) := by
  refine ⟨by rw [writeChunk_length, h.len], ?_⟩
  intro F x hF hx
  rw [writeChunk_get hp h.len hF hx]
  have hk := chunk_pos (cy := cy) (Y := Y) (F := F) (x := x) hi (by omega)
  by_cases hm : F / 2 = Y ∧ x / 2 = if Y % cy % 2 = 1 then cx - 1 - i else i
  · have e := hk.mpr hm
    rw [if_pos hm, e, if_pos (by omega)]
    unfold blockAt
    rw [e, List.getD_eq_getElem?_getD (l := cs.map Chunk.blocks), List.getElem?_map, hc]
    rfl
  · have hne : chunkAt cx cy F x ≠ Y * cx + i := fun hc => hm (hk.mp hc)
    rw [if_neg hm, h.get F x hF hx]
    by_cases hlt : chunkAt cx cy F x < Y * cx + i
    · rw [if_pos hlt, if_pos (by omega)]
    · rw [if_neg hlt, if_neg (by omega)]

/-- The sizes of the level. -/
structure Sizes (faces nx ny cx cy : Nat) : Prop where
  cx : cx = (nx + 1) / 2
  cy : cy = (ny + 1) / 2
  nxPos : 0 < nx
  nxLt : nx < 2 ^ 15
  nyLt : ny < 2 ^ 15
  shape : faces ≤ 1 ∨ ny % 2 = 0

omit [Build] in
theorem Sizes.place {faces nx ny cx cy : Nat} (h : Sizes faces nx ny cx cy) {f y X : Nat}
    (hf : f < faces) (hy : y < cy) (hX : X < cx) :
    Place (faces * ny) nx (f * cy + y) X (decide (nx % 2 = 1 ∧ X + 1 = cx))
      (decide (ny % 2 = 1 ∧ y + 1 = cy)) := by
  obtain ⟨h1, h2, _, _, _, hs⟩ := h
  have hr : 2 * (f * cy + y) < faces * ny ∧
      ((ny % 2 = 1 ∧ y + 1 = cy) ↔ ¬ 2 * (f * cy + y) + 1 < faces * ny) := by
    rcases hs with hs | hs
    · obtain rfl : faces = 1 := by omega
      obtain rfl : f = 0 := by omega
      omega
    · have hny : ny = 2 * cy := by omega
      have := flat_lt hf hy
      have e : faces * ny = 2 * (faces * cy) := by rw [hny, Nat.mul_left_comm]
      omega
  refine ⟨hr.1, by omega, ?_, ?_⟩
  · rw [decide_eq_false_iff_not]; omega
  · rw [decide_eq_false_iff_not, hr.2]; omega

/-- The state before chunk row `Y`. -/
def RowAt (buf : List UInt8) (last k B R nx cx cy : Nat) (cs : List Chunk) (c0 : Chunk)
    (bs : Nat → List Bool) (Y : Nat) (s : Nat × LevelState) : Prop :=
  s.1 = B * (2 * Y * nx) ∧ ∃ bl,
    Rel buf last k B ((cs.take (Y * cx)).getLastD c0) (bs (Y * cx)) bl s.2 ∧
    LevelAt B R nx cx cy cs (Y * cx) bl

theorem chunkRow_ok {buf : List UInt8} {last : Nat} {code : List Nat} {planes : List Plane}
    {k B faces nx ny cx cy : Nat} {z : LevelSize}
    {fn : Nat → Nat → Nat → LevelState → Res LevelState} (hB : B = 8 ∨ B = 16)
    (step : ChunkStep buf last code planes k B nx z fn) (hs : Sizes faces nx ny cx cy)
    (hzx : z.blocksX = nx) (hzy : z.blocksY = ny) (hcx : z.chunksX = cx) (hcy : z.chunksY = cy)
    (hbig : B * (faces * ny * nx + 2 * nx + 4) < 2 ^ 31) {cs : List Chunk} {c0 : Chunk}
    {bs : Nat → List Bool} (hlen : cs.length = faces * cy * cx)
    (hread : ∀ j b, cs[j]? = some b →
      chunk code planes ((cs.take j).getLastD c0) (bs j) = some (b, bs (j + 1)))
    {f y : Nat} (hf : f < faces) (hy : y < cy) {s : Nat × LevelState}
    (h : RowAt buf last k B (faces * ny) nx cx cy cs c0 bs (f * cy + y) s) :
    ∃ s', (do
        let (rowDst, st) := s
        let (blockDst, delta) ← (if y &&& 1 = 1 then do
            let n ← subI 32 (asI 32 cx) 1
            let n ← mulI 32 n B
            let n ← mulI 32 n 2
            let b ← addU 64 rowDst (asUI 64 n)
            pure (b, -(B : Int) * 2)
          else pure (rowDst, (B : Int) * 2))
        let (_, st) ← Res.forRange cx (fun i (s : Nat × LevelState) => do
          let (blockDst, st) := s
          let x := if y &&& 1 = 1 then cx - 1 - i else i
          let st ← fn x y blockDst st
          let b ← addI 32 (asI 32 blockDst) delta
          pure (asUI 64 b, st)) (blockDst, st)
        let p ← mulU 32 (B * nx) 2
        let rowDst ← addU 64 rowDst p
        pure (rowDst, st)) = Res.ok s' ∧
      RowAt buf last k B (faces * ny) nx cx cy cs c0 bs (f * cy + y + 1) s' := by
  obtain ⟨rowDst, st⟩ := s
  obtain ⟨hrow, bl, hrel, hlev⟩ := h
  simp only at hrow hrel
  generalize hY : f * cy + y = Y at hrow hrel hlev ⊢
  have hYlt : Y < faces * cy := hY ▸ flat_lt hf hy
  have hmod : Y % cy = y := by
    rw [← hY, Nat.mul_comm, Nat.mul_add_mod, Nat.mod_eq_of_lt hy]
  have hodd : (y &&& 1 = 1) ↔ Y % cy % 2 = 1 := by
    rw [hmod, show (1 : Nat) = 2 ^ 1 - 1 from rfl, Nat.and_two_pow_sub_one_eq_mod]
  have hplace : ∀ X, X < cx → Place (faces * ny) nx Y X (decide (nx % 2 = 1 ∧ X + 1 = cx))
      (decide (ny % 2 = 1 ∧ y + 1 = cy)) := fun X hX => hY ▸ hs.place hf hy hX
  obtain ⟨ecx, ecy, hnx0, hnx, hny, _⟩ := hs
  have hB16 : B ≤ 16 := by omega
  have hpl := (hplace 0 (by omega)).row
  have hR : 2 * Y * nx + nx ≤ faces * ny * nx := by
    have := Nat.mul_le_mul_right nx hpl
    rwa [Nat.succ_mul] at this
  have hb1 : B * (2 * Y * nx) + B * nx + B * (2 * nx) + B * 4 < 2 ^ 31 := by
    have e : B * (2 * Y * nx) + B * nx + B * (2 * nx) + B * 4 = B * (2 * Y * nx + nx + 2 * nx + 4) := by
      simp only [Nat.mul_add]
    rw [e]
    exact Nat.lt_of_le_of_lt (Nat.mul_le_mul_left _ (by omega)) hbig
  have hb2 : B * (2 * cx) ≤ B * nx + B := by
    have : B * (2 * cx) ≤ B * (nx + 1) := Nat.mul_le_mul_left _ (by omega)
    rwa [Nat.mul_succ] at this
  generalize hT : 2 * Y * nx = T at *
  have hTpos : Y % cy % 2 = 1 → 2 ≤ T := by
    intro ho
    have hY1 : 1 ≤ Y := by
      rcases Nat.eq_zero_or_pos Y with h0 | h0
      · rw [h0] at ho; simp at ho
      · exact h0
    have := Nat.mul_le_mul (show 2 ≤ 2 * Y by omega) (show 1 ≤ nx by omega)
    omega
  -- where the row starts
  have hfirst : (if y &&& 1 = 1 then do
      let n ← subI 32 (asI 32 cx) 1
      let n ← mulI 32 n B
      let n ← mulI 32 n 2
      let b ← addU 64 rowDst (asUI 64 n)
      pure (b, -(B : Int) * 2)
    else pure (rowDst, (B : Int) * 2) : Res (Nat × Int))
      = .ok (B * T + (if Y % cy % 2 = 1 then B * 2 * (cx - 1) else 0),
          if Y % cy % 2 = 1 then -(B : Int) * 2 else (B : Int) * 2) := by
    by_cases ho : Y % cy % 2 = 1
    · rw [if_pos (hodd.mpr ho), if_pos ho, if_pos ho, asI_small (by omega)]
      unfold subI mulI
      rw [fitI_ok (by unfold InI; omega), Res.lift_ok, Res.ok_bind,
        fitI_ok (by unfold InI; rcases hB with rfl | rfl <;> omega), Res.lift_ok, Res.ok_bind,
        fitI_ok (by unfold InI; rcases hB with rfl | rfl <;> omega), Res.lift_ok, Res.ok_bind]
      have ha : asUI 64 (((cx : Int) - 1) * B * 2) = B * 2 * (cx - 1) := by
        unfold asUI
        rcases hB with rfl | rfl <;> omega
      rw [ha, hrow, addU_ok (by rcases hB with rfl | rfl <;> omega), Res.lift_ok, Res.ok_bind]
      rfl
    · rw [if_neg (fun hc => ho (hodd.mp hc)), if_neg ho, if_neg ho, hrow]
      rfl
  have hinner := Res.forRange_inv (n := cx)
    (s := (B * T + (if Y % cy % 2 = 1 then B * 2 * (cx - 1) else 0), st))
    (f := fun i (s : Nat × LevelState) => do
      let (blockDst, st) := s
      let x := if y &&& 1 = 1 then cx - 1 - i else i
      let st ← fn x y blockDst st
      let b ← addI 32 (asI 32 blockDst) (if Y % cy % 2 = 1 then -(B : Int) * 2 else (B : Int) * 2)
      pure (asUI 64 b, st))
    (fun i s => (s.1 : Int) = B * T + B * 2 * (if Y % cy % 2 = 1 then (cx : Int) - 1 - i else i) ∧
      ∃ bl, Rel buf last k B ((cs.take (Y * cx + i)).getLastD c0) (bs (Y * cx + i)) bl s.2 ∧
        LevelAt B (faces * ny) nx cx cy cs (Y * cx + i) bl)
    (by
      refine ⟨?_, bl, hrel, hlev⟩
      by_cases ho : Y % cy % 2 = 1
      · rw [if_pos ho, if_pos ho]
        rcases hB with rfl | rfl <;> omega
      · rw [if_neg ho, if_neg ho]
        rcases hB with rfl | rfl <;> omega)
    (by
      rintro i hi ⟨bd, st⟩ ⟨hbd, bl, hrel, hlev⟩
      simp only at hbd hrel
      have hk : Y * cx + i < cs.length := by rw [hlen]; exact flat_lt hYlt hi
      have hg : cs[Y * cx + i]? = some cs[Y * cx + i] := List.getElem?_eq_getElem hk
      have hX : (if y &&& 1 = 1 then cx - 1 - i else i) = if Y % cy % 2 = 1 then cx - 1 - i else i := by
        by_cases ho : Y % cy % 2 = 1
        · rw [if_pos ho, if_pos (hodd.mpr ho)]
        · rw [if_neg ho, if_neg (fun hc => ho (hodd.mp hc))]
      have hXlt : (if Y % cy % 2 = 1 then cx - 1 - i else i) < cx := by split <;> omega
      have hp := hplace _ hXlt
      have hbd' : bd = B * (T + 2 * (if Y % cy % 2 = 1 then cx - 1 - i else i)) := by
        by_cases ho : Y % cy % 2 = 1
        · rw [if_pos ho] at hbd ⊢
          rcases hB with rfl | rfl <;> omega
        · rw [if_neg ho] at hbd ⊢
          rcases hB with rfl | rfl <;> omega
      have hin := hp.inside hbig
      rw [hT, ← hlev.len] at hin
      obtain ⟨st', e1, _, hrel'⟩ := step (if Y % cy % 2 = 1 then cx - 1 - i else i) y _ _ _ _ _ bl st (hread _ _ hg) hrel (by rw [hcx]; exact hXlt) (by rw [hcy]; exact hy)
        (by omega) (by omega) (by rw [hzx, hzy, hcx, hcy]; exact hin)
      rw [hzx, hzy, hcx, hcy] at hrel'
      have hlev' := levelAt_step ecx hi hp hg hlev
      rw [hT] at hlev'
      refine ⟨(asUI 64 ((bd : Int) + if Y % cy % 2 = 1 then -(B : Int) * 2 else (B : Int) * 2), st'),
        ?_, ?_, _, ?_, hlev'⟩
      · simp only
        rw [hX, hbd', e1, Res.ok_bind, ← hbd', asI_small (by
          rw [hbd']
          rcases hB with rfl | rfl <;> omega)]
        unfold addI
        rw [fitI_ok (by
          unfold InI
          rw [hbd']
          by_cases ho : Y % cy % 2 = 1
          · rw [if_pos ho]; rcases hB with rfl | rfl <;> omega
          · rw [if_neg ho]; rcases hB with rfl | rfl <;> omega), Res.lift_ok, Res.ok_bind]
        rfl
      · simp only
        have hTp := hTpos
        unfold asUI
        by_cases ho : Y % cy % 2 = 1
        · have := hTp ho
          simp only [if_pos ho] at hbd hXlt ⊢
          rcases hB with rfl | rfl <;> omega
        · simp only [if_neg ho] at hbd hXlt ⊢
          rcases hB with rfl | rfl <;> omega
      · rw [show Y * cx + (i + 1) = Y * cx + i + 1 by omega, take_last hg]
        exact hrel')
  obtain ⟨⟨bd, st'⟩, e2, _, bl', hrel', hlev'⟩ := hinner
  simp only at hrel'
  simp only [hfirst, Res.ok_bind]
  rw [e2, Res.ok_bind]
  simp only
  rw [mulU_ok (by omega), Res.lift_ok, Res.ok_bind, addU_ok (by omega), Res.lift_ok, Res.ok_bind]
  rw [show Y * cx + cx = (Y + 1) * cx by rw [Nat.succ_mul]] at hrel' hlev'
  refine ⟨_, rfl, ?_, bl', hrel', hlev'⟩
  have e : 2 * (Y + 1) * nx = T + 2 * nx := by rw [← hT, Nat.mul_add, Nat.add_mul]
  show rowDst + B * nx * 2 = _
  rw [e, hrow, Nat.mul_add, Nat.mul_left_comm B 2 nx, Nat.mul_comm 2]

/-! ## The blocks of the specification -/

omit [Build] in
theorem flatMap_range_get {α : Type} {g : Nat → List α} {n m : Nat}
    (hg : ∀ i, i < n → (g i).length = m) {i j : Nat} (hi : i < n) (hj : j < m) :
    ((List.range n).flatMap g)[i * m + j]? = (g i)[j]? := by
  have hlen : ∀ n', n' ≤ n → ((List.range n').flatMap g).length = n' * m := by
    intro n' hn'
    induction n' with
    | zero => simp
    | succ n' ih =>
      rw [List.range_succ, List.flatMap_append, List.length_append, ih (by omega), Nat.succ_mul]
      simp [hg n' (by omega)]
  have hsplit : List.range n = List.range i ++ (List.range (n - i)).map (i + ·) := by
    rw [← List.range_add]
    congr 1
    omega
  obtain ⟨d, hd⟩ : ∃ d, n - i = d + 1 := ⟨n - i - 1, by omega⟩
  rw [hsplit, List.flatMap_append, List.getElem?_append_right (by rw [hlen i (by omega)]; omega),
    hlen i (by omega), Nat.add_sub_cancel_left, hd, List.range_succ_eq_map, List.map_cons,
    List.flatMap_cons, Nat.add_zero, List.getElem?_append_left (by rw [hg i hi]; exact hj)]

omit [Build] in
theorem flatMap_range_length {α : Type} {g : Nat → List α} {n m : Nat}
    (hg : ∀ i, i < n → (g i).length = m) : ((List.range n).flatMap g).length = n * m := by
  induction n with
  | zero => simp
  | succ n ih =>
    rw [List.range_succ, List.flatMap_append, List.length_append, ih (fun i hi => hg i (by omega)),
      Nat.succ_mul]
    simp [hg n (by omega)]

omit [Build] in
theorem level_done {B faces nx ny cx cy : Nat} (hs : Sizes faces nx ny cx cy) {cs : List Chunk}
    {bl : List (List UInt8)} (h : LevelAt B (faces * ny) nx cx cy cs (faces * cy * cx) bl) :
    bl = levelBlocks faces nx ny cs := by
  have hrow : ∀ f y, ((List.range nx).map fun x =>
      ((cs.map Chunk.blocks).getD (chunkNumber nx ny f y x) []).getD (y % 2 * 2 + x % 2) []).length
        = nx := by simp
  have hface : ∀ f, f < faces → ((List.range ny).flatMap fun y => (List.range nx).map fun x =>
      ((cs.map Chunk.blocks).getD (chunkNumber nx ny f y x) []).getD (y % 2 * 2 + x % 2) []).length
        = ny * nx := fun f _ => flatMap_range_length fun y _ => hrow f y
  have hlen : (levelBlocks faces nx ny cs).length = faces * ny * nx := by
    unfold levelBlocks
    rw [flatMap_range_length hface, Nat.mul_assoc]
  apply List.ext_getElem?
  intro j
  by_cases hj : j < faces * ny * nx
  · have hnx := hs.nxPos
    have hx := Nat.mod_lt j hnx
    have hF : j / nx < faces * ny := by
      rw [Nat.div_lt_iff_lt_mul hnx]; exact hj
    have hny : 0 < ny := by
      rcases Nat.eq_zero_or_pos ny with h0 | h0
      · rw [h0] at hF; simp at hF
      · exact h0
    have hy := Nat.mod_lt (j / nx) hny
    have hf : j / nx / ny < faces := by
      rw [Nat.div_lt_iff_lt_mul hny]; exact hF
    generalize hxe : j % nx = x at hx
    generalize hye : j / nx % ny = y at hy
    generalize hfe : j / nx / ny = f at hf
    have hF' : j / nx = f * ny + y := by
      rw [← hfe, ← hye, Nat.mul_comm]; exact (Nat.div_add_mod _ _).symm
    have hj' : j = (f * ny + y) * nx + x := by
      rw [← hF', ← hxe, Nat.mul_comm]; exact (Nat.div_add_mod _ _).symm
    rw [hF'] at hF
    have hnum : chunkAt cx cy (f * ny + y) x = chunkNumber nx ny f y x ∧ (f * ny + y) % 2 = y % 2 ∧
        (f * ny + y) / 2 < faces * cy := by
      obtain ⟨h1, h2, _, _, _, hsh⟩ := hs
      unfold chunkAt chunkNumber
      simp only
      rw [← h1, ← h2]
      rcases hsh with hsh | hsh
      · obtain rfl : f = 0 := by omega
        obtain rfl : faces = 1 := by omega
        rw [Nat.zero_mul, Nat.zero_add, Nat.zero_mul, Nat.zero_add,
          Nat.mod_eq_of_lt (show y / 2 < cy by omega)]
        exact ⟨rfl, rfl, by omega⟩
      · have e : ny = 2 * cy := by omega
        have e1 : f * ny = 2 * (f * cy) := by rw [e, Nat.mul_left_comm]
        have e2 : (f * ny + y) / 2 = f * cy + y / 2 := by omega
        have e3 : (f * cy + y / 2) % cy = y / 2 := by
          rw [Nat.mul_comm, Nat.mul_add_mod, Nat.mod_eq_of_lt (by omega)]
        rw [e2, e3]
        exact ⟨rfl, by omega, flat_lt hf (by omega)⟩
    have hlt : chunkAt cx cy (f * ny + y) x < faces * cy * cx := by
      have := hs.cx
      unfold chunkAt
      exact flat_lt hnum.2.2 (by split <;> omega)
    rw [hj', h.get _ _ hF hx, if_pos hlt]
    unfold blockAt levelBlocks
    rw [show (f * ny + y) * nx + x = f * (ny * nx) + (y * nx + x) by
        rw [Nat.add_mul, Nat.mul_assoc]; omega,
      flatMap_range_get hface hf (flat_lt hy hx), flatMap_range_get (fun y _ => hrow f y) hy hx,
      List.getElem?_map, List.getElem?_range hx, hnum.1, hnum.2.1]
    rfl
  · rw [List.getElem?_eq_none (by rw [h.len]; omega), List.getElem?_eq_none (by rw [hlen]; omega)]

theorem chunkLoop_ok {buf : List UInt8} {last : Nat} {code : List Nat} {planes : List Plane}
    {k B faces nx ny cx cy : Nat} {z : LevelSize}
    {fn : Nat → Nat → Nat → LevelState → Res LevelState} (hB : B = 8 ∨ B = 16)
    (step : ChunkStep buf last code planes k B nx z fn) (hs : Sizes faces nx ny cx cy)
    (hzx : z.blocksX = nx) (hzy : z.blocksY = ny) (hcx : z.chunksX = cx) (hcy : z.chunksY = cy)
    (hbig : B * (faces * ny * nx + 2 * nx + 4) < 2 ^ 31) {cs : List Chunk} {c0 : Chunk}
    {bits rest : List Bool} (h : scan (chunk code planes) (faces * cy * cx) c0 bits = some (cs, rest))
    {st : LevelState}
    (h0 : Rel buf last k B c0 bits (List.replicate (faces * ny * nx) (List.replicate B 0)) st) :
    ∃ st', chunkLoop faces cx cy (B * nx) B fn st = .ok st' ∧
      st'.dst = (levelBlocks faces nx ny cs).flatten ∧ st'.dst.length = B * (faces * ny * nx) := by
  have hlen := scan_length h
  obtain ⟨bs, b0, _, hread⟩ := scan_steps h
  obtain ⟨⟨rd, st'⟩, e, hp⟩ := Res.forRange_inv (n := faces) (s := ((0 : Nat), st))
    (f := fun _ (s : Nat × LevelState) =>
      Res.forRange cy (fun y (s : Nat × LevelState) => do
        let (rowDst, st) := s
        let (blockDst, delta) ← (if y &&& 1 = 1 then do
            let n ← subI 32 (asI 32 cx) 1
            let n ← mulI 32 n B
            let n ← mulI 32 n 2
            let b ← addU 64 rowDst (asUI 64 n)
            pure (b, -(B : Int) * 2)
          else pure (rowDst, (B : Int) * 2))
        let (_, st) ← Res.forRange cx (fun i (s : Nat × LevelState) => do
          let (blockDst, st) := s
          let x := if y &&& 1 = 1 then cx - 1 - i else i
          let st ← fn x y blockDst st
          let b ← addI 32 (asI 32 blockDst) delta
          pure (asUI 64 b, st)) (blockDst, st)
        let p ← mulU 32 (B * nx) 2
        let rowDst ← addU 64 rowDst p
        pure (rowDst, st)) s)
    (fun f s => RowAt buf last k B (faces * ny) nx cx cy cs c0 bs (f * cy) s)
    (by
      refine ⟨by simp, List.replicate (faces * ny * nx) (List.replicate B 0), ?_, ?_, ?_⟩
      · simp only [Nat.zero_mul, List.take_zero, List.getLastD_nil, b0]; exact h0
      · simp
      · intro F x hF hx
        rw [Nat.zero_mul, Nat.zero_mul, if_neg (by omega), List.getElem?_replicate,
          if_pos (flat_lt hF hx)])
    (by
      intro f hf s hs'
      rw [Nat.succ_mul]
      exact Res.forRange_inv (fun y s => RowAt buf last k B (faces * ny) nx cx cy cs c0 bs (f * cy + y) s)
        hs' (fun y hy s h' => chunkRow_ok hB step hs hzx hzy hcx hcy hbig hlen hread hf hy h'))
  obtain ⟨_, bl, hrel, hlev⟩ := hp
  refine ⟨st', ?_, ?_, ?_⟩
  · unfold chunkLoop
    rw [e]
    rfl
  · rw [hrel.dst, level_done hs hlev]
  · rw [hrel.dst, flatten_len hrel.lens, hlev.len]

end Verif.Proofs.Crn
