import Verif.Model.UnityCrunch
import Verif.Spec.UnityFile
import Verif.Proofs.Crn.Level

/-!
# Unity's variant of Crunch: the loops over the blocks of a level
-/

namespace Verif.Proofs.Crn.Unity

open Verif Verif.Model Verif.Model.Crn Verif.Model.Crn.Unity Verif.Spec.Crn Verif.Spec.Crn.Unity

variable [Build]

/-! ## Reading with the knowledge of what was read before -/

omit [Build] in
theorem grow_aux {α : Type} {r : List α → Reader α} {n : Nat} {l0 l : List α}
    {bits rest : List Bool} (h : grow r n l0 bits = some (l, rest)) :
    ∃ bs : Nat → List Bool, bs l0.length = bits ∧ bs l.length = rest ∧ l.length = l0.length + n ∧
      l.take l0.length = l0 ∧
      ∀ k b, l0.length ≤ k → l[k]? = some b → r (l.take k) (bs k) = some (b, bs (k + 1)) := by
  induction n generalizing l0 bits with
  | zero =>
    obtain ⟨rfl, rfl⟩ := reader_pure.mp h
    refine ⟨fun _ => bits, rfl, rfl, rfl, List.take_length, ?_⟩
    intro k b hk hb
    rw [List.getElem?_eq_none hk] at hb
    exact absurd hb (by simp)
  | succ n ih =>
    unfold grow at h
    obtain ⟨a, mid, h1, h⟩ := reader_bind.mp h
    obtain ⟨bs, e0, en, hl, ht, hs⟩ := ih h
    rw [List.length_append, List.length_singleton] at e0 hl ht hs
    have ht' : l.take l0.length = l0 := by
      have := congrArg (List.take l0.length) ht
      rw [List.take_take, Nat.min_eq_left (by omega), List.take_left] at this
      exact this
    have ha : l[l0.length]? = some a := by
      have := congrArg (fun t => t[l0.length]?) ht
      simp only [List.getElem?_take_of_lt (Nat.lt_succ_self _)] at this
      rw [this]; simp
    refine ⟨fun k => if k = l0.length then bits else bs k, by simp, ?_, by omega, ht', ?_⟩
    · simp only; rw [if_neg (by omega)]; exact en
    · intro k b hk hb
      simp only
      rw [if_neg (show k + 1 ≠ l0.length by omega)]
      by_cases hk0 : k = l0.length
      · subst hk0
        obtain rfl : a = b := by rw [ha] at hb; exact Option.some.inj hb
        rw [if_pos rfl, ht', e0]; exact h1
      · rw [if_neg hk0]
        exact hs k b (by omega) hb

omit [Build] in
/-- The steps of `grow`: the bits before every step. -/
theorem grow_steps {α : Type} {r : List α → Reader α} {n : Nat} {l : List α}
    {bits rest : List Bool} (h : grow r n [] bits = some (l, rest)) :
    l.length = n ∧ ∃ bs : Nat → List Bool, bs 0 = bits ∧
      ∀ k b, l[k]? = some b → r (l.take k) (bs k) = some (b, bs (k + 1)) := by
  obtain ⟨bs, e0, _, hl, _, hs⟩ := grow_aux h
  exact ⟨by simpa using hl, bs, e0, fun k b => hs k b (by simp)⟩

/-! ## Rows and columns -/

omit [Build] in
theorem even_and {n : Nat} (h : n < 2 ^ 32) : n &&& 0xFFFFFFFE = n / 2 * 2 := by
  have h1 := Nat.and_mod_two_pow (n := 1) (a := n) (b := 0xFFFFFFFE)
  have h2 := Nat.and_div_two_pow (n := 1) (a := n) (b := 0xFFFFFFFE)
  rw [show (0xFFFFFFFE : Nat) % 2 ^ 1 = 0 from rfl, Nat.and_zero] at h1
  rw [show (0xFFFFFFFE : Nat) / 2 ^ 1 = 2 ^ 31 - 1 from rfl, Nat.and_two_pow_sub_one_eq_mod,
    Nat.mod_eq_of_lt (by omega)] at h2
  omega

/-- The sizes of a level in blocks: `w` blocks in a row and `h` rows per face in the stream, `nx` and
`ny` in the texture. -/
structure Grid (faces nx ny w h : Nat) : Prop where
  width : w = even nx
  height : h = even ny
  nxPos : 0 < nx
  nxLt : nx < 2 ^ 15
  nyLt : ny < 2 ^ 15
  shape : faces ≤ 1 ∨ ny % 2 = 0

omit [Build] in
theorem Grid.row {faces nx ny w h : Nat} (g : Grid faces nx ny w h) {f y : Nat} (hf : f < faces)
    (hy : y < h) : (y < ny ↔ f * h + y < faces * ny) ∧ (f * h + y) % 2 = y % 2 ∧
      faces * h * nx ≤ faces * ny * nx + nx := by
  obtain ⟨_, hh, _, _, _, hs⟩ := g
  unfold even at hh
  rcases hs with hs | hs
  · obtain rfl : f = 0 := by omega
    obtain rfl : faces = 1 := by omega
    refine ⟨by omega, by omega, ?_⟩
    rw [Nat.one_mul, Nat.one_mul, ← Nat.succ_mul]
    exact Nat.mul_le_mul_right _ (by omega)
  · obtain rfl : h = ny := by omega
    refine ⟨⟨fun _ => flat_lt hf hy, fun _ => hy⟩, ?_, by omega⟩
    have : f * h = 2 * (f * (h / 2)) := by
      rw [Nat.mul_left_comm]; congr 1; omega
    omega

/-- The first `n` blocks of the stream are in `bl` as far as they belong to the texture. -/
structure Written (B rows nx w : Nat) (bytes : Nat → List UInt8) (n : Nat)
    (bl : List (List UInt8)) : Prop where
  lens : ∀ b ∈ bl, b.length = B
  len : bl.length = rows * nx
  get : ∀ r x, r < rows → x < nx →
    bl[r * nx + x]? = some (if r * w + x < n then bytes (r * w + x) else List.replicate B 0)

omit [Build] in
theorem Written.skip {B rows nx w : Nat} {bytes : Nat → List UInt8} {r x : Nat}
    {bl : List (List UInt8)} (h : Written B rows nx w bytes (r * w + x) bl) (hx : x < w)
    (hnx : nx ≤ w) (hv : ¬ (r < rows ∧ x < nx)) : Written B rows nx w bytes (r * w + x + 1) bl := by
  refine ⟨h.lens, h.len, fun r' x' hr hx' => ?_⟩
  rw [h.get r' x' hr hx']
  have hne : r' * w + x' ≠ r * w + x := by
    intro e
    obtain ⟨rfl, rfl⟩ := (flat_inj (by omega) hx).mp e
    exact hv ⟨hr, hx'⟩
  by_cases hlt : r' * w + x' < r * w + x
  · rw [if_pos hlt, if_pos (by omega)]
  · rw [if_neg hlt, if_neg (by omega)]

omit [Build] in
theorem Written.put {B rows nx w : Nat} {bytes : Nat → List UInt8} {r x : Nat}
    {bl : List (List UInt8)} (h : Written B rows nx w bytes (r * w + x) bl)
    (hnx : nx ≤ w) (hr : r < rows) (hx : x < nx) (hb : (bytes (r * w + x)).length = B) :
    Written B rows nx w bytes (r * w + x + 1) (bl.set (r * nx + x) (bytes (r * w + x))) := by
  refine ⟨?_, by simp [h.len], fun r' x' hr' hx' => ?_⟩
  · intro b hb'
    rcases List.mem_or_eq_of_mem_set hb' with h1 | h1
    · exact h.lens b h1
    · rw [h1, hb]
  rw [List.getElem?_set]
  by_cases he : r * nx + x = r' * nx + x'
  · obtain ⟨rfl, rfl⟩ := (flat_inj hx hx').mp he
    rw [if_pos rfl, if_pos (by rw [h.len]; exact flat_lt hr hx), if_pos (by omega)]
  · have hne : r' * w + x' ≠ r * w + x := by
      intro e
      obtain ⟨rfl, rfl⟩ := (flat_inj (by omega) (by omega)).mp e
      exact he rfl
    rw [if_neg he, h.get r' x' hr' hx']
    by_cases hlt : r' * w + x' < r * w + x
    · rw [if_pos hlt, if_pos (by omega)]
    · rw [if_neg hlt, if_neg (by omega)]

/-- The bytes of the texture. -/
def gridBytes (faces nx ny w h : Nat) (bytes : Nat → List UInt8) : List (List UInt8) :=
  (List.range faces).flatMap fun f => (List.range ny).flatMap fun y =>
    (List.range nx).map fun x => bytes ((f * h + y) * w + x)

omit [Build] in
theorem Written.done {faces nx ny w h B : Nat} (g : Grid faces nx ny w h)
    {bytes : Nat → List UInt8} {bl : List (List UInt8)}
    (hw : Written B (faces * ny) nx w bytes (faces * h * w) bl) :
    bl = gridBytes faces nx ny w h bytes := by
  have hrow : ∀ f y, ((List.range nx).map fun x => bytes ((f * h + y) * w + x)).length = nx := by simp
  have hface : ∀ f, f < faces → ((List.range ny).flatMap fun y => (List.range nx).map fun x =>
      bytes ((f * h + y) * w + x)).length = ny * nx := fun f _ =>
    flatMap_range_length fun y _ => hrow f y
  have hlen : (gridBytes faces nx ny w h bytes).length = faces * ny * nx := by
    unfold gridBytes
    rw [flatMap_range_length hface, Nat.mul_assoc]
  apply List.ext_getElem?
  intro j
  by_cases hj : j < faces * ny * nx
  · have hnx := g.nxPos
    have hx := Nat.mod_lt j hnx
    have hF : j / nx < faces * ny := by
      rw [Nat.div_lt_iff_lt_mul hnx]; exact hj
    have hny : 0 < ny := by
      rcases Nat.eq_zero_or_pos ny with h0 | h0
      · rw [h0] at hF; simp at hF
      · exact h0
    have hy := Nat.mod_lt (j / nx) hny
    have hf : j / nx / ny < faces := by
      rw [Nat.div_lt_iff_lt_mul hny]; exact hF
    generalize hxe : j % nx = x at hx
    generalize hye : j / nx % ny = y at hy
    generalize hfe : j / nx / ny = f at hf
    have hF' : j / nx = f * ny + y := by
      rw [← hfe, ← hye, Nat.mul_comm]; exact (Nat.div_add_mod _ _).symm
    have hj' : j = (f * ny + y) * nx + x := by
      rw [← hF', ← hxe, Nat.mul_comm]; exact (Nat.div_add_mod _ _).symm
    rw [hF'] at hF
    have hnh : ny ≤ h := by have := g.height; unfold even at this; omega
    have hnw : nx ≤ w := by have := g.width; unfold even at this; omega
    have hrr : f * ny + y = f * h + y := by
      obtain ⟨_, hh, _, _, _, hs⟩ := g
      unfold even at hh
      rcases hs with hs | hs
      · obtain rfl : f = 0 := by omega
        simp
      · obtain rfl : h = ny := by omega
        rfl
    rw [hj', hw.get _ _ hF hx, if_pos (by
      rw [hrr]; exact flat_lt (flat_lt hf (by omega)) (by omega))]
    unfold gridBytes
    rw [show (f * ny + y) * nx + x = f * (ny * nx) + (y * nx + x) by
        rw [Nat.add_mul, Nat.mul_assoc]; omega,
      flatMap_range_get hface hf (flat_lt hy hx), flatMap_range_get (fun y _ => hrow f y) hy hx,
      List.getElem?_map, List.getElem?_range hx, hrr]
    rfl
  · rw [List.getElem?_eq_none (by rw [hw.len]; omega), List.getElem?_eq_none (by rw [hlen]; omega)]

/-! ## The loop -/

/-- A step of the loop: `Core` is what is known of the state before a block with the given number,
apart from the position and the bytes written. -/
structure StepOk (faces nx ny w h words : Nat) (step : Nat → Nat → UState → Res UState)
    (Core : Nat → UState → Prop) (bytes : Nat → List UInt8) : Prop where
  pos : ∀ n st p, Core n st → Core n { st with pos := p }
  step : ∀ f y x st, f < faces → y < h → x < w → Core ((f * h + y) * w + x) st →
    st.pos < 2 ^ 32 → (y < ny ∧ x < nx → 4 * st.pos + 4 * words ≤ st.dst.length) →
    st.dst.length < 2 ^ 32 →
    ∃ st', step y x st = .ok st' ∧ Core ((f * h + y) * w + x + 1) st' ∧
      st'.pos = st.pos + words ∧
      st'.dst = (if y < ny ∧ x < nx then put st.dst (4 * st.pos) (bytes ((f * h + y) * w + x))
        else st.dst) ∧
      (y < ny ∧ x < nx → (bytes ((f * h + y) * w + x)).length = 4 * words)

/-- What is known of the state before the block in row `r` and column `x`. -/
def BlockAt (words rows nx w : Nat) (Core : Nat → UState → Prop) (bytes : Nat → List UInt8)
    (r x : Nat) (st : UState) : Prop :=
  Core (r * w + x) st ∧ st.pos = words * (r * nx + x) ∧
    ∃ bl, st.dst = bl.flatten ∧ Written (4 * words) rows nx w bytes (r * w + x) bl

omit [Build] in
theorem blockAt_step {faces nx ny w h words : Nat} {step : Nat → Nat → UState → Res UState}
    {Core : Nat → UState → Prop} {bytes : Nat → List UInt8} (g : Grid faces nx ny w h)
    (hwords : words = 2 ∨ words = 4) (hbig : 4 * words * (faces * ny * nx + 2 * nx + 4) < 2 ^ 31)
    (ok : StepOk faces nx ny w h words step Core bytes) {f y x : Nat} (hf : f < faces) (hy : y < h)
    (hx : x < w) {st : UState}
    (hst : BlockAt words (faces * ny) nx w Core bytes (f * h + y) x st) :
    ∃ st', step y x st = .ok st' ∧
      BlockAt words (faces * ny) nx w Core bytes (f * h + y) (x + 1) st' := by
  obtain ⟨hcore, hpos, bl, hdst, hw⟩ := hst
  obtain ⟨hrow, _, hrows⟩ := g.row hf hy
  have hnw : nx ≤ w ∧ w ≤ nx + 1 := by have := g.width; unfold even at this; omega
  have hlen : st.dst.length = 4 * words * (faces * ny * nx) := by
    rw [hdst, flatten_len hw.lens, hw.len]
  have hR : (f * h + y) * nx + nx ≤ faces * h * nx := by
    rw [← Nat.succ_mul]
    exact Nat.mul_le_mul_right _ (flat_lt hf hy)
  generalize hT : faces * ny * nx = T at hbig hlen hrows
  generalize hRn : (f * h + y) * nx = Rn at hR hpos
  have hvis : y < ny ∧ x < nx → Rn + x < T := by
    rintro ⟨h1, h2⟩
    rw [← hRn, ← hT]
    exact flat_lt (hrow.mp h1) h2
  have hp4 : 4 * st.pos = 4 * words * (Rn + x) := by rw [hpos, Nat.mul_assoc]
  obtain ⟨st', e, h1, h2, h3, h4⟩ := ok.step f y x st hf hy hx hcore
    (by rw [hpos]; rcases hwords with rfl | rfl <;> omega)
    (fun hv => by
      have := hvis hv
      rw [hp4, hlen]
      rcases hwords with rfl | rfl <;> omega)
    (by rw [hlen]; rcases hwords with rfl | rfl <;> omega)
  refine ⟨st', e, h1, ?_, ?_⟩
  · rw [h2, hpos, hRn]
    rcases hwords with rfl | rfl <;> omega
  · by_cases hv : y < ny ∧ x < nx
    · refine ⟨_, ?_, hw.put hnw.1 (hrow.mp hv.1) hv.2 (h4 hv)⟩
      rw [h3, if_pos hv, hdst, hp4, put_flatten hw.lens (h4 hv)
        (by rw [hw.len, hT]; exact hvis hv), hRn]
    · refine ⟨bl, by rw [h3, if_neg hv, hdst], hw.skip hx hnw.1 ?_⟩
      rw [← hrow]
      exact hv

theorem loop_ok {faces nx ny w h words bufW : Nat} {step : Nat → Nat → UState → Res UState}
    {Core : Nat → UState → Prop} {bytes : Nat → List UInt8} (g : Grid faces nx ny w h)
    (hwords : words = 2 ∨ words = 4) (hbig : 4 * words * (faces * ny * nx + 2 * nx + 4) < 2 ^ 31)
    (hbufW : bufW = 1 ∨ bufW = 2)
    (hodd : Build.overflowChecks = false ∨ nx % 2 = 0)
    (ok : StepOk faces nx ny w h words step Core bytes) {c : Codec}
    (h0 : ∀ dst, Core 0 { codec := c, buffer := List.replicate (bufW * w) {}, dst := dst }) :
    ∃ st', loop bufW words faces (4 * words * nx) nx ny step c
        (List.replicate (4 * words * (faces * ny * nx)) 0) = .ok st' ∧
      st'.dst = (gridBytes faces nx ny w h bytes).flatten ∧
      st'.dst.length = 4 * words * (faces * ny * nx) := by
  have hnx := g.nxLt
  have hny := g.nyLt
  have hw : (nx + 1) &&& 0xFFFFFFFE = w := by
    rw [even_and (by omega), g.width]; rfl
  have hh : (ny + 1) &&& 0xFFFFFFFE = h := by
    rw [even_and (by omega), g.height]; rfl
  have hww : w = (nx + 1) / 2 * 2 := g.width
  have hnw : nx ≤ w ∧ w ≤ nx + 1 := by omega
  have hsh : shlU 32 w (words / 2) = .ok (words * w) := by
    rcases hwords with rfl | rfl
    · rw [shlU_ok (by omega), Nat.shiftLeft_eq, Nat.mod_eq_of_lt (by omega), Nat.mul_comm]
    · rw [shlU_ok (by omega), Nat.shiftLeft_eq, Nat.mod_eq_of_lt (by omega), Nat.mul_comm]
  have hpitch : (4 * words * nx) >>> 2 = words * nx := by
    rw [Nat.shiftRight_eq_div_pow, Nat.mul_assoc]
    exact Nat.mul_div_cancel_left _ (by omega)
  have hbufn : shlU 32 w (bufW - 1) = .ok (bufW * w) := by
    rcases hbufW with rfl | rfl
    · rw [shlU_ok (by omega), Nat.shiftLeft_eq, Nat.mod_eq_of_lt (by omega)]; simp
    · rw [shlU_ok (by omega), Nat.shiftLeft_eq, Nat.mod_eq_of_lt (by omega)]
      simp [Nat.mul_comm]
  -- the step from the end of a row to the next row
  obtain ⟨delta, hdelta, hnext⟩ : ∃ delta, subU 32 (words * nx) (words * w) = .ok delta ∧
      ∀ r, r ≤ faces * h → addU 64 (words * (r * nx + w)) (asUI 64 (asI 32 delta))
        = .ok (words * (r * nx + nx)) := by
    by_cases he : nx % 2 = 0
    · obtain rfl : w = nx := by omega
      refine ⟨0, ?_, fun r hr => ?_⟩
      · rw [subU_ok (Nat.le_refl _), Nat.sub_self]
      · have hT : faces * h * w ≤ faces * ny * w + w := by
          rcases Nat.eq_zero_or_pos faces with rfl | hf
          · simp
          · rcases Nat.eq_zero_or_pos h with rfl | hp
            · simp
            · exact (g.row (f := 0) (y := 0) hf hp).2.2
        have hrw : r * w ≤ faces * h * w := Nat.mul_le_mul_right _ hr
        generalize faces * h * w = A at hrw hT
        generalize faces * ny * w = T at hbig hT
        generalize r * w = q at hrw
        rw [show asUI 64 (asI 32 0) = 0 from rfl,
          addU_ok (by rcases hwords with rfl | rfl <;> omega), Nat.add_zero]
    · have hck : Build.overflowChecks = false := by
        rcases hodd with h | h
        · exact h
        · exact absurd h he
      obtain rfl : w = nx + 1 := by omega
      refine ⟨2 ^ 32 - words, ?_, fun r hr => ?_⟩
      · unfold subU
        rw [if_neg (by rcases hwords with rfl | rfl <;> omega), hck]
        rcases hwords with rfl | rfl
        · simp; omega
        · simp; omega
      · have hT : faces * h * nx ≤ faces * ny * nx + nx := by
          rcases Nat.eq_zero_or_pos faces with rfl | hf
          · simp
          · rcases Nat.eq_zero_or_pos h with rfl | hp
            · simp
            · exact (g.row (f := 0) (y := 0) hf hp).2.2
        have hrw : r * nx ≤ faces * h * nx := Nat.mul_le_mul_right _ hr
        generalize faces * h * nx = A at hrw hT
        generalize faces * ny * nx = T at hbig hT
        generalize r * nx = q at hrw
        have hd : asUI 64 (asI 32 (2 ^ 32 - words)) = 2 ^ 64 - words := by
          rcases hwords with rfl | rfl <;> decide
        unfold addU fitU
        rw [hd, if_neg (by rcases hwords with rfl | rfl <;> omega), hck, if_neg (by simp)]
        refine congrArg Out.ok ?_
        rcases hwords with rfl | rfl <;> omega
  have hflat : ∀ n B : Nat, (List.replicate n (List.replicate B (0 : UInt8))).flatten
      = List.replicate (B * n) 0 := by
    intro n B
    rw [List.flatten_replicate_replicate, Nat.mul_comm]
  obtain ⟨st', e, hcore, hpos, bl, hdst, hwr⟩ := Res.forRange_inv (n := faces)
    (s := ({ codec := c, buffer := List.replicate (bufW * w) {},
             dst := List.replicate (4 * words * (faces * ny * nx)) 0 } : UState))
    (f := fun _ (st : UState) => Res.forRange h (fun y st => do
      let st ← Res.forRange w (fun x st => step y x st) st
      let pos ← addU 64 st.pos (asUI 64 (asI 32 delta))
      pure { st with pos }) st)
    (fun f st => BlockAt words (faces * ny) nx w Core bytes (f * h) 0 st)
    (by
      refine ⟨by simpa using h0 _, by simp, List.replicate (faces * ny * nx)
        (List.replicate (4 * words) 0), (hflat _ _).symm, ?_, by simp, ?_⟩
      · intro b hb; rw [List.eq_of_mem_replicate hb]; simp
      · intro r x hr hx
        rw [if_neg (by simp), List.getElem?_replicate, if_pos (flat_lt hr hx)])
    (by
      intro f hf st hst
      rw [Nat.succ_mul]
      refine Res.forRange_inv
        (fun y st => BlockAt words (faces * ny) nx w Core bytes (f * h + y) 0 st) hst ?_
      intro y hy st hst
      obtain ⟨st1, e1, hc1, hp1, bl1, hd1, hw1⟩ := Res.forRange_inv (n := w) (s := st)
        (f := fun x st => step y x st)
        (fun x st => BlockAt words (faces * ny) nx w Core bytes (f * h + y) x st) hst
        (fun x hx st hst => blockAt_step g hwords hbig ok hf hy hx hst)
      refine ⟨{ st1 with pos := words * ((f * h + y) * nx + nx) }, ?_, ?_, ?_, bl1, hd1, ?_⟩
      · rw [e1, Res.ok_bind, hp1, hnext _ (Nat.le_of_lt (flat_lt hf hy)), Res.lift_ok, Res.ok_bind]
        rfl
      · have := ok.pos _ _ (words * ((f * h + y) * nx + nx)) hc1
        rw [show (f * h + (y + 1)) * w + 0 = (f * h + y) * w + w by
          rw [← Nat.add_assoc, Nat.succ_mul]; rfl]
        exact this
      · show words * ((f * h + y) * nx + nx) = words * ((f * h + (y + 1)) * nx + 0)
        rw [← Nat.add_assoc, Nat.succ_mul]; rfl
      · rw [show (f * h + (y + 1)) * w + 0 = (f * h + y) * w + w by
          rw [← Nat.add_assoc, Nat.succ_mul]; rfl]
        exact hw1)
  refine ⟨st', ?_, ?_, ?_⟩
  · unfold loop
    rw [addU_ok (by omega), Res.lift_ok, Res.ok_bind, addU_ok (by omega), Res.lift_ok, Res.ok_bind]
    simp only [hw, hh]
    rw [hsh, Res.lift_ok, Res.ok_bind, hpitch, hdelta, Res.lift_ok, Res.ok_bind, hbufn, Res.lift_ok,
      Res.ok_bind]
    exact e
  · have hd := Written.done g (bl := bl) (B := 4 * words) (bytes := bytes) (by simpa using hwr)
    rw [hdst, hd]
  · rw [hdst, flatten_len hwr.lens, hwr.len]

end Verif.Proofs.Crn.Unity
