import Verif.Proofs.Crn.UnityFile
import Verif.Proofs.Crn.OddFaces

/-!
# Unity's variant of Crunch: several faces and an odd number of block rows

A face of such a level takes one row of blocks too many in the destination, so that the last face
ends outside it, where the decoder panics.
-/

namespace Verif.Proofs.Crn.Unity

open Verif Verif.Model Verif.Model.Crn Verif.Model.Crn.Unity Verif.Spec.Crn Verif.Spec.Crn.Unity

variable [Build]

/-! ## Writing outside the destination -/

omit [Build] in
/-- A function that does not succeed panics. -/
theorem bind_panic {α β : Type} {x : Out α} {f : α → Out β} (h : ∀ a, f a = .panic) :
    (x >>= f) = .panic := by
  cases x with
  | ok a => exact h a
  | panic => rfl

theorem writeAlphaWords_panic {u : Unpacker} {e f pd : Nat} {dst : List UInt8}
    (hd : dst.length ≤ 4 * pd) (hl : 4 * pd < 2 ^ 64) : writeAlphaWords u e f pd dst = .panic := by
  unfold writeAlphaWords
  refine bind_panic fun _ => bind_panic fun _ => bind_panic fun _ => bind_panic fun _ => ?_
  rw [writeInt_panic hd hl]
  rfl

theorem writeBytes4_panic {b : List UInt8} {pd : Nat} {dst : List UInt8}
    (hd : dst.length ≤ 4 * pd) (hl : 4 * pd < 2 ^ 64) : writeBytes4 dst pd b = .panic := by
  unfold writeBytes4
  rw [show mulU 64 pd 4 = .ok (4 * pd) by rw [mulU_ok (by omega), Nat.mul_comm], Out.ok_bind]
  refine bind_panic fun _ => ?_
  unfold setIdx
  rw [if_neg (by omega)]
  rfl

/-- The writes of a format panic outside the destination. -/
def KindOut (kind : Kind) : Prop :=
  ∀ i t pd dst, dst.length ≤ 4 * pd → 4 * pd < 2 ^ 64 → kind.write i t pd dst = .panic

theorem dxt1Kind_out (u : Unpacker) : KindOut (dxt1Kind u) := by
  intro i t pd dst hd hl
  refine bind_panic fun _ => ?_
  rw [writeInt_panic hd hl]
  rfl

theorem dxt5Kind_out (u : Unpacker) : KindOut (dxt5Kind u) := by
  intro i t pd dst hd hl
  refine bind_panic fun _ => ?_
  rw [writeAlphaWords_panic hd hl]
  rfl

theorem dxt5aKind_out (u : Unpacker) : KindOut (dxt5aKind u) := by
  intro i t pd dst hd hl
  refine bind_panic fun _ => ?_
  rw [writeAlphaWords_panic hd hl]

theorem dxnKind_out (u : Unpacker) : KindOut (dxnKind u) := by
  intro i t pd dst hd hl
  refine bind_panic fun _ => bind_panic fun _ => ?_
  rw [writeAlphaWords_panic hd hl]
  rfl

/-- The same for the formats with two colours per block. -/
def WriteOut (write : EtcWrite) : Prop :=
  ∀ e0 e1 a0 flip t pd dst, dst.length ≤ 4 * pd → 4 * pd < 2 ^ 64 →
    write e0 e1 a0 flip t pd dst = .panic

theorem etc1Write_out (u : Unpacker) : WriteOut (etc1Write u) := by
  intro e0 e1 a0 flip t pd dst hd hl
  unfold etc1Write writeEtcColour
  refine bind_panic fun _ => ?_
  rw [writeBytes4_panic hd hl]
  rfl

theorem etc2aWrite_out (u : Unpacker) : WriteOut (etc2aWrite u) := by
  intro e0 e1 a0 flip t pd dst hd hl
  unfold etc2aWrite
  refine bind_panic fun _ => bind_panic fun _ => bind_panic fun _ => ?_
  rw [writeAlphaWords_panic hd hl]
  rfl

/-! ## Blocks outside the destination -/

theorem block_out {buf : List UInt8} {last : Nat} {code : List Nat} {dm : DataModel} (hm : TablesOk code dm) {kind : Kind}
    {planes : List Indices} {view : Idx → List Nat}
    {sview : Nat × Nat → List Nat} {Good : Idx → Prop} {SGood : Nat × Nat → Prop} {words : Nat}
    {bytes : List Nat → List Nat → List UInt8}
    (hk : KindOk buf last kind planes view sview Good SGood words bytes) {w n : Nat} (hw : 0 < w)
    (heven : w % 2 = 0) {l : List Block} {bs : Nat → List Bool}
    (hl : ∀ k b, l[k]? = some b → Reads code planes w l k b (bs k) (bs (k + 1)))
    {b : Block} (hb : l[n]? = some b) {st : UState}
    (hst : Core buf last planes view Good w l bs n st) {y ow oh : Nat}
    (hy : y % 2 = n / w % 2) (hpos : st.pos < 2 ^ 32)
    (ho : KindOut kind) (hv : y < oh ∧ n % w < ow) (hroom : st.dst.length ≤ 4 * st.pos) :
    Model.Crn.Unity.block kind dm words ow oh y (n % w) st = .panic := by
  obtain ⟨b1, b2, r1, r2, r3⟩ := (hl n b hb).reads
  obtain ⟨e, he, hge, hve, _⟩ := hst.win n (Nat.le_refl _) (by omega)
  obtain ⟨st1, q1, a1⟩ := reference_ok hm hw heven hl hb r1 hst kind.msg hy he
  obtain ⟨e1, he1, hi1, hr1⟩ := a1.elem
  obtain ⟨st2, q2, a2⟩ := endpoints_ok hk hw (n := n) (w := w) a1.codec (by rw [a1.cur]; exact hst.good)
    (by rw [a1.cur]; exact hst.cur) a1.len he1 (by rw [hi1]; exact hge) (by rw [hi1]; exact hve) r2
  obtain ⟨t, c3, q3, hc3, hs3, hv3⟩ := hk.select _ _ _ _ r3 a2.codec
  unfold Model.Crn.Unity.block
  rw [q1, Res.ok_bind]
  simp only
  rw [q2, Res.ok_bind, q3, Res.ok_bind]
  simp only
  rw [if_pos hv, a2.dst, a1.dst, a2.pos, a1.pos, ho _ _ _ _ hroom (by omega), Res.lift_panic,
    Res.panic_bind]

theorem etcBlock_out {buf : List UInt8} {last : Nat} {u : Unpacker} {code : List Nat} (hm : TablesOk code u.tables.encoding)
    {kind : Kind} {write : EtcWrite} {colour : Indices} {others : List Indices}
    {view : Idx → List Nat} {sview : Nat × Nat → List Nat} {Good : Idx → Prop}
    {SGood : Nat × Nat → Prop} {words : Nat}
    {bytes : EtcBlock → List UInt8}
    (hk : EtcKindOk buf last u kind write colour others view sview Good SGood words bytes)
    {w n : Nat} (hw : 0 < w) {l : List EtcBlock} {bs : Nat → List Bool}
    {b : EtcBlock} (hb : l[n]? = some b)
    (hl : EtcReads code colour others w l n b (bs n) (bs (n + 1))) {st : UState}
    (hst : EtcCore buf last ((colour :: others).map fun _ => 0) view Good w l bs n st) {y ow oh : Nat}
    (hy : y % 2 = n / w % 2) (hpos : st.pos < 2 ^ 32)
    (ho : WriteOut write) (hv : y < oh ∧ n % w < ow) (hroom : st.dst.length ≤ 4 * st.pos) :
    Model.Crn.Unity.etcBlock u kind write words ow oh y (n % w) st = .panic := by
  generalize hz : ((colour :: others).map fun _ => 0) = z at *
  obtain ⟨b1, b2, b3, r1, r2, r3, r4, r5⟩ := hl.reads
  rw [hz] at r2 r3
  obtain ⟨e, e', he, he', hge, hge', hve, hve', _⟩ := hst.win n (Nat.le_refl _) (by omega)
  obtain ⟨st1, q1, a1⟩ := etcReference_ok hm hw r1 hst kind.msg hy he
  obtain ⟨e1, he1, hi1, hr1⟩ := a1.elem
  obtain ⟨st2, q2, a2⟩ := etcEndpoints_ok hk hw (n := n) (w := w) a1.codec
    (by rw [a1.cur]; exact hst.good) (by rw [a1.cur]; exact hst.cur)
    (by rw [a1.diag]; exact hst.goodDiag) (by rw [a1.diag]; exact hst.diag)
    a1.len he1 (by rw [hi1]; exact hge) (by rw [hi1]; exact hve) r2
  obtain ⟨t, c3, q3, hc3, hs3, hv3⟩ := hk.select _ _ _ _ (hz ▸ r3) a2.codec
  have hmod := Nat.mod_lt n hw
  have hsplit := (etcRef_split b.refs (n / w)).2
  have hin := hk.inside _ a2.good
  have hhead : b.endpoint.headD 0 = st2.cur.c := by rw [← a2.cur]; exact hk.head _
  -- the second colour
  obtain ⟨c4, q4, hc4, hsec⟩ : ∃ c4,
      (if etcRef b.refs (n / w) >>> 2 ≠ 0 then
        Model.Crn.Unity.nextEndpoint kind.msg u.tables.endpoint0 u.colorEndpoints.length st2.cur.c c3
      else pure (st2.cur.c, c3) : Res (Nat × Codec)) = .ok (b.second, c4) ∧
      At buf last c4 (bs (n + 1)) ∧ b.second < u.colorEndpoints.length := by
    rw [hsplit]
    rw [hhead] at r4
    by_cases h0 : b.refs / 16 / 4 ^ (n / w % 2) % 4 = 0
    · rw [if_pos h0] at r4
      rw [if_neg (by omega)]
      refine ⟨c3, by rw [r4.1]; rfl, by rw [r4.2]; exact hc3, by rw [r4.1]; exact hin⟩
    · rw [if_neg h0] at r4
      rw [if_pos h0]
      exact hk.next _ _ _ _ _ r4 hc3
  have he2' : st2.buffer[2 * (n % w) + 1]? = some e' := by
    rw [a2.others _ (by omega), a1.others _ (by omega), he']
  have hx : 2 * (n % w) + 1 < st2.buffer.length := by rw [a2.len]; omega
  unfold Model.Crn.Unity.etcBlock
  rw [q1, Res.ok_bind]
  simp only
  rw [q2, Res.ok_bind, idx_of_some (getElem?_getD hin), Res.lift_ok, Res.ok_bind, q3, Res.ok_bind]
  simp only
  rw [q4, Res.ok_bind]
  simp only
  rw [idx_of_some he2', Res.lift_ok, Res.ok_bind, setIdx_ok hx, Res.lift_ok, Res.ok_bind,
    idx_of_some (getElem?_getD hsec), Res.lift_ok, Res.ok_bind, if_pos hv, a2.dst, a1.dst, a2.pos,
    a1.pos, ho _ _ _ _ _ _ _ hroom (by omega), Res.lift_panic, Res.panic_bind]

/-! ## The loop -/

/-- The sizes of a level with several faces and an odd number of block rows. -/
structure OddGrid (faces nx ny w h : Nat) : Prop where
  width : w = even nx
  height : h = even ny
  nxPos : 0 < nx
  nxLt : nx < 2 ^ 15
  nyLt : ny < 2 ^ 15
  faces : 2 ≤ faces
  odd : ny % 2 = 1

omit [Build] in
theorem OddGrid.row {faces nx ny w h : Nat} (g : OddGrid faces nx ny w h) :
    (∀ f y, (f * h + y) % 2 = y % 2) ∧ faces * h * nx ≤ 2 * (faces * ny * nx) := by
  have hh := g.height
  have ho := g.odd
  unfold even at hh
  constructor
  · intro f y
    have : f * h = 2 * (f * (h / 2)) := by
      rw [Nat.mul_left_comm]; congr 1; omega
    omega
  · have h1 : faces * h ≤ faces * (2 * ny) := Nat.mul_le_mul_left _ (by omega)
    have h2 := Nat.mul_le_mul_right nx h1
    rw [Nat.mul_left_comm faces 2 ny, Nat.mul_assoc 2] at h2
    exact h2

/-- The last face does not fit. -/
theorem OddGrid.last {faces nx ny w h : Nat} (g : OddGrid faces nx ny w h)
    (hall : ∀ f, f < faces → ∀ y, y < ny → f * h + y < faces * ny) : False := by
  have hh := g.height
  have ho := g.odd
  have hf := g.faces
  unfold even at hh
  obtain ⟨F, rfl⟩ : ∃ F, faces = F + 1 := ⟨faces - 1, by omega⟩
  have := hall F (by omega) (ny - 1) (by omega)
  rw [show h = ny + 1 by omega, Nat.mul_add, Nat.mul_one, Nat.add_mul, Nat.one_mul] at this
  omega

/-- A step of the loop outside the destination. -/
def StepOut (faces nx ny w h : Nat) (step : Nat → Nat → UState → Res UState)
    (Core : Nat → UState → Prop) : Prop :=
  ∀ f y x st, f < faces → y < h → x < w → Core ((f * h + y) * w + x) st → st.pos < 2 ^ 32 →
    y < ny ∧ x < nx → st.dst.length ≤ 4 * st.pos → step y x st = .panic

/-- What is known of the state before the block in row `r` and column `x`. -/
def OddAt (words T nx w : Nat) (Core : Nat → UState → Prop) (r x : Nat) (st : UState) : Prop :=
  Core (r * w + x) st ∧ st.pos = words * (r * nx + x) ∧ st.dst.length = 4 * words * T

omit [Build] in
theorem oddAt_step {faces nx ny w h words : Nat} {step : Nat → Nat → UState → Res UState}
    {Core : Nat → UState → Prop} {bytes : Nat → List UInt8} (g : OddGrid faces nx ny w h)
    (hwords : words = 2 ∨ words = 4) (hbig : 4 * words * (faces * ny * nx + 2 * nx + 4) < 2 ^ 31)
    (ok : StepOk faces nx ny w h words step Core bytes) (out : StepOut faces nx ny w h step Core)
    {f y x : Nat} (hf : f < faces) (hy : y < h) (hx : x < w) {st : UState}
    (hst : OddAt words (faces * ny * nx) nx w Core (f * h + y) x st) :
    step y x st = .panic ∨ ∃ st', step y x st = .ok st' ∧
      OddAt words (faces * ny * nx) nx w Core (f * h + y) (x + 1) st' ∧
      (y < ny → x < nx → f * h + y < faces * ny) := by
  obtain ⟨hcore, hpos, hlen⟩ := hst
  have hrows := g.row.2
  have hnw : nx ≤ w ∧ w ≤ nx + 1 := by have := g.width; unfold even at this; omega
  have hR : (f * h + y) * nx + nx ≤ faces * h * nx := by
    rw [← Nat.succ_mul]
    exact Nat.mul_le_mul_right _ (flat_lt hf hy)
  have hin : x < nx → f * h + y < faces * ny → (f * h + y) * nx + x < faces * ny * nx :=
    fun h2 h1 => flat_lt h1 h2
  have hout : ¬ f * h + y < faces * ny → faces * ny * nx ≤ (f * h + y) * nx := fun h1 =>
    Nat.mul_le_mul_right _ (by omega)
  generalize faces * ny * nx = T at *
  generalize hRn : (f * h + y) * nx = Rn at *
  have hp4 : 4 * st.pos = 4 * words * (Rn + x) := by rw [hpos, Nat.mul_assoc]
  have hp32 : st.pos < 2 ^ 32 := by rw [hpos]; rcases hwords with rfl | rfl <;> omega
  by_cases hbad : y < ny ∧ x < nx ∧ ¬ f * h + y < faces * ny
  · refine Or.inl (out f y x st hf hy hx hcore hp32 ⟨hbad.1, hbad.2.1⟩ ?_)
    have := hout hbad.2.2
    rw [hlen, hp4]
    exact Nat.mul_le_mul_left _ (by omega)
  have hvis : y < ny ∧ x < nx → Rn + x < T := by
    rintro ⟨h1, h2⟩
    exact hin h2 (Classical.not_not.mp fun hc => hbad ⟨h1, h2, hc⟩)
  have hroom : y < ny ∧ x < nx → 4 * st.pos + 4 * words ≤ st.dst.length := fun hv => by
    have := hvis hv
    rw [hp4, hlen]
    rcases hwords with rfl | rfl <;> omega
  obtain ⟨st', e, h1, h2, h3, h4⟩ := ok.step f y x st hf hy hx hcore hp32 hroom
    (by rw [hlen]; rcases hwords with rfl | rfl <;> omega)
  refine Or.inr ⟨st', e, ⟨h1, ?_, ?_⟩, fun hy' hx' =>
    Classical.not_not.mp fun hc => hbad ⟨hy', hx', hc⟩⟩
  · rw [h2, hpos, hRn]
    rcases hwords with rfl | rfl <;> omega
  · rw [h3]
    by_cases hv : y < ny ∧ x < nx
    · rw [if_pos hv, put_length (by rw [h4 hv]; exact hroom hv), hlen]
    · rw [if_neg hv, hlen]

theorem oddLoop_panic {faces nx ny w h words bufW : Nat} {step : Nat → Nat → UState → Res UState}
    {Core : Nat → UState → Prop} {bytes : Nat → List UInt8} (g : OddGrid faces nx ny w h)
    (hwords : words = 2 ∨ words = 4) (hbig : 4 * words * (faces * ny * nx + 2 * nx + 4) < 2 ^ 31)
    (hbufW : bufW = 1 ∨ bufW = 2)
    (hodd : Build.overflowChecks = false ∨ nx % 2 = 0)
    (ok : StepOk faces nx ny w h words step Core bytes) (out : StepOut faces nx ny w h step Core)
    {c : Codec}
    (h0 : ∀ dst, Core 0 { codec := c, buffer := List.replicate (bufW * w) {}, dst := dst }) :
    loop bufW words faces (4 * words * nx) nx ny step c
        (List.replicate (4 * words * (faces * ny * nx)) 0) = .panic := by
  have hnx := g.nxLt
  have hny := g.nyLt
  have hw : (nx + 1) &&& 0xFFFFFFFE = w := by
    rw [even_and (by omega), g.width]; rfl
  have hh : (ny + 1) &&& 0xFFFFFFFE = h := by
    rw [even_and (by omega), g.height]; rfl
  have hww : w = (nx + 1) / 2 * 2 := g.width
  have hnw : nx ≤ w ∧ w ≤ nx + 1 := by omega
  have hsh : shlU 32 w (words / 2) = .ok (words * w) := by
    rcases hwords with rfl | rfl
    · rw [shlU_ok (by omega), Nat.shiftLeft_eq, Nat.mod_eq_of_lt (by omega), Nat.mul_comm]
    · rw [shlU_ok (by omega), Nat.shiftLeft_eq, Nat.mod_eq_of_lt (by omega), Nat.mul_comm]
  have hpitch : (4 * words * nx) >>> 2 = words * nx := by
    rw [Nat.shiftRight_eq_div_pow, Nat.mul_assoc]
    exact Nat.mul_div_cancel_left _ (by omega)
  have hbufn : shlU 32 w (bufW - 1) = .ok (bufW * w) := by
    rcases hbufW with rfl | rfl
    · rw [shlU_ok (by omega), Nat.shiftLeft_eq, Nat.mod_eq_of_lt (by omega)]; simp
    · rw [shlU_ok (by omega), Nat.shiftLeft_eq, Nat.mod_eq_of_lt (by omega)]
      simp [Nat.mul_comm]
  -- the step from the end of a row to the next row
  obtain ⟨delta, hdelta, hnext⟩ : ∃ delta, subU 32 (words * nx) (words * w) = .ok delta ∧
      ∀ r, r ≤ faces * h → addU 64 (words * (r * nx + w)) (asUI 64 (asI 32 delta))
        = .ok (words * (r * nx + nx)) := by
    by_cases he : nx % 2 = 0
    · obtain rfl : w = nx := by omega
      refine ⟨0, ?_, fun r hr => ?_⟩
      · rw [subU_ok (Nat.le_refl _), Nat.sub_self]
      · have hT : faces * h * w ≤ 2 * (faces * ny * w) := g.row.2
        have hrw : r * w ≤ faces * h * w := Nat.mul_le_mul_right _ hr
        generalize faces * h * w = A at hrw hT
        generalize faces * ny * w = T at hbig hT
        generalize r * w = q at hrw
        rw [show asUI 64 (asI 32 0) = 0 from rfl,
          addU_ok (by rcases hwords with rfl | rfl <;> omega), Nat.add_zero]
    · have hck : Build.overflowChecks = false := by
        rcases hodd with h | h
        · exact h
        · exact absurd h he
      obtain rfl : w = nx + 1 := by omega
      refine ⟨2 ^ 32 - words, ?_, fun r hr => ?_⟩
      · unfold subU
        rw [if_neg (by rcases hwords with rfl | rfl <;> omega), hck]
        rcases hwords with rfl | rfl
        · simp; omega
        · simp; omega
      · have hT : faces * h * nx ≤ 2 * (faces * ny * nx) := g.row.2
        have hrw : r * nx ≤ faces * h * nx := Nat.mul_le_mul_right _ hr
        generalize faces * h * nx = A at hrw hT
        generalize faces * ny * nx = T at hbig hT
        generalize r * nx = q at hrw
        have hd : asUI 64 (asI 32 (2 ^ 32 - words)) = 2 ^ 64 - words := by
          rcases hwords with rfl | rfl <;> decide
        unfold addU fitU
        rw [hd, if_neg (by rcases hwords with rfl | rfl <;> omega), hck, if_neg (by simp)]
        refine congrArg Out.ok ?_
        rcases hwords with rfl | rfl <;> omega
  have hw0 : 0 < w := by have := g.nxPos; omega
  have main := Res.forRange_or (n := faces)
    (s := ({ codec := c, buffer := List.replicate (bufW * w) {},
             dst := List.replicate (4 * words * (faces * ny * nx)) 0 } : UState))
    (f := fun _ (st : UState) => Res.forRange h (fun y st => do
      let st ← Res.forRange w (fun x st => step y x st) st
      let pos ← addU 64 st.pos (asUI 64 (asI 32 delta))
      pure { st with pos }) st)
    (fun f st => OddAt words (faces * ny * nx) nx w Core (f * h) 0 st ∧
      ∀ f', f' < f → ∀ y, y < ny → f' * h + y < faces * ny)
    ⟨⟨by simpa using h0 _, by simp, by simp⟩, by omega⟩
    (by
      intro f hf st hst
      rw [Nat.succ_mul]
      have face := Res.forRange_or (n := h) (s := st) (f := fun y (st : UState) => do
          let st ← Res.forRange w (fun x st => step y x st) st
          let pos ← addU 64 st.pos (asUI 64 (asI 32 delta))
          pure { st with pos })
        (fun y st => OddAt words (faces * ny * nx) nx w Core (f * h + y) 0 st ∧
          ∀ y', y' < y → y' < ny → f * h + y' < faces * ny) ⟨hst.1, by omega⟩ (by
        intro y hy st hst
        rcases Res.forRange_or (n := w) (s := st) (f := fun x st => step y x st)
          (fun x st => OddAt words (faces * ny * nx) nx w Core (f * h + y) x st ∧
            (0 < x → y < ny → f * h + y < faces * ny)) ⟨hst.1, by omega⟩ (by
            intro x hx st hst
            rcases oddAt_step g hwords hbig ok out hf hy hx hst.1 with e | ⟨st', e, h1, h2⟩
            · exact Or.inl e
            · refine Or.inr ⟨st', e, h1, fun _ hy' => ?_⟩
              rcases Nat.eq_zero_or_pos x with rfl | hx0
              · exact h2 hy' g.nxPos
              · exact hst.2 hx0 hy') with e1 | ⟨st1, e1, ⟨hc1, hp1, hl1⟩, hin⟩
        · exact Or.inl (by rw [e1, Res.panic_bind])
        refine Or.inr ⟨{ st1 with pos := words * ((f * h + y) * nx + nx) }, ?_, ⟨?_, ?_, hl1⟩, ?_⟩
        · rw [e1, Res.ok_bind, hp1, hnext _ (Nat.le_of_lt (flat_lt hf hy)), Res.lift_ok, Res.ok_bind]
          rfl
        · have := ok.pos _ _ (words * ((f * h + y) * nx + nx)) hc1
          rw [show (f * h + (y + 1)) * w + 0 = (f * h + y) * w + w by
            rw [← Nat.add_assoc, Nat.succ_mul]; rfl]
          exact this
        · show words * ((f * h + y) * nx + nx) = words * ((f * h + (y + 1)) * nx + 0)
          rw [← Nat.add_assoc, Nat.succ_mul]; rfl
        · intro y' hy1 hy2
          by_cases he : y' = y
          · subst he; exact hin hw0 hy2
          · exact hst.2 y' (by omega) hy2)
      rcases face with e | ⟨st', e, h1, h2⟩
      · exact Or.inl e
      · refine Or.inr ⟨st', e, h1, ?_⟩
        intro f' hf1 y hy
        by_cases he : f' = f
        · subst he
          exact h2 y (by have := g.height; unfold even at this; omega) hy
        · exact hst.2 f' (by omega) y hy)
  unfold loop
  rw [addU_ok (by omega), Res.lift_ok, Res.ok_bind, addU_ok (by omega), Res.lift_ok, Res.ok_bind]
  simp only [hw, hh]
  rw [hsh, Res.lift_ok, Res.ok_bind, hpitch, hdelta, Res.lift_ok, Res.ok_bind, hbufn, Res.lift_ok,
    Res.ok_bind]
  rcases main with e | ⟨_, _, _, hall⟩
  · exact e
  · exact (g.last hall).elim

/-- The loop panics. -/
theorem wholeLoop_panic {buf : List UInt8} {last : Nat} {faces nx ny w h words : Nat}
    (g : OddGrid faces nx ny w h) (hwords : words = 2 ∨ words = 4)
    (hbig : 4 * words * (faces * ny * nx + 2 * nx + 4) < 2 ^ 31)
    (hodd : Build.overflowChecks = false ∨ nx % 2 = 0)
    {code : List Nat} {dm : DataModel} (hm : TablesOk code dm) {kind : Kind}
    {planes : List Indices} {view : Idx → List Nat}
    {sview : Nat × Nat → List Nat} {Good : Idx → Prop} {SGood : Nat × Nat → Prop}
    {bytes : List Nat → List Nat → List UInt8}
    (hk : KindOk buf last kind planes view sview Good SGood words bytes)
    (ho : KindOut kind)
    {l : List Block} {bits rest : List Bool}
    (hl : grow (Spec.Crn.Unity.block code planes w) (faces * h * w) [] bits = some (l, rest))
    {c : Codec} (hc : At buf last c bits) :
    loop 1 words faces (4 * words * nx) nx ny (Model.Crn.Unity.block kind dm words nx ny) c
        (List.replicate (4 * words * (faces * ny * nx)) 0) = .panic := by
  obtain ⟨hlen, bs, hb0, hbs⟩ := grow_steps hl
  have hw0 : 0 < w := by have := g.width; have := g.nxPos; unfold even at *; omega
  have heven : w % 2 = 0 := by have := g.width; unfold even at this; omega
  have hreads : ∀ k b, l[k]? = some b → Reads code planes w l k b (bs k) (bs (k + 1)) :=
    fun k b hb => block_reads hw0 (List.getElem?_eq_some_iff.mp hb).1 (hbs k b hb)
  have ok : StepOk faces nx ny w h words (Model.Crn.Unity.block kind dm words nx ny)
      (Core buf last planes view Good w l bs)
      (fun n => bytes (l.getD n {}).endpoint (l.getD n {}).selector) := by
    refine ⟨fun n st p h => ⟨h.codec, h.good, h.cur, h.len, h.win, h.group⟩, ?_⟩
    intro f y x st hf hy hx hcore hpos hroom hdst
    obtain ⟨hd, hmod⟩ := flat_div (r := f * h + y) hx
    have hn : (f * h + y) * w + x < l.length := by
      rw [hlen]; exact flat_lt (flat_lt hf hy) hx
    have hb : l[(f * h + y) * w + x]? = some (l.getD ((f * h + y) * w + x) {}) := by
      rw [List.getD_eq_getElem?_getD, List.getElem?_eq_getElem hn]; rfl
    have key := block_ok hm (by omega) hk hw0 heven hreads hb hcore (y := y) (ow := nx) (oh := ny)
      (by rw [hd]; exact (g.row.1 f y).symm) hpos (by rw [hmod]; exact hroom) hdst
    rw [hmod] at key
    exact key
  have hout : StepOut faces nx ny w h (Model.Crn.Unity.block kind dm words nx ny)
      (Core buf last planes view Good w l bs) := by
    intro f y x st hf hy hx hcore hpos hv hroom
    obtain ⟨hd, hmod⟩ := flat_div (r := f * h + y) hx
    have hn : (f * h + y) * w + x < l.length := by
      rw [hlen]; exact flat_lt (flat_lt hf hy) hx
    have hb : l[(f * h + y) * w + x]? = some (l.getD ((f * h + y) * w + x) {}) := by
      rw [List.getD_eq_getElem?_getD, List.getElem?_eq_getElem hn]; rfl
    have key := block_out hm hk hw0 heven hreads hb hcore (y := y) (ow := nx) (oh := ny)
      (by rw [hd]; exact (g.row.1 f y).symm) hpos ho (by rw [hmod]; exact hv) hroom
    rw [hmod] at key
    exact key
  exact oddLoop_panic (bufW := 1) g hwords hbig (Or.inl rfl) hodd ok hout (c := c) (fun dst => by
    refine ⟨hb0 ▸ hc, hk.zero.1, by rw [hk.zero.2]; rfl, by simp, ?_, ?_⟩
    · intro m _ hm'
      rw [Nat.zero_add] at hm'
      refine ⟨{}, ?_, hk.zero.1, ?_, ?_⟩
      · rw [Nat.mod_eq_of_lt hm', List.getElem?_replicate, if_pos (by omega)]
      · unfold aboveOf; rw [if_pos hm']; exact hk.zero.2
      · rw [Nat.div_eq_of_lt hm']; intro h; simp at h
    · intro _ h; simp at h)

/-- The loop panics. -/
theorem halfLoop_panic {buf : List UInt8} {last : Nat} {faces nx ny w h words : Nat}
    (g : OddGrid faces nx ny w h) (hwords : words = 2 ∨ words = 4)
    (hbig : 4 * words * (faces * ny * nx + 2 * nx + 4) < 2 ^ 31)
    (hodd : Build.overflowChecks = false ∨ nx % 2 = 0)
    {u : Unpacker} {code : List Nat} (hm : TablesOk code u.tables.encoding) {kind : Kind}
    {write : EtcWrite} {colour : Indices} {others : List Indices} {view : Idx → List Nat}
    {sview : Nat × Nat → List Nat} {Good : Idx → Prop} {SGood : Nat × Nat → Prop}
    {bytes : EtcBlock → List UInt8}
    (hk : EtcKindOk buf last u kind write colour others view sview Good SGood words bytes)
    (ho : WriteOut write)
    {l : List EtcBlock} {bits rest : List Bool}
    (hl : grow (Spec.Crn.Unity.etcBlock code colour others w) (faces * h * w) [] bits
      = some (l, rest))
    {c : Codec} (hc : At buf last c bits) :
    loop 2 words faces (4 * words * nx) nx ny
        (Model.Crn.Unity.etcBlock u kind write words nx ny) c
        (List.replicate (4 * words * (faces * ny * nx)) 0) = .panic := by
  obtain ⟨hlen, bs, hb0, hbs⟩ := grow_steps hl
  have hw0 : 0 < w := by have := g.width; have := g.nxPos; unfold even at *; omega
  have ok : StepOk faces nx ny w h words (Model.Crn.Unity.etcBlock u kind write words nx ny)
      (EtcCore buf last ((colour :: others).map fun _ => 0) view Good w l bs)
      (fun n => bytes (l.getD n {})) := by
    refine ⟨fun n st p h => ⟨h.codec, h.good, h.cur, h.goodDiag, h.diag, h.len, h.win⟩, ?_⟩
    intro f y x st hf hy hx hcore hpos hroom hdst
    obtain ⟨hd, hmod⟩ := flat_div (r := f * h + y) hx
    have hn : (f * h + y) * w + x < l.length := by
      rw [hlen]; exact flat_lt (flat_lt hf hy) hx
    have hb : l[(f * h + y) * w + x]? = some (l.getD ((f * h + y) * w + x) {}) := by
      rw [List.getD_eq_getElem?_getD, List.getElem?_eq_getElem hn]; rfl
    have key := etcBlock_ok hm (by omega) hk hw0 hb (etcBlock_reads hw0 hn (hbs _ _ hb)) hcore
      (y := y) (ow := nx) (oh := ny)
      (by rw [hd]; exact (g.row.1 f y).symm) hpos (by rw [hmod]; exact hroom) hdst
    rw [hmod] at key
    exact key
  have hout : StepOut faces nx ny w h (Model.Crn.Unity.etcBlock u kind write words nx ny)
      (EtcCore buf last ((colour :: others).map fun _ => 0) view Good w l bs) := by
    intro f y x st hf hy hx hcore hpos hv hroom
    obtain ⟨hd, hmod⟩ := flat_div (r := f * h + y) hx
    have hn : (f * h + y) * w + x < l.length := by
      rw [hlen]; exact flat_lt (flat_lt hf hy) hx
    have hb : l[(f * h + y) * w + x]? = some (l.getD ((f * h + y) * w + x) {}) := by
      rw [List.getD_eq_getElem?_getD, List.getElem?_eq_getElem hn]; rfl
    have key := etcBlock_out hm hk hw0 hb (etcBlock_reads hw0 hn (hbs _ _ hb)) hcore
      (y := y) (ow := nx) (oh := ny)
      (by rw [hd]; exact (g.row.1 f y).symm) hpos ho (by rw [hmod]; exact hv) hroom
    rw [hmod] at key
    exact key
  exact oddLoop_panic (bufW := 2) g hwords hbig (Or.inr rfl) hodd ok hout (c := c) (fun dst => by
    refine ⟨hb0 ▸ hc, hk.zero.1, by rw [hk.zero.2]; rfl, hk.zero.1, ?_, by simp, ?_⟩
    · rw [hk.zero.2]; unfold etcDiagonal; rw [if_pos (by omega)]
    · intro m _ hm'
      rw [Nat.zero_add] at hm'
      refine ⟨{}, {}, ?_, ?_, hk.zero.1, hk.zero.1, ?_, ?_, ?_⟩
      · rw [Nat.mod_eq_of_lt hm', List.getElem?_replicate, if_pos (by omega)]
      · rw [Nat.mod_eq_of_lt hm', List.getElem?_replicate, if_pos (by omega)]
      · unfold etcAbove; rw [if_pos hm']; exact hk.zero.2
      · unfold etcAboveLast; rw [if_pos hm']; exact hk.zero.2
      · rw [Nat.div_eq_of_lt hm']; intro h; simp at h)

/-! ## Files -/

/-- What the level of a file comes to: the section with its bits, where the decoder panics. -/
def LevelOut (file : List UInt8) (u : Unpacker) : Prop :=
  ∃ bits, sectionBits file (levelOfs file 0) (levelEnd file - levelOfs file 0) = some bits ∧
    0 < levelEnd file - levelOfs file 0 ∧ Known (format file) ∧
    ((Build.overflowChecks = false ∨ blocksX file % 2 = 0) → ∀ c,
      At (file.drop (levelOfs file 0)) (levelEnd file - levelOfs file 0 - 1) c bits →
      Model.Crn.Unity.unpackFormat u (4 * wordsOf (format file) * blocksX file)
        (blocksX file) (blocksY file) c
        (List.replicate (4 * wordsOf (format file) * (faces file * blocksY file * blocksX file)) 0)
          = .panic)

/-- The result of opening a file. -/
def OpenedOut (file : List UInt8) : Prop :=
  ∃ u, Model.Crn.Unity.init file file.length = .ok u ∧ u.data = file ∧ u.dataSize = file.length ∧
    u.header = specHeader file ∧ LevelOut file u

/-- A file with several faces and an odd number of block rows. -/
structure OddLimits (file : List UInt8) : Prop where
  small : file.length < 2 ^ 32
  sections : SectionsInside file
  faces : 2 ≤ faces file
  odd : blocksY file % 2 = 1
  big : 16 * (Spec.Crn.faces file * blocksY file * blocksX file) < 2 ^ 30

omit [Build] in
theorem oddGrid_of_file {file : List UInt8} (hl : OddLimits file) :
    OddGrid (faces file) (blocksX file) (blocksY file) (even (blocksX file)) (even (blocksY file)) :=
  ⟨rfl, rfl, blocksOf_pos _, blocksOf_lt (be_lt file _ 2), blocksOf_lt (be_lt file _ 2), hl.faces,
    hl.odd⟩

omit [Build] in
theorem oddBig_of_file {file : List UInt8} (hl : OddLimits file) {words : Nat}
    (hw : words = 2 ∨ words = 4) :
    4 * words * (faces file * blocksY file * blocksX file + 2 * blocksX file + 4) < 2 ^ 31 := by
  have h1 : blocksX file < 2 ^ 15 := blocksOf_lt (be_lt file _ 2)
  have h2 := hl.big
  rcases hw with rfl | rfl <;> omega

theorem wholeBlocks_panic {file : List UInt8} {cs : Codes} {bl : List (List UInt8)}
    (hf : hasSubblocks (format file) = false)
    (hh : HeaderOk file file.length) (hlv : 0 < levels file)
    (hlen : headerBytes file ≤ file.length) (h1 : fileCodes file = some cs) (h : wholeBlocks file cs = some bl) (hl : OddLimits file) :
    OpenedOut file := by
  have h74 : 74 ≤ file.length := by unfold headerBytes at hlen; omega
  obtain ⟨colour, h2, h⟩ := Option.bind_eq_some_iff.mp h
  obtain ⟨alpha, h3, h⟩ := Option.bind_eq_some_iff.mp h
  obtain ⟨⟨planes, order⟩, h4, h⟩ := Option.bind_eq_some_iff.mp h
  obtain ⟨l, h5, h⟩ := Option.bind_eq_some_iff.mp h
  obtain rfl := Option.some.inj h
  obtain ⟨t, et, ht⟩ := initTables_ok h1 hl.sections.tables
  obtain ⟨E, S, ec, hc⟩ := wholeColour_ok hf h2 ht hl.sections
  obtain ⟨E', A, V, ea, ha⟩ := wholeAlpha_ok hf h3 ht hl.sections
  refine ⟨_, init_eq hh hlen h74 et ec ea, rfl, rfl, rfl, ?_⟩
  obtain ⟨l', bits, rest, hb, h0, hg, rfl⟩ := readLevel_some h5
  have hgrid := oddGrid_of_file hl
  have hfac : (specHeader file).faces = faces file := rfl
  have hfmt : (specHeader file).format = format file := rfl
  unfold Spec.Crn.Unity.planesOf at h4
  unfold hasSubblocks at hf
  simp only [Bool.or_eq_false_iff, decide_eq_false_iff_not] at hf
  refine ⟨bits, hb, h0, ?_, fun hodd c hc' => ?_⟩
  · unfold Known
    split at h4
    · omega
    · split at h4
      · omega
      · split at h4
        · omega
        · split at h4
          · omega
          · exact absurd h4 (by simp)
  unfold Model.Crn.Unity.unpackFormat
  simp only [hfac, hfmt]
  generalize format file = f at h4 hf
  by_cases f0 : f = 0 ∨ f = 13
  · rw [if_pos f0] at h4
    rw [if_pos f0]
    obtain ⟨rfl, rfl⟩ : [colour] = planes ∧ [0] = order := by simpa using h4
    rw [show wordsOf f = 2 by unfold wordsOf; rw [if_pos (by omega)]]
    exact wholeLoop_panic hgrid (Or.inl rfl) (oddBig_of_file hl (Or.inl rfl)) hodd ht.encoding
      (dxt1Kind_ok hc rfl rfl) (dxt1Kind_out _) hg hc'
  rw [if_neg f0] at h4
  rw [if_neg f0]
  by_cases f2 : (2 ≤ f ∧ f ≤ 6) ∨ f = 14
  · rw [if_pos f2] at h4
    rw [if_pos f2]
    obtain ⟨rfl, rfl⟩ : [colour, alpha] = planes ∧ [1, 0] = order := by simpa using h4
    rw [show wordsOf f = 4 by unfold wordsOf; rw [if_neg (by omega)]]
    exact wholeLoop_panic hgrid (Or.inr rfl) (oddBig_of_file hl (Or.inr rfl)) hodd ht.encoding
      (dxt5Kind_ok hc rfl rfl ha rfl) (dxt5Kind_out _) hg hc'
  rw [if_neg f2] at h4
  rw [if_neg f2]
  by_cases f7 : f = 7 ∨ f = 8
  · rw [if_pos f7] at h4
    rw [if_neg (show ¬ f = 9 by omega), if_pos f7]
    obtain ⟨rfl, rfl⟩ : [alpha, alpha] = planes ∧ [0, 1] = order := by simpa using h4
    rw [show wordsOf f = 4 by unfold wordsOf; rw [if_neg (by omega)]]
    exact wholeLoop_panic hgrid (Or.inr rfl) (oddBig_of_file hl (Or.inr rfl)) hodd ht.encoding
      (dxnKind_ok ha rfl) (dxnKind_out _) hg hc'
  rw [if_neg f7] at h4
  by_cases f9 : f = 9
  · rw [if_pos f9] at h4
    rw [if_pos f9]
    obtain ⟨rfl, rfl⟩ : [alpha] = planes ∧ [0] = order := by simpa using h4
    rw [show wordsOf f = 2 by unfold wordsOf; rw [if_pos (by omega)]]
    exact wholeLoop_panic hgrid (Or.inl rfl) (oddBig_of_file hl (Or.inl rfl)) hodd ht.encoding
      (dxt5aKind_ok ha rfl) (dxt5aKind_out _) hg hc'
  rw [if_neg f9] at h4
  exact absurd h4 (by simp)

theorem halfBlocks_panic {file : List UInt8} {cs : Codes} {bl : List (List UInt8)}
    (hf : format file = 10 ∨ format file = 11 ∨ format file = 12)
    (hh : HeaderOk file file.length) (hlv : 0 < levels file)
    (hlen : headerBytes file ≤ file.length) (h1 : fileCodes file = some cs) (h : halfBlocks file cs = some bl) (hl : OddLimits file) :
    OpenedOut file := by
  have h74 : 74 ≤ file.length := by unfold headerBytes at hlen; omega
  unfold halfBlocks at h
  obtain ⟨hce, h⟩ := require'_bind h
  obtain ⟨cols, h2, h⟩ := Option.bind_eq_some_iff.mp h
  obtain ⟨sels, h3, h⟩ := Option.bind_eq_some_iff.mp h
  have hsub : hasSubblocks (format file) = true := by
    unfold hasSubblocks; rcases hf with hf | hf | hf <;> simp [hf]
  have hetc : hasEtc (format file) = true := by
    unfold hasEtc; rcases hf with hf | hf | hf <;> simp [hf]
  have hin := hl.sections.colours hce
  obtain ⟨t, et, ht⟩ := initTables_ok h1 hl.sections.tables
  obtain ⟨e1, n1, v1⟩ := etcColours_ok h2 hin.1
  obtain ⟨e2, n2, v2⟩ := etcSelectors_ok hetc h3 hin.2
  rw [hsub] at e1 e2
  have htt := ht.colour (by omega)
  have ec : colourPart file = .ok (cols.map (storedColour true), sels.flatMap (storedSelectors true)) := by
    unfold colourPart
    refine (if_pos (show (specHeader file).colorEndpoints.num ≠ 0 from hce)).trans ?_
    rw [if_pos hetc, e1, Res.ok_bind, e2, Res.ok_bind]; rfl
  have hcol : ∀ (E' A : List Nat), EtcColourOk ⟨file, file.length, specHeader file, t,
      cols.map (storedColour true), sels.flatMap (storedSelectors true), E', A⟩
      ⟨cs.colourEndpoint, cols.length, cs.colourSelector, sels.length⟩ cols sels := fun E' A =>
    ⟨rfl, rfl, rfl, rfl, v1, v2, by rw [n1]; exact palette_num_lt _ _,
      by rw [n2]; exact palette_num_lt _ _, by omega, htt.1, fun _ => htt.2⟩
  have hgrid := oddGrid_of_file hl
  have hfac : (specHeader file).faces = faces file := rfl
  have hfmt : (specHeader file).format = format file := rfl
  have hknown : Known (format file) := by unfold Known; omega
  by_cases f12 : format file = 12
  · rw [if_pos f12] at h
    obtain ⟨hae, h⟩ := require'_bind h
    obtain ⟨alphas, h4, h⟩ := Option.bind_eq_some_iff.mp h
    obtain ⟨asels, h5, h⟩ := Option.bind_eq_some_iff.mp h
    obtain ⟨l, h6, h⟩ := Option.bind_eq_some_iff.mp h
    obtain rfl := Option.some.inj h
    have hain := hl.sections.alphas hae
    have hat := ht.alpha (by omega)
    obtain ⟨E', e4, p4, n4, v4⟩ := alphaEndpoints_ok h4 hain.1
    obtain ⟨A, e5, w5, n5, v5⟩ := eacSelectorsTwice_ok h5 hain.2
    have hpos : 0 < E'.length := by omega
    have ea : alphaPart file = .ok (E', A) := by
      unfold alphaPart
      refine (if_pos (show (specHeader file).alphaEndpoints.num ≠ 0 from hae)).trans ?_
      have : decodeAlphaSelectorsAny file (specHeader file) = .ok A := by
        unfold decodeAlphaSelectorsAny
        rw [hfmt, if_neg (by omega), if_pos f12, e5]
      rw [e4, Res.ok_bind, this, Res.ok_bind]; rfl
    refine ⟨_, init_eq hh hlen h74 et ec ea, rfl, rfl, rfl, ?_⟩
    obtain ⟨l', bits, rest, hb, h0, hg, rfl⟩ := readLevel_some h6
    refine ⟨bits, hb, h0, hknown, fun hodd c hc' => ?_⟩
    unfold Model.Crn.Unity.unpackFormat
    simp only [hfac, hfmt]
    rw [f12, if_neg (by omega), if_neg (by omega), if_neg (by omega), if_neg (by omega),
      if_neg (by omega), if_pos rfl, show wordsOf 12 = 4 from rfl]
    exact halfLoop_panic hgrid (Or.inr rfl) (oddBig_of_file hl (Or.inr rfl)) hodd ht.encoding
      (etc2aKind_ok (hcol E' A) rfl p4 (by simp [p4]) rfl
        (by rw [n4]; exact palette_num_lt _ _) (by rw [n5]; exact palette_num_lt _ _) hpos v4 v5 w5
        hat.1 (fun _ => hat.2)) (etc2aWrite_out _) hg hc'
  · rw [if_neg f12] at h
    obtain ⟨hae, h⟩ := require'_bind h
    obtain ⟨l, h6, h⟩ := Option.bind_eq_some_iff.mp h
    obtain rfl := Option.some.inj h
    have ea : alphaPart file = .ok ([], []) := by
      unfold alphaPart
      exact if_neg (fun hc => hc hae)
    refine ⟨_, init_eq hh hlen h74 et ec ea, rfl, rfl, rfl, ?_⟩
    obtain ⟨l', bits, rest, hb, h0, hg, rfl⟩ := readLevel_some h6
    refine ⟨bits, hb, h0, hknown, fun hodd c hc' => ?_⟩
    unfold Model.Crn.Unity.unpackFormat
    simp only [hfac, hfmt]
    generalize format file = f at hf f12
    rw [if_neg (by omega), if_neg (by omega), if_neg (by omega), if_neg (by omega),
      if_pos (by omega), show wordsOf f = 2 by unfold wordsOf; rw [if_pos (by omega)]]
    exact halfLoop_panic hgrid (Or.inl rfl) (oddBig_of_file hl (Or.inl rfl)) hodd ht.encoding
      (etc1Kind_ok (hcol [] [])) (etc1Write_out _) hg hc'

theorem unity_unpack_out {file dxt : List UInt8} (h : Spec.Crn.Unity.unpack file = some dxt)
    (hl : OddLimits file) :
    HeaderOk file file.length ∧ 0 < levels file ∧ headerBytes file ≤ file.length ∧
    OpenedOut file := by
  unfold Spec.Crn.Unity.unpack at h
  split at h
  · rename_i h0
    obtain ⟨cs, h1, h⟩ := Option.bind_eq_some_iff.mp h
    obtain ⟨bl, h2, h⟩ := Option.bind_eq_some_iff.mp h
    refine ⟨h0.1, h0.2.1, h0.2.2, ?_⟩
    by_cases hf : format file = 10 ∨ format file = 11 ∨ format file = 12
    · rw [if_pos hf] at h2
      exact halfBlocks_panic hf h0.1 h0.2.1 h0.2.2 h1 h2 hl
    · rw [if_neg hf] at h2
      refine wholeBlocks_panic ?_ h0.1 h0.2.1 h0.2.2 h1 h2 hl
      unfold hasSubblocks
      simp only [Bool.or_eq_false_iff, decide_eq_false_iff_not]
      omega
  · exact absurd h (by simp)

/-- A file with several faces and an odd number of block rows panics, in both builds. -/
theorem unityOddRows_panic {file dxt : List UInt8}
    (h : Spec.Crn.Unity.unpack file = some dxt) (hl : OddLimits file) :
    unityCrunchUnpackLevel file (asU 32 file.length) 0 = .panic := by
  obtain ⟨hh, hlv, hhb, u, eu, hd, hsz, hu, bits, hb, h0, hk, hlevel⟩ := unity_unpack_out h hl
  obtain ⟨c, hc, e⟩ := unityUnpackLevel_eq hh hlv hhb hl.small (by have := hl.faces; omega) hl.big eu
    hd hsz hu hk h0 hb
  have hx : blocksX file < 2 ^ 15 := blocksOf_lt (be_lt file _ 2)
  have hy : blocksY file < 2 ^ 15 := blocksOf_lt (be_lt file _ 2)
  by_cases hodd : Build.overflowChecks = false ∨ blocksX file % 2 = 0
  · rw [e, hlevel hodd c hc, Res.panic_bind]
  · have hck : Build.overflowChecks = true := by
      cases hb : Build.overflowChecks
      · exact absurd (Or.inl hb) hodd
      · rfl
    rw [e, unpackFormat_panic hu hk hx hy hck (by omega), Res.panic_bind]

end Verif.Proofs.Crn.Unity
