import Verif.Proofs.Crn.UnityFile
import Verif.Proofs.Crn.Damage
import Verif.Spec.UnityClosed

/-!
# Unpacking a level of Unity's variant whatever its data are

The header, codes and palettes of the file are good, the level data are arbitrary bytes.
-/

namespace Verif.Proofs.Crn.Unity

open Verif Verif.Model Verif.Model.Crn Verif.Model.Crn.Unity Verif.Spec.Crn Verif.Spec.Crn.Unity

variable [Build]

/-! ## Indices -/

theorem nextEndpoint_safe {dm : DataModel} {num : Nat} (h : IndexOk dm num) {prev : Nat}
    (hp : prev < num) {c : Codec} (hc : St c []) (msg : String) :
    Safe (fun r => r.1 < num ∧ St r.2 []) (Model.Crn.Unity.nextEndpoint msg dm num prev c) := by
  obtain ⟨hn, code, ht, hu, hb⟩ := h
  unfold Model.Crn.Unity.nextEndpoint
  refine Safe.bind (Safe.orErr _ (decode_safe ht hu hc)) ?_
  rintro ⟨d, c'⟩ ⟨hd, hc'⟩
  have hd := hb d hd
  simp only
  rw [addU_ok (by omega), Res.lift_ok, Res.ok_bind]
  by_cases hlt : prev + d < num
  · rw [if_neg (by omega)]
    exact ⟨hlt, hc'⟩
  · rw [if_pos (by omega), subU_ok (by omega), Res.lift_ok, Res.ok_bind]
    exact ⟨by simp only; omega, hc'⟩

theorem selector_safe {dm : DataModel} {num : Nat} (h : IndexOk dm num) {c : Codec} (hc : St c [])
    (msg : String) : Safe (fun r => r.1 < num ∧ St r.2 []) (selector msg dm c) := by
  obtain ⟨hn, code, ht, hu, hb⟩ := h
  exact Safe.mono (Safe.orErr _ (decode_safe ht hu hc)) (fun r h => ⟨hb _ h.1, h.2⟩)

/-! ## Formats with one colour per block -/

/-- What holds of the state between any two steps. -/
structure UInv (Good : Idx → Prop) (n len : Nat) (st : UState) : Prop where
  codec : St st.codec []
  cur : Good st.cur
  diag : Good st.diag
  size : st.buffer.length = n
  buf : ∀ e ∈ st.buffer, Good e.idx ∧ e.ref < 16
  dst : st.dst.length = len

/-- What is particular of a format never panics. -/
structure KindSafe (kind : Kind) (Good : Idx → Prop) (SGood : Nat × Nat → Prop) : Prop where
  zero : Good {}
  u16 : ∀ i, Good i → i.u16 = i
  fresh : ∀ i c, Good i → St c [] → Safe (fun r => Good r.1 ∧ St r.2 []) (kind.fresh i c)
  select : ∀ c, St c [] → Safe (fun r => SGood r.1 ∧ St r.2 []) (kind.select c)

/-- What a format writes. -/
def WriteSafe (kind : Kind) (Good : Idx → Prop) (SGood : Nat × Nat → Prop) (words : Nat) : Prop :=
  ∀ i t pd dst, Good i → SGood t → 4 * pd + 4 * words ≤ dst.length → dst.length < 2 ^ 32 →
    ∃ l, kind.write i t pd dst = .ok l ∧ l.length = dst.length

omit [Build] in
theorem UInv.set {Good : Idx → Prop} {n len : Nat} {st : UState} (h : UInv Good n len st) {x : Nat}
    {e : BufElem} (he : Good e.idx ∧ e.ref < 16) :
    (st.buffer.set x e).length = n ∧ ∀ a ∈ st.buffer.set x e, Good a.idx ∧ a.ref < 16 := by
  refine ⟨by rw [List.length_set]; exact h.size, fun a ha => ?_⟩
  rcases List.mem_or_eq_of_mem_set ha with h1 | h1
  · exact h.buf a h1
  · rw [h1]; exact he

omit [Build] in
theorem UInv.get {Good : Idx → Prop} {n len : Nat} {st : UState} (h : UInv Good n len st) {x : Nat}
    (hx : x < n) : ∃ e, st.buffer[x]? = some e ∧ Good e.idx ∧ e.ref < 16 := by
  have hx' : x < st.buffer.length := by rw [h.size]; exact hx
  exact ⟨_, List.getElem?_eq_getElem hx', h.buf _ (List.getElem_mem hx')⟩

omit [Build] in
theorem and3_lt (a : Nat) : a &&& 3 < 4 := by
  rw [show (3 : Nat) = 2 ^ 2 - 1 from rfl, Nat.and_two_pow_sub_one_eq_mod]; omega

theorem reference_safe {Good : Idx → Prop} {n len : Nat} {code : List Nat} {dm : DataModel}
    (hm : TablesOk code dm) (hu : UsedCode code) {st : UState} (h : UInv Good n len st) {x : Nat}
    (hx : x < n) (y : Nat) (msg : String) :
    Safe (fun r => UInv Good n len r.2 ∧ r.2.pos = st.pos) (reference msg dm y x st) := by
  obtain ⟨e, he, hg, hr⟩ := h.get hx
  have hx' : x < st.buffer.length := by rw [h.size]; exact hx
  unfold reference
  refine Safe.bind (Q := fun r : Nat × Codec => St r.2 []) ?_ ?_
  · split
    · refine Safe.bind (Safe.orErr _ (decode_safe hm hu h.codec)) ?_
      rintro ⟨s, k⟩ ⟨_, hk⟩
      exact hk
    · exact h.codec
  · rintro ⟨g, k⟩ hk
    simp only at hk ⊢
    rw [idx_of_some he, Res.lift_ok, Res.ok_bind]
    split
    · exact ⟨⟨hk, h.cur, h.diag, h.size, h.buf, h.dst⟩, rfl⟩
    · rw [setIdx_ok hx', Res.lift_ok, Res.ok_bind]
      have hs := h.set (x := x) (e := { e with ref := (g >>> 2) &&& 3 })
        ⟨hg, Nat.lt_trans (and3_lt _) (by omega)⟩
      exact ⟨⟨hk, h.cur, h.diag, hs.1, hs.2, h.dst⟩, rfl⟩

theorem endpoints_safe {Good : Idx → Prop} {SGood : Nat × Nat → Prop} {n len : Nat} {kind : Kind}
    (hk : KindSafe kind Good SGood) {st : UState} (h : UInv Good n len st) {x : Nat}
    (hx : x < n) (ref : Nat) :
    Safe (fun st' => UInv Good n len st' ∧ st'.pos = st.pos) (endpoints kind x ref st) := by
  obtain ⟨e, he, hg, hr⟩ := h.get hx
  have hx' : x < st.buffer.length := by rw [h.size]; exact hx
  unfold endpoints
  rw [idx_of_some he, Res.lift_ok, Res.ok_bind]
  split
  · refine Safe.bind (hk.fresh _ _ h.cur h.codec) ?_
    rintro ⟨i, k⟩ ⟨hi, hk'⟩
    simp only at hi hk' ⊢
    rw [setIdx_ok hx', Res.lift_ok, Res.ok_bind]
    have hs := h.set (x := x) (e := { e with idx := i.u16 }) ⟨by rw [hk.u16 i hi]; exact hi, hr⟩
    exact ⟨⟨hk', hi, h.diag, hs.1, hs.2, h.dst⟩, rfl⟩
  · split
    · rw [setIdx_ok hx', Res.lift_ok, Res.ok_bind]
      have hs := h.set (x := x) (e := { e with idx := st.cur.u16 })
        ⟨by rw [hk.u16 _ h.cur]; exact h.cur, hr⟩
      exact ⟨⟨h.codec, h.cur, h.diag, hs.1, hs.2, h.dst⟩, rfl⟩
    · exact ⟨⟨h.codec, hg, h.diag, h.size, h.buf, h.dst⟩, rfl⟩

/-- What a step does. -/
def StepSafe (Good : Idx → Prop) (n len w words nx ny : Nat)
    (step : Nat → Nat → UState → Res UState) : Prop :=
  ∀ y x st, UInv Good n len st → x < w → st.pos < 2 ^ 32 →
    (y < ny ∧ x < nx → 4 * st.pos + 4 * words ≤ len) →
    Safe (fun st' => UInv Good n len st' ∧ st'.pos = st.pos + words) (step y x st)

theorem block_safe {Good : Idx → Prop} {SGood : Nat × Nat → Prop} {w len words nx ny : Nat} {kind : Kind}
    (hk : KindSafe kind Good SGood) (hw : WriteSafe kind Good SGood words)
    {code : List Nat} {dm : DataModel} (hm : TablesOk code dm) (hu : UsedCode code)
    (hwords : words ≤ 4) (hlen : len < 2 ^ 32) :
    StepSafe Good w len w words nx ny (Model.Crn.Unity.block kind dm words nx ny) := by
  intro y x st h hx hpos hroom
  unfold Model.Crn.Unity.block
  refine Safe.bind (reference_safe hm hu h hx y _) ?_
  rintro ⟨ref, st1⟩ ⟨h1, p1⟩
  simp only at h1 p1 ⊢
  refine Safe.bind (endpoints_safe hk h1 hx ref) ?_
  rintro st2 ⟨h2, p2⟩
  refine Safe.bind (hk.select _ h2.codec) ?_
  rintro ⟨t, k⟩ ⟨ht, hk'⟩
  simp only at ht hk' ⊢
  have hpp : st2.pos = st.pos := by rw [p2, p1]
  obtain ⟨l, e, hl⟩ : ∃ l, (if y < ny ∧ x < nx then kind.write st2.cur t st2.pos st2.dst
      else pure st2.dst : Out (List UInt8)) = .ok l ∧ l.length = len := by
    split
    · next hv =>
      obtain ⟨l, e, hl⟩ := hw st2.cur t st2.pos st2.dst h2.cur ht
        (by rw [hpp, h2.dst]; exact hroom hv) (by rw [h2.dst]; exact hlen)
      exact ⟨l, e, hl.trans h2.dst⟩
    · exact ⟨_, rfl, h2.dst⟩
  rw [e, Res.lift_ok, Res.ok_bind, addU_ok (by omega), Res.lift_ok, Res.ok_bind]
  exact ⟨⟨hk', h2.cur, h2.diag, h2.size, h2.buf, hl⟩, by simp only; rw [hpp]⟩

/-! ## Formats with two colours per block -/

theorem etcReference_safe {Good : Idx → Prop} {w len : Nat} {code : List Nat} {dm : DataModel}
    (hm : TablesOk code dm) (hu : UsedCode code) {st : UState} (h : UInv Good (2 * w) len st) {x : Nat}
    (hx : x < w) (y : Nat) (msg : String) :
    Safe (fun r => r.1 < 16 ∧ UInv Good (2 * w) len r.2 ∧ r.2.pos = st.pos)
      (etcReference msg dm y x st) := by
  obtain ⟨e, he, hg, hr⟩ := h.get (x := 2 * x) (by omega)
  have hx' : 2 * x < st.buffer.length := by rw [h.size]; omega
  have h12 : ∀ a, a &&& 12 < 2 ^ 4 := fun a => Nat.and_lt_two_pow _ (by omega)
  have h3 : ∀ a, a &&& 3 < 2 ^ 4 := fun a => Nat.and_lt_two_pow _ (by omega)
  unfold etcReference
  rw [idx_of_some he, Res.lift_ok, Res.ok_bind]
  split
  · refine ⟨?_, h, rfl⟩
    simp only [asU]
    omega
  · refine Safe.bind (Safe.orErr _ (decode_safe hm hu h.codec)) ?_
    rintro ⟨s, k⟩ ⟨_, hk⟩
    simp only at hk ⊢
    rw [setIdx_ok hx', Res.lift_ok, Res.ok_bind]
    have hs := h.set (x := 2 * x) (e := { e with ref := ((asU 8 s >>> 2) &&& 3) ||| ((asU 8 s >>> 4) &&& 12) })
      ⟨hg, Nat.or_lt_two_pow (n := 4) (h3 _) (h12 _)⟩
    exact ⟨Nat.or_lt_two_pow (n := 4) (h3 _) (h12 _), ⟨hk, h.cur, h.diag, hs.1, hs.2, h.dst⟩, rfl⟩

theorem etcEndpoints_safe {Good : Idx → Prop} {SGood : Nat × Nat → Prop} {w len : Nat} {kind : Kind}
    (hk : KindSafe kind Good SGood) {st : UState} (h : UInv Good (2 * w) len st) {x : Nat}
    (hx : x < w) (ref : Nat) :
    Safe (fun st' => UInv Good (2 * w) len st' ∧ st'.pos = st.pos) (etcEndpoints kind x ref st) := by
  obtain ⟨e, he, hg, hr⟩ := h.get (x := 2 * x) (by omega)
  have hx' : 2 * x < st.buffer.length := by rw [h.size]; omega
  unfold etcEndpoints
  rw [idx_of_some he, Res.lift_ok, Res.ok_bind]
  split
  · refine Safe.bind (hk.fresh _ _ h.cur h.codec) ?_
    rintro ⟨i, k⟩ ⟨hi, hk'⟩
    simp only at hi hk' ⊢
    rw [setIdx_ok hx', Res.lift_ok, Res.ok_bind]
    have hs := h.set (x := 2 * x) (e := { e with idx := i.u16 }) ⟨by rw [hk.u16 i hi]; exact hi, hr⟩
    exact ⟨⟨hk', hi, h.diag, hs.1, hs.2, h.dst⟩, rfl⟩
  · split
    · rw [setIdx_ok hx', Res.lift_ok, Res.ok_bind]
      have hs := h.set (x := 2 * x) (e := { e with idx := st.cur.u16 })
        ⟨by rw [hk.u16 _ h.cur]; exact h.cur, hr⟩
      exact ⟨⟨h.codec, h.cur, h.diag, hs.1, hs.2, h.dst⟩, rfl⟩
    · split
      · rw [setIdx_ok hx', Res.lift_ok, Res.ok_bind]
        have hs := h.set (x := 2 * x) (e := { e with idx := st.diag.u16 })
          ⟨by rw [hk.u16 _ h.diag]; exact h.diag, hr⟩
        exact ⟨⟨h.codec, h.diag, h.diag, hs.1, hs.2, h.dst⟩, rfl⟩
      · exact ⟨⟨h.codec, hg, h.diag, h.size, h.buf, h.dst⟩, rfl⟩

/-- What a format with two colours writes. -/
def EtcWriteSafe (u : Unpacker) (write : EtcWrite) (Good : Idx → Prop) (SGood : Nat × Nat → Prop)
    (words : Nat) : Prop :=
  ∀ i t pd dst second flip, Good i → SGood t → second < u.colorEndpoints.length → flip < 2 →
    4 * pd + 4 * words ≤ dst.length → dst.length < 2 ^ 32 →
    ∃ l, write (leBytes4 (u.colorEndpoints.getD i.c 0)) (leBytes4 (u.colorEndpoints.getD second 0)) i.a0
        flip t pd dst = .ok l ∧ l.length = dst.length

theorem etcBlock_safe {Good : Idx → Prop} {SGood : Nat × Nat → Prop} {w len words nx ny : Nat} {kind : Kind}
    {u : Unpacker} {write : EtcWrite}
    (hk : KindSafe kind Good SGood) (hw : EtcWriteSafe u write Good SGood words)
    (hin : ∀ i, Good i → i.c < u.colorEndpoints.length)
    (hsec : ∀ i v, Good i → v < u.colorEndpoints.length → Good { i with c := v })
    {code : List Nat} (hm : TablesOk code u.tables.encoding) (hu : UsedCode code)
    (hi : IndexOk u.tables.endpoint0 u.colorEndpoints.length)
    (hwords : words ≤ 4) (hlen : len < 2 ^ 32) :
    StepSafe Good (2 * w) len w words nx ny (Model.Crn.Unity.etcBlock u kind write words nx ny) := by
  intro y x st h hx hpos hroom
  unfold Model.Crn.Unity.etcBlock
  refine Safe.bind (etcReference_safe hm hu h hx y _) ?_
  rintro ⟨ref, st1⟩ ⟨hr, h1, p1⟩
  simp only at hr h1 p1 ⊢
  refine Safe.bind (etcEndpoints_safe hk h1 hx ref) ?_
  rintro st2 ⟨h2, p2⟩
  have hc2 := hin _ h2.cur
  rw [idx_of_some (getElem?_getD hc2), Res.lift_ok, Res.ok_bind]
  refine Safe.bind (hk.select _ h2.codec) ?_
  rintro ⟨t, k⟩ ⟨ht, hk'⟩
  simp only at ht hk' ⊢
  have hpp : st2.pos = st.pos := by rw [p2, p1]
  refine Safe.bind (Q := fun r : Nat × Codec => r.1 < u.colorEndpoints.length ∧ St r.2 []) ?_ ?_
  · split
    · exact nextEndpoint_safe hi hc2 hk' _
    · exact ⟨hc2, hk'⟩
  rintro ⟨c, k'⟩ ⟨hc, hk''⟩
  simp only at hc hk'' ⊢
  have hg := hsec _ c h2.cur hc
  obtain ⟨e, he, hge, hre⟩ := h2.get (x := 2 * x + 1) (by omega)
  have hx' : 2 * x + 1 < st2.buffer.length := by rw [h2.size]; omega
  have hflip : ((ref >>> 2) >>> 1) ^^^ 1 < 2 := by
    refine Nat.xor_lt_two_pow (n := 1) ?_ (by omega)
    rw [← Nat.shiftRight_add, Nat.shiftRight_eq_div_pow]
    omega
  rw [idx_of_some he, Res.lift_ok, Res.ok_bind, setIdx_ok hx', Res.lift_ok, Res.ok_bind,
    idx_of_some (getElem?_getD hc), Res.lift_ok, Res.ok_bind]
  generalize ((ref >>> 2) >>> 1) ^^^ 1 = flip at hflip
  obtain ⟨l, e', hl⟩ : ∃ l, (if y < ny ∧ x < nx then
      write (leBytes4 (u.colorEndpoints.getD st2.cur.c 0)) (leBytes4 (u.colorEndpoints.getD c 0)) st2.cur.a0
        flip t st2.pos st2.dst
      else pure st2.dst : Out (List UInt8)) = .ok l ∧ l.length = len := by
    split
    · next hv =>
      obtain ⟨l, e, hl⟩ := hw st2.cur t st2.pos st2.dst c flip h2.cur ht hc hflip
        (by rw [hpp, h2.dst]; exact hroom hv) (by rw [h2.dst]; exact hlen)
      exact ⟨l, e, hl.trans h2.dst⟩
    · exact ⟨_, rfl, h2.dst⟩
  rw [e', Res.lift_ok, Res.ok_bind, addU_ok (by omega), Res.lift_ok, Res.ok_bind]
  have hs := h2.set (x := 2 * x + 1) (e := { e with idx := Idx.u16 { st2.cur with c := c } })
    ⟨by rw [hk.u16 _ hg]; exact hg, hre⟩
  exact ⟨⟨hk'', hg, hge, hs.1, hs.2, hl⟩, by simp only; rw [hpp]⟩

/-! ## The loops -/

theorem loop_safe {Good : Idx → Prop} {faces nx ny w h words bufW : Nat}
    {step : Nat → Nat → UState → Res UState} (g : Grid faces nx ny w h)
    (hwords : words = 2 ∨ words = 4) (hbig : 4 * words * (faces * ny * nx + 2 * nx + 4) < 2 ^ 31)
    (hbufW : bufW = 1 ∨ bufW = 2)
    (hodd : Build.overflowChecks = false ∨ nx % 2 = 0)
    (ok : StepSafe Good (bufW * w) (4 * words * (faces * ny * nx)) w words nx ny step)
    (h0 : Good {}) {c : Codec} (hc : St c []) :
    Safe (fun st => st.dst.length = 4 * words * (faces * ny * nx))
      (loop bufW words faces (4 * words * nx) nx ny step c
        (List.replicate (4 * words * (faces * ny * nx)) 0)) := by
  have hnx := g.nxLt
  have hny := g.nyLt
  have hw : (nx + 1) &&& 0xFFFFFFFE = w := by
    rw [even_and (by omega), g.width]; rfl
  have hh : (ny + 1) &&& 0xFFFFFFFE = h := by
    rw [even_and (by omega), g.height]; rfl
  have hww : w = (nx + 1) / 2 * 2 := g.width
  have hnw : nx ≤ w ∧ w ≤ nx + 1 := by omega
  have hsh : shlU 32 w (words / 2) = .ok (words * w) := by
    rcases hwords with rfl | rfl
    · rw [shlU_ok (by omega), Nat.shiftLeft_eq, Nat.mod_eq_of_lt (by omega), Nat.mul_comm]
    · rw [shlU_ok (by omega), Nat.shiftLeft_eq, Nat.mod_eq_of_lt (by omega), Nat.mul_comm]
  have hpitch : (4 * words * nx) >>> 2 = words * nx := by
    rw [Nat.shiftRight_eq_div_pow, Nat.mul_assoc]
    exact Nat.mul_div_cancel_left _ (by omega)
  have hbufn : shlU 32 w (bufW - 1) = .ok (bufW * w) := by
    rcases hbufW with rfl | rfl
    · rw [shlU_ok (by omega), Nat.shiftLeft_eq, Nat.mod_eq_of_lt (by omega)]; simp
    · rw [shlU_ok (by omega), Nat.shiftLeft_eq, Nat.mod_eq_of_lt (by omega)]
      simp [Nat.mul_comm]
  -- the step from the end of a row to the next row
  obtain ⟨delta, hdelta, hnext⟩ : ∃ delta, subU 32 (words * nx) (words * w) = .ok delta ∧
      ∀ r, r ≤ faces * h → addU 64 (words * (r * nx + w)) (asUI 64 (asI 32 delta))
        = .ok (words * (r * nx + nx)) := by
    by_cases he : nx % 2 = 0
    · obtain rfl : w = nx := by omega
      refine ⟨0, ?_, fun r hr => ?_⟩
      · rw [subU_ok (Nat.le_refl _), Nat.sub_self]
      · have hT : faces * h * w ≤ faces * ny * w + w := by
          rcases Nat.eq_zero_or_pos faces with rfl | hf
          · simp
          · rcases Nat.eq_zero_or_pos h with rfl | hp
            · simp
            · exact (g.row (f := 0) (y := 0) hf hp).2.2
        have hrw : r * w ≤ faces * h * w := Nat.mul_le_mul_right _ hr
        generalize faces * h * w = A at hrw hT
        generalize faces * ny * w = T at hbig hT
        generalize r * w = q at hrw
        rw [show asUI 64 (asI 32 0) = 0 from rfl,
          addU_ok (by rcases hwords with rfl | rfl <;> omega), Nat.add_zero]
    · have hck : Build.overflowChecks = false := by
        rcases hodd with h | h
        · exact h
        · exact absurd h he
      obtain rfl : w = nx + 1 := by omega
      refine ⟨2 ^ 32 - words, ?_, fun r hr => ?_⟩
      · unfold subU
        rw [if_neg (by rcases hwords with rfl | rfl <;> omega), hck]
        rcases hwords with rfl | rfl
        · simp; omega
        · simp; omega
      · have hT : faces * h * nx ≤ faces * ny * nx + nx := by
          rcases Nat.eq_zero_or_pos faces with rfl | hf
          · simp
          · rcases Nat.eq_zero_or_pos h with rfl | hp
            · simp
            · exact (g.row (f := 0) (y := 0) hf hp).2.2
        have hrw : r * nx ≤ faces * h * nx := Nat.mul_le_mul_right _ hr
        generalize faces * h * nx = A at hrw hT
        generalize faces * ny * nx = T at hbig hT
        generalize r * nx = q at hrw
        have hd : asUI 64 (asI 32 (2 ^ 32 - words)) = 2 ^ 64 - words := by
          rcases hwords with rfl | rfl <;> decide
        unfold addU fitU
        rw [hd, if_neg (by rcases hwords with rfl | rfl <;> omega), hck, if_neg (by simp)]
        refine congrArg Out.ok ?_
        rcases hwords with rfl | rfl <;> omega
  unfold loop
  rw [addU_ok (by omega), Res.lift_ok, Res.ok_bind, addU_ok (by omega), Res.lift_ok, Res.ok_bind]
  simp only [hw, hh]
  rw [hsh, Res.lift_ok, Res.ok_bind, hpitch, hdelta, Res.lift_ok, Res.ok_bind, hbufn, Res.lift_ok,
    Res.ok_bind]
  generalize hT : faces * ny * nx = T at *
  refine Safe.mono (Safe.forRange (fun f (st : UState) => UInv Good (bufW * w) (4 * words * T) st ∧
    st.pos = words * (f * h * nx)) ⟨⟨hc, h0, h0, by simp, ?_, by simp⟩, by simp⟩ ?_)
    (fun st h => h.1.dst)
  · intro e he
    rw [List.eq_of_mem_replicate he]
    exact ⟨h0, by decide⟩
  intro f hf st hst
  refine Safe.mono (Safe.forRange (fun y (st : UState) => UInv Good (bufW * w) (4 * words * T) st ∧
    st.pos = words * ((f * h + y) * nx)) hst ?_)
    (fun st h' => by rw [Nat.succ_mul f h]; exact h')
  intro y hy st hst
  obtain ⟨hrow, _, hrows⟩ := g.row hf hy
  rw [hT] at hrows
  have hR : (f * h + y) * nx + nx ≤ faces * h * nx := by
    rw [← Nat.succ_mul]
    exact Nat.mul_le_mul_right _ (flat_lt hf hy)
  have hr := Nat.le_of_lt (flat_lt hf hy)
  have hvis : ∀ x, y < ny ∧ x < nx → (f * h + y) * nx + x < T := by
    rintro x ⟨h1, h2⟩
    rw [← hT]
    exact flat_lt (hrow.mp h1) h2
  have hnx' := hnext _ hr
  have hsucc : (f * h + (y + 1)) * nx = (f * h + y) * nx + nx := by
    rw [← Nat.add_assoc, Nat.succ_mul]
  rw [hsucc]
  generalize (f * h + y) * nx = Rn at *
  refine Safe.bind (Safe.forRange (fun x (st : UState) => UInv Good (bufW * w) (4 * words * T) st ∧
    st.pos = words * (Rn + x)) hst ?_) ?_
  · intro x hx st hst
    obtain ⟨hi, hp⟩ := hst
    refine Safe.mono (ok y x st hi hx (by rw [hp]; rcases hwords with rfl | rfl <;> omega) (fun hv => ?_))
      (fun st' h' => ⟨h'.1, ?_⟩)
    · have := hvis x hv
      rw [hp]
      rcases hwords with rfl | rfl <;> omega
    · rw [h'.2, hp]
      rcases hwords with rfl | rfl <;> omega
  · intro st' h'
    have hi := h'.1
    have hp := h'.2
    rw [hp, hnx', Res.lift_ok, Res.ok_bind]
    exact ⟨⟨hi.codec, hi.cur, hi.diag, hi.size, hi.buf, hi.dst⟩, rfl⟩

/-! ## The kinds of blocks -/

omit [Build] in
theorem indexOk_of {code : List Nat} {dm : DataModel} {num n : Nat} (hlt : n < 2 ^ 16)
    (ht : 0 < n → TablesOk code dm) (hu : UsedCode code) (hb : SymbolsBelow num code) (hn : num = n) :
    IndexOk dm n := by
  subst hn
  exact ⟨hlt, code, ht (below_pos hu hb), hu, hb⟩

omit [Build] in
theorem colourIndices {p : Plane} {dmE dmS : DataModel} {E S : List Nat} (h : ColourOk p dmE dmS E S)
    (hc : p.indices.Closed) : IndexOk dmE E.length ∧ IndexOk dmS S.length :=
  ⟨indexOk_of h.endsLt h.endTables hc.endpointUsed hc.endpointBelow (by simp [Plane.indices, h.ends]),
   indexOk_of h.selsLt h.selTables hc.selectorUsed hc.selectorBelow (by simp [Plane.indices, h.sels])⟩

omit [Build] in
theorem alphaIndices {p : Plane} {dmE dmS : DataModel} {E A V : List Nat} (h : AlphaOk p dmE dmS E A V)
    (hc : p.indices.Closed) : IndexOk dmE E.length ∧ IndexOk dmS V.length :=
  ⟨indexOk_of h.endsLt h.endTables hc.endpointUsed hc.endpointBelow (by simp [Plane.indices, h.ends]),
   indexOk_of h.selsLt h.selTables hc.selectorUsed hc.selectorBelow (by simp [Plane.indices, h.sels])⟩

omit [Build] in
theorem KindOk.writeSafe {buf : List UInt8} {last : Nat} {kind : Kind} {planes : List Indices}
    {view : Idx → List Nat} {sview : Nat × Nat → List Nat} {Good : Idx → Prop}
    {SGood : Nat × Nat → Prop} {words : Nat} {bytes : List Nat → List Nat → List UInt8}
    (h : KindOk buf last kind planes view sview Good SGood words bytes) :
    WriteSafe kind Good SGood words := fun i t pd dst hi ht hd hl => by
  obtain ⟨e, hb⟩ := h.write i t pd dst hi ht hd hl
  exact ⟨_, e, put_length (by omega)⟩

theorem EtcKindOk.writeSafe {buf : List UInt8} {last : Nat} {u : Unpacker} {kind : Kind}
    {write : EtcWrite} {colour : Indices} {others : List Indices} {view : Idx → List Nat}
    {sview : Nat × Nat → List Nat} {Good : Idx → Prop} {SGood : Nat × Nat → Prop} {words : Nat}
    {bytes : EtcBlock → List UInt8}
    (h : EtcKindOk buf last u kind write colour others view sview Good SGood words bytes) :
    EtcWriteSafe u write Good SGood words := fun i t pd dst second flip hi ht hs hf hd hl => by
  obtain ⟨e, hb⟩ := h.write i t pd dst { endpoint := view i, second, flip, selector := sview t }
    hi ht hs rfl rfl hf hd hl
  exact ⟨_, e, put_length (by omega)⟩

theorem dxt1Kind_safe {u : Unpacker} {colour : Plane} {E S : List Nat}
    (hc : ColourOk colour u.tables.endpoint0 u.tables.selector0 E S) (hE : u.colorEndpoints = E)
    (hS : u.colorSelectors = S) (hcl : colour.indices.Closed) :
    KindSafe (dxt1Kind u) (fun i => Inside E.length i.c ∧ i.a0 = 0 ∧ i.a1 = 0)
      (fun t => t.1 < S.length) := by
  have hk := dxt1Kind_ok (buf := []) (last := 0) hc hE hS
  obtain ⟨h1, h2⟩ := colourIndices hc hcl
  refine ⟨hk.zero.1, hk.u16, fun i c hi hc => ?_, fun c hc => ?_⟩
  · unfold dxt1Kind
    simp only [hE]
    refine Safe.bind (nextEndpoint_safe h1 (hi.1.lt h1.pos) hc _) ?_
    rintro ⟨v, k⟩ ⟨hv, hk⟩
    exact ⟨⟨Or.inr hv, hi.2⟩, hk⟩
  · unfold dxt1Kind
    refine Safe.bind (selector_safe h2 hc _) ?_
    rintro ⟨v, k⟩ ⟨hv, hk⟩
    exact ⟨hv, hk⟩

theorem dxt5Kind_safe {u : Unpacker} {colour alpha : Plane} {E S E' V : List Nat}
    (hc : ColourOk colour u.tables.endpoint0 u.tables.selector0 E S) (hE : u.colorEndpoints = E)
    (hS : u.colorSelectors = S)
    (ha : AlphaOk alpha u.tables.endpoint1 u.tables.selector1 E' u.alphaSelectors V)
    (hE' : u.alphaEndpoints = E') (hcl : colour.indices.Closed) (hal : alpha.indices.Closed) :
    KindSafe (dxt5Kind u) (fun i => Inside E.length i.c ∧ Inside E'.length i.a0 ∧ i.a1 = 0)
      (fun t => t.1 < S.length ∧ t.2 < V.length) := by
  have hk := dxt5Kind_ok (buf := []) (last := 0) hc hE hS ha hE'
  obtain ⟨h1, h2⟩ := colourIndices hc hcl
  obtain ⟨h3, h4⟩ := alphaIndices ha hal
  refine ⟨hk.zero.1, hk.u16, fun i c hi hc => ?_, fun c hc => ?_⟩
  · unfold dxt5Kind
    simp only [hE, hE']
    refine Safe.bind (nextEndpoint_safe h1 (hi.1.lt h1.pos) hc _) ?_
    rintro ⟨v, k⟩ ⟨hv, hk⟩
    refine Safe.bind (nextEndpoint_safe h3 (hi.2.1.lt h3.pos) hk _) ?_
    rintro ⟨v', k'⟩ ⟨hv', hk'⟩
    exact ⟨⟨Or.inr hv, Or.inr hv', hi.2.2⟩, hk'⟩
  · unfold dxt5Kind
    refine Safe.bind (selector_safe h2 hc _) ?_
    rintro ⟨v, k⟩ ⟨hv, hk⟩
    refine Safe.bind (selector_safe h4 hk _) ?_
    rintro ⟨v', k'⟩ ⟨hv', hk'⟩
    exact ⟨⟨hv, hv'⟩, hk'⟩

theorem dxt5aKind_safe {u : Unpacker} {alpha : Plane} {E' V : List Nat}
    (ha : AlphaOk alpha u.tables.endpoint1 u.tables.selector1 E' u.alphaSelectors V)
    (hE' : u.alphaEndpoints = E') (hal : alpha.indices.Closed) :
    KindSafe (dxt5aKind u) (fun i => i.c = 0 ∧ Inside E'.length i.a0 ∧ i.a1 = 0)
      (fun t => t.1 < V.length) := by
  have hk := dxt5aKind_ok (buf := []) (last := 0) ha hE'
  obtain ⟨h3, h4⟩ := alphaIndices ha hal
  refine ⟨hk.zero.1, hk.u16, fun i c hi hc => ?_, fun c hc => ?_⟩
  · unfold dxt5aKind
    simp only [hE']
    refine Safe.bind (nextEndpoint_safe h3 (hi.2.1.lt h3.pos) hc _) ?_
    rintro ⟨v', k'⟩ ⟨hv', hk'⟩
    exact ⟨⟨hi.1, Or.inr hv', hi.2.2⟩, hk'⟩
  · unfold dxt5aKind
    refine Safe.bind (selector_safe h4 hc _) ?_
    rintro ⟨v', k'⟩ ⟨hv', hk'⟩
    exact ⟨hv', hk'⟩

theorem dxnKind_safe {u : Unpacker} {alpha : Plane} {E' V : List Nat}
    (ha : AlphaOk alpha u.tables.endpoint1 u.tables.selector1 E' u.alphaSelectors V)
    (hE' : u.alphaEndpoints = E') (hal : alpha.indices.Closed) :
    KindSafe (dxnKind u) (fun i => i.c = 0 ∧ Inside E'.length i.a0 ∧ Inside E'.length i.a1)
      (fun t => t.1 < V.length ∧ t.2 < V.length) := by
  have hk := dxnKind_ok (buf := []) (last := 0) ha hE'
  obtain ⟨h3, h4⟩ := alphaIndices ha hal
  refine ⟨hk.zero.1, hk.u16, fun i c hi hc => ?_, fun c hc => ?_⟩
  · unfold dxnKind
    simp only [hE']
    refine Safe.bind (nextEndpoint_safe h3 (hi.2.1.lt h3.pos) hc _) ?_
    rintro ⟨v, k⟩ ⟨hv, hk⟩
    refine Safe.bind (nextEndpoint_safe h3 (hi.2.2.lt h3.pos) hk _) ?_
    rintro ⟨v', k'⟩ ⟨hv', hk'⟩
    exact ⟨⟨hi.1, Or.inr hv, Or.inr hv'⟩, hk'⟩
  · unfold dxnKind
    refine Safe.bind (selector_safe h4 hc _) ?_
    rintro ⟨v, k⟩ ⟨hv, hk⟩
    refine Safe.bind (selector_safe h4 hk _) ?_
    rintro ⟨v', k'⟩ ⟨hv', hk'⟩
    exact ⟨⟨hv, hv'⟩, hk'⟩

theorem etc1Kind_safe {u : Unpacker} {n m : Nat} (h1 : IndexOk u.tables.endpoint0 n)
    (hn : u.colorEndpoints.length = n) (h2 : IndexOk u.tables.selector0 m) :
    KindSafe (etc1Kind u) (fun i => i.c < n ∧ i.a0 = 0 ∧ i.a1 = 0) (fun t => t.1 < m) := by
  refine ⟨⟨h1.pos, rfl, rfl⟩, ?_, fun i c hi hc => ?_, fun c hc => ?_⟩
  · rintro ⟨c, a0, a1⟩ ⟨h, rfl, rfl⟩
    have hlt := h1.lt
    simp only at h
    unfold Idx.u16
    simp only [asU]
    rw [Nat.mod_eq_of_lt (show c < 2 ^ 16 by omega)]
  · unfold etc1Kind
    simp only [hn]
    refine Safe.bind (nextEndpoint_safe h1 hi.1 hc _) ?_
    rintro ⟨v, k⟩ ⟨hv, hk⟩
    exact ⟨⟨hv, hi.2⟩, hk⟩
  · unfold etc1Kind
    refine Safe.bind (selector_safe h2 hc _) ?_
    rintro ⟨v, k⟩ ⟨hv, hk⟩
    exact ⟨hv, hk⟩

theorem etc2aKind_safe {u : Unpacker} {n m n' m' : Nat} (h1 : IndexOk u.tables.endpoint0 n)
    (hn : u.colorEndpoints.length = n) (h2 : IndexOk u.tables.selector0 m)
    (h3 : IndexOk u.tables.endpoint1 n') (hn' : u.alphaEndpoints.length = n')
    (h4 : IndexOk u.tables.selector1 m') :
    KindSafe (etc2aKind u) (fun i => i.c < n ∧ i.a0 < n' ∧ i.a1 = 0)
      (fun t => t.1 < m ∧ t.2 < m') := by
  refine ⟨⟨h1.pos, h3.pos, rfl⟩, ?_, fun i c hi hc => ?_, fun c hc => ?_⟩
  · rintro ⟨c, a0, a1⟩ ⟨h, h', rfl⟩
    have hlt := h1.lt
    have hlt' := h3.lt
    simp only at h h'
    unfold Idx.u16
    simp only [asU]
    rw [Nat.mod_eq_of_lt (show c < 2 ^ 16 by omega), Nat.mod_eq_of_lt (show a0 < 2 ^ 16 by omega)]
  · unfold etc2aKind
    simp only [hn, hn']
    refine Safe.bind (nextEndpoint_safe h1 hi.1 hc _) ?_
    rintro ⟨v, k⟩ ⟨hv, hk⟩
    refine Safe.bind (nextEndpoint_safe h3 hi.2.1 hk _) ?_
    rintro ⟨v', k'⟩ ⟨hv', hk'⟩
    exact ⟨⟨hv, hv', hi.2.2⟩, hk'⟩
  · unfold etc2aKind
    refine Safe.bind (selector_safe h2 hc _) ?_
    rintro ⟨v, k⟩ ⟨hv, hk⟩
    refine Safe.bind (selector_safe h4 hk _) ?_
    rintro ⟨v', k'⟩ ⟨hv', hk'⟩
    exact ⟨⟨hv, hv'⟩, hk'⟩

/-! ## Files -/

/-- A file is opened, and its level is unpacked without a panic whatever its data are. -/
def OpenedSafe (file : List UInt8) : Prop :=
  ∃ u, Model.Crn.Unity.init file file.length = .ok u ∧ u.data = file ∧ u.dataSize = file.length ∧
    u.header = specHeader file ∧ Known (format file) ∧
    ((Build.overflowChecks = false ∨ blocksX file % 2 = 0) → ∀ c, St c [] →
      Safe (fun st => st.dst.length = 4 * wordsOf (format file) * (faces file * blocksY file * blocksX file))
        (Model.Crn.Unity.unpackFormat u (4 * wordsOf (format file) * blocksX file)
          (blocksX file) (blocksY file) c
          (List.replicate (4 * wordsOf (format file) * (faces file * blocksY file * blocksX file)) 0)))

omit [Build] in
theorem len_of_file {file : List UInt8} (hl : Limits file) {words : Nat}
    (hw : words = 2 ∨ words = 4) :
    4 * words * (faces file * blocksY file * blocksX file) < 2 ^ 32 := by
  have h2 := hl.big
  rcases hw with rfl | rfl <;> omega

theorem wholeLoop_safe {file : List UInt8} (hl : Limits file) {words : Nat}
    (hwords : words = 2 ∨ words = 4)
    (hodd : Build.overflowChecks = false ∨ blocksX file % 2 = 0)
    {code : List Nat} {dm : DataModel} (hm : TablesOk code dm) (hu : UsedCode code)
    {kind : Kind} {Good : Idx → Prop} {SGood : Nat × Nat → Prop}
    (hk : KindSafe kind Good SGood) (hw : WriteSafe kind Good SGood words)
    {c : Codec} (hc : St c []) :
    Safe (fun st => st.dst.length = 4 * words * (faces file * blocksY file * blocksX file))
      (loop 1 words (faces file) (4 * words * blocksX file) (blocksX file) (blocksY file)
        (Model.Crn.Unity.block kind dm words (blocksX file) (blocksY file)) c
        (List.replicate (4 * words * (faces file * blocksY file * blocksX file)) 0)) := by
  refine loop_safe (bufW := 1) (grid_of_file hl) hwords (big_of_file hl hwords) (Or.inl rfl) hodd
    ?_ hk.zero hc
  rw [Nat.one_mul]
  exact block_safe hk hw hm hu (by omega) (len_of_file hl hwords)

theorem wholeFile_safe {file : List UInt8} {cs : Codes} {colour alpha : Plane} {planes : List Plane}
    {order : List Nat}
    (hf : hasSubblocks (format file) = false)
    (hh : HeaderOk file file.length) (hlv : 0 < levels file)
    (hlen : headerBytes file ≤ file.length) (h1 : fileCodes file = some cs)
    (h2 : Spec.Crn.Unity.colourPlane file cs = some colour)
    (h3 : Spec.Crn.Unity.alphaPlane file cs = some alpha)
    (h4 : Spec.Crn.Unity.planesOf (format file) colour alpha = some (planes, order))
    (henc : UsedCode cs.encoding) (hcl : ∀ p ∈ planes, p.indices.Closed) (hl : Limits file) :
    OpenedSafe file := by
  have h74 : 74 ≤ file.length := by unfold headerBytes at hlen; omega
  obtain ⟨t, et, ht⟩ := initTables_ok h1 hl.sections.tables
  obtain ⟨E, S, ec, hc⟩ := wholeColour_ok hf h2 ht hl.sections
  obtain ⟨E', A, V, ea, ha⟩ := wholeAlpha_ok hf h3 ht hl.sections
  have hfac : (specHeader file).faces = faces file := rfl
  have hfmt : (specHeader file).format = format file := rfl
  unfold Spec.Crn.Unity.planesOf at h4
  unfold hasSubblocks at hf
  simp only [Bool.or_eq_false_iff, decide_eq_false_iff_not] at hf
  refine ⟨_, init_eq hh hlen h74 et ec ea, rfl, rfl, rfl, ?_, fun hodd c hc' => ?_⟩
  · unfold Known
    split at h4
    · omega
    · split at h4
      · omega
      · split at h4
        · omega
        · split at h4
          · omega
          · exact absurd h4 (by simp)
  unfold Model.Crn.Unity.unpackFormat
  simp only [hfac, hfmt]
  generalize format file = f at h4 hf
  by_cases f0 : f = 0 ∨ f = 13
  · rw [if_pos f0] at h4
    rw [if_pos f0]
    obtain ⟨rfl, rfl⟩ : [colour] = planes ∧ [0] = order := by simpa using h4
    rw [show wordsOf f = 2 by unfold wordsOf; rw [if_pos (by omega)]]
    exact wholeLoop_safe hl (Or.inl rfl) hodd ht.encoding henc
      (dxt1Kind_safe hc rfl rfl (hcl _ (by simp)))
      (dxt1Kind_ok (buf := []) (last := 0) hc rfl rfl).writeSafe hc'
  rw [if_neg f0] at h4
  rw [if_neg f0]
  by_cases f2 : (2 ≤ f ∧ f ≤ 6) ∨ f = 14
  · rw [if_pos f2] at h4
    rw [if_pos f2]
    obtain ⟨rfl, rfl⟩ : [colour, alpha] = planes ∧ [1, 0] = order := by simpa using h4
    rw [show wordsOf f = 4 by unfold wordsOf; rw [if_neg (by omega)]]
    exact wholeLoop_safe hl (Or.inr rfl) hodd ht.encoding henc
      (dxt5Kind_safe hc rfl rfl ha rfl (hcl _ (by simp)) (hcl _ (by simp)))
      (dxt5Kind_ok (buf := []) (last := 0) hc rfl rfl ha rfl).writeSafe hc'
  rw [if_neg f2] at h4
  rw [if_neg f2]
  by_cases f7 : f = 7 ∨ f = 8
  · rw [if_pos f7] at h4
    rw [if_neg (show ¬ f = 9 by omega), if_pos f7]
    obtain ⟨rfl, rfl⟩ : [alpha, alpha] = planes ∧ [0, 1] = order := by simpa using h4
    rw [show wordsOf f = 4 by unfold wordsOf; rw [if_neg (by omega)]]
    exact wholeLoop_safe hl (Or.inr rfl) hodd ht.encoding henc
      (dxnKind_safe ha rfl (hcl _ (by simp)))
      (dxnKind_ok (buf := []) (last := 0) ha rfl).writeSafe hc'
  rw [if_neg f7] at h4
  by_cases f9 : f = 9
  · rw [if_pos f9] at h4
    rw [if_pos f9]
    obtain ⟨rfl, rfl⟩ : [alpha] = planes ∧ [0] = order := by simpa using h4
    rw [show wordsOf f = 2 by unfold wordsOf; rw [if_pos (by omega)]]
    exact wholeLoop_safe hl (Or.inl rfl) hodd ht.encoding henc
      (dxt5aKind_safe ha rfl (hcl _ (by simp)))
      (dxt5aKind_ok (buf := []) (last := 0) ha rfl).writeSafe hc'
  rw [if_neg f9] at h4
  exact absurd h4 (by simp)

theorem halfLoop_safe {file : List UInt8} (hl : Limits file) {words : Nat}
    (hwords : words = 2 ∨ words = 4)
    (hodd : Build.overflowChecks = false ∨ blocksX file % 2 = 0)
    {u : Unpacker} {code : List Nat} (hm : TablesOk code u.tables.encoding) (hu : UsedCode code)
    {kind : Kind} {write : EtcWrite} {Good : Idx → Prop} {SGood : Nat × Nat → Prop}
    (hk : KindSafe kind Good SGood) (hw : EtcWriteSafe u write Good SGood words)
    (hin : ∀ i, Good i → i.c < u.colorEndpoints.length)
    (hsec : ∀ i v, Good i → v < u.colorEndpoints.length → Good { i with c := v })
    (hi : IndexOk u.tables.endpoint0 u.colorEndpoints.length)
    {c : Codec} (hc : St c []) :
    Safe (fun st => st.dst.length = 4 * words * (faces file * blocksY file * blocksX file))
      (loop 2 words (faces file) (4 * words * blocksX file) (blocksX file) (blocksY file)
        (Model.Crn.Unity.etcBlock u kind write words (blocksX file) (blocksY file)) c
        (List.replicate (4 * words * (faces file * blocksY file * blocksX file)) 0)) :=
  loop_safe (bufW := 2) (grid_of_file hl) hwords (big_of_file hl hwords) (Or.inr rfl) hodd
    (etcBlock_safe hk hw hin hsec hm hu hi (by omega) (len_of_file hl hwords)) hk.zero hc

theorem halfFile_safe {file : List UInt8} {cs : Codes} {planes : List Indices}
    (hf : format file = 10 ∨ format file = 11 ∨ format file = 12)
    (hh : HeaderOk file file.length) (hlv : 0 < levels file)
    (hlen : headerBytes file ≤ file.length) (h1 : fileCodes file = some cs)
    (h : fileIndices file cs = some planes)
    (henc : UsedCode cs.encoding) (hcl : ∀ p ∈ planes, p.Closed) (hl : Limits file) :
    OpenedSafe file := by
  have h74 : 74 ≤ file.length := by unfold headerBytes at hlen; omega
  unfold fileIndices at h
  rw [if_pos hf] at h
  obtain ⟨hce, h⟩ := require'_bind h
  obtain ⟨cols, h2, h⟩ := Option.bind_eq_some_iff.mp h
  obtain ⟨sels, h3, h⟩ := Option.bind_eq_some_iff.mp h
  have hsub : hasSubblocks (format file) = true := by
    unfold hasSubblocks; rcases hf with hf | hf | hf <;> simp [hf]
  have hetc : hasEtc (format file) = true := by
    unfold hasEtc; rcases hf with hf | hf | hf <;> simp [hf]
  have hin := hl.sections.colours hce
  obtain ⟨t, et, ht⟩ := initTables_ok h1 hl.sections.tables
  obtain ⟨e1, n1, v1⟩ := etcColours_ok h2 hin.1
  obtain ⟨e2, n2, v2⟩ := etcSelectors_ok hetc h3 hin.2
  rw [hsub] at e1 e2
  have htt := ht.colour (by omega)
  have ec : colourPart file = .ok (cols.map (storedColour true), sels.flatMap (storedSelectors true)) := by
    unfold colourPart
    refine (if_pos (show (specHeader file).colorEndpoints.num ≠ 0 from hce)).trans ?_
    rw [if_pos hetc, e1, Res.ok_bind, e2, Res.ok_bind]; rfl
  have hcol : ∀ (E' A : List Nat), EtcColourOk ⟨file, file.length, specHeader file, t,
      cols.map (storedColour true), sels.flatMap (storedSelectors true), E', A⟩
      ⟨cs.colourEndpoint, cols.length, cs.colourSelector, sels.length⟩ cols sels := fun E' A =>
    ⟨rfl, rfl, rfl, rfl, v1, v2, by rw [n1]; exact palette_num_lt _ _,
      by rw [n2]; exact palette_num_lt _ _, by omega, htt.1, fun _ => htt.2⟩
  have hfac : (specHeader file).faces = faces file := rfl
  have hfmt : (specHeader file).format = format file := rfl
  have hknown : Known (format file) := by unfold Known; omega
  by_cases f12 : format file = 12
  · rw [if_pos f12] at h
    obtain ⟨hae, h⟩ := require'_bind h
    obtain ⟨alphas, h4, h⟩ := Option.bind_eq_some_iff.mp h
    obtain ⟨asels, h5, h⟩ := Option.bind_eq_some_iff.mp h
    obtain rfl := Option.some.inj h
    have hcc := hcl _ (List.mem_cons_self ..)
    have hca := hcl _ (List.mem_cons_of_mem _ (List.mem_cons_self ..))
    have hain := hl.sections.alphas hae
    have hat := ht.alpha (by omega)
    obtain ⟨E', e4, p4, n4, v4⟩ := alphaEndpoints_ok h4 hain.1
    obtain ⟨A, e5, w5, n5, v5⟩ := eacSelectorsTwice_ok h5 hain.2
    have hpos : 0 < E'.length := by omega
    have ea : alphaPart file = .ok (E', A) := by
      unfold alphaPart
      refine (if_pos (show (specHeader file).alphaEndpoints.num ≠ 0 from hae)).trans ?_
      have : decodeAlphaSelectorsAny file (specHeader file) = .ok A := by
        unfold decodeAlphaSelectorsAny
        rw [hfmt, if_neg (by omega), if_pos f12, e5]
      rw [e4, Res.ok_bind, this, Res.ok_bind]; rfl
    refine ⟨_, init_eq hh hlen h74 et ec ea, rfl, rfl, rfl, hknown, fun hodd c hc' => ?_⟩
    have hC := hcol E' A
    have hk := etc2aKind_ok (buf := []) (last := 0)
      (alpha := ⟨cs.alphaEndpoint, alphas.length, cs.alphaSelector, asels.length⟩) hC rfl p4 (by simp [p4]) rfl
      (by rw [n4]; exact palette_num_lt _ _) (by rw [n5]; exact palette_num_lt _ _) hpos v4 v5 w5
      hat.1 (fun _ => hat.2)
    have i1 : IndexOk t.endpoint0 cols.length :=
      indexOk_of hC.endsLt (fun _ => htt.1) hcc.endpointUsed hcc.endpointBelow rfl
    have i2 : IndexOk t.selector0 sels.length :=
      indexOk_of hC.selsLt (fun _ => htt.2) hcc.selectorUsed hcc.selectorBelow rfl
    have i3 : IndexOk t.endpoint1 E'.length :=
      indexOk_of (by rw [n4]; exact palette_num_lt _ _) (fun _ => hat.1) hca.endpointUsed
        hca.endpointBelow (by simp [p4])
    have i4 : IndexOk t.selector1 asels.length :=
      indexOk_of (by rw [n5]; exact palette_num_lt _ _) (fun _ => hat.2) hca.selectorUsed
        hca.selectorBelow rfl
    unfold Model.Crn.Unity.unpackFormat
    simp only [hfac, hfmt]
    rw [f12, if_neg (by omega), if_neg (by omega), if_neg (by omega), if_neg (by omega),
      if_neg (by omega), if_pos rfl, show wordsOf 12 = 4 from rfl]
    exact halfLoop_safe hl (Or.inr rfl) hodd ht.encoding henc
      (etc2aKind_safe i1 hC.num i2 i3 rfl i4) hk.writeSafe hk.inside
      (fun i v a b => (hk.second i v a b).1) (by rw [hC.num]; exact i1) hc'
  · rw [if_neg f12] at h
    obtain ⟨hae, h⟩ := require'_bind h
    obtain rfl := Option.some.inj h
    have hcc := hcl _ (List.mem_cons_self ..)
    have ea : alphaPart file = .ok ([], []) := by
      unfold alphaPart
      exact if_neg (fun hc => hc hae)
    refine ⟨_, init_eq hh hlen h74 et ec ea, rfl, rfl, rfl, hknown, fun hodd c hc' => ?_⟩
    have hC := hcol [] []
    have hk := etc1Kind_ok (buf := []) (last := 0) hC
    have i1 : IndexOk t.endpoint0 cols.length :=
      indexOk_of hC.endsLt (fun _ => htt.1) hcc.endpointUsed hcc.endpointBelow rfl
    have i2 : IndexOk t.selector0 sels.length :=
      indexOk_of hC.selsLt (fun _ => htt.2) hcc.selectorUsed hcc.selectorBelow rfl
    unfold Model.Crn.Unity.unpackFormat
    simp only [hfac, hfmt]
    generalize format file = f at hf f12
    rw [if_neg (by omega), if_neg (by omega), if_neg (by omega), if_neg (by omega),
      if_pos (by omega), show wordsOf f = 2 by unfold wordsOf; rw [if_pos (by omega)]]
    exact halfLoop_safe hl (Or.inl rfl) hodd ht.encoding henc
      (etc1Kind_safe i1 hC.num i2) hk.writeSafe hk.inside
      (fun i v a b => (hk.second i v a b).1) (by rw [hC.num]; exact i1) hc'

theorem unityUnpackLevel_safe {file : List UInt8} (hg : Unity.GoodTables file)
    (hodd : Build.overflowChecks = false ∨ blocksX file % 2 = 0) :
    Safe (fun r => r.format = crnFormatOf (format file) ∧ r.dxtData.length < 2 ^ 30)
      (unityCrunchUnpackLevel file (asU 32 file.length) 0) ∧ Known (format file) := by
  obtain ⟨hh, hlv, hhb, hend, hl, cs, planes, h1, h2, henc, hcl⟩ := hg
  have ho : OpenedSafe file := by
    by_cases hf : format file = 10 ∨ format file = 11 ∨ format file = 12
    · exact halfFile_safe hf hh hlv hhb h1 h2 henc hcl hl
    · unfold fileIndices at h2
      rw [if_neg hf] at h2
      obtain ⟨colour, h3, h2⟩ := Option.bind_eq_some_iff.mp h2
      obtain ⟨alpha, h4, h2⟩ := Option.bind_eq_some_iff.mp h2
      obtain ⟨⟨ps, order⟩, h5, h2⟩ := Option.bind_eq_some_iff.mp h2
      obtain rfl := Option.some.inj h2
      refine wholeFile_safe ?_ hh hlv hhb h1 h3 h4 h5 henc
        (fun p hp => hcl _ (List.mem_map_of_mem hp)) hl
      unfold hasSubblocks
      simp only [Bool.or_eq_false_iff, decide_eq_false_iff_not]
      omega
  obtain ⟨u, eu, hd, hsz, hu, hk, hsafe⟩ := ho
  have hb : ∃ bits, sectionBits file (levelOfs file 0) (levelEnd file - levelOfs file 0) = some bits := by
    unfold sectionBits
    rw [if_pos (by omega)]
    exact ⟨_, rfl⟩
  obtain ⟨bits, hb⟩ := hb
  obtain ⟨c, hc, e⟩ := unityUnpackLevel_eq hh hlv hhb hl.small hl.faces hl.big eu hd hsz hu hk
    (by omega) hb
  have hst : St c [] := ⟨hc.st.cnt, hc.st.next, hc.st.ready, hc.st.last, by
    obtain ⟨V, a, b, _⟩ := hc.st.bits
    exact ⟨V, a, b, List.nil_prefix⟩⟩
  refine ⟨?_, hk⟩
  rw [e]
  refine Safe.bind (hsafe hodd c hst) (fun st h => ⟨rfl, ?_⟩)
  show st.dst.length < _
  rw [h]
  have := hl.big
  rcases wordsOf_cases (format file) with e | e <;> rw [e] <;> omega

end Verif.Proofs.Crn.Unity
