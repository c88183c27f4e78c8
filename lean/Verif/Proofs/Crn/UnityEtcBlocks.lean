import Verif.Proofs.Crn.UnityKinds
import Verif.Proofs.Crn.UnityEacPalettes

/-!
# Unity's variant of Crunch: blocks with two colours
-/

namespace Verif.Proofs.Crn.Unity

open Verif Verif.Model Verif.Model.Crn Verif.Model.Crn.Unity Verif.Spec.Crn Verif.Spec.Crn.Unity

variable [Build]

/-! ## What the specification reads for a block -/

/-- The endpoints at the end of the block before block `n`. -/
def etcLeft (z : List Nat) (l : List EtcBlock) (n : Nat) : List Nat :=
  if n = 0 then z else (l.getD (n - 1) {}).last

/-- The first endpoints of the block above block `n`. -/
def etcAbove (z : List Nat) (l : List EtcBlock) (w n : Nat) : List Nat :=
  if n < w then z else (l.getD (n - w) {}).endpoint

/-- The endpoints at the end of the block above block `n`. -/
def etcAboveLast (z : List Nat) (l : List EtcBlock) (w n : Nat) : List Nat :=
  if n < w then z else (l.getD (n - w) {}).last

/-- The endpoints at the end of the block above the one before block `n`. -/
def etcDiagonal (z : List Nat) (l : List EtcBlock) (w n : Nat) : List Nat :=
  if n < w + 1 then z else (l.getD (n - 1 - w) {}).last

/-- What the specification reads for block `n`. -/
structure EtcReads (code : List Nat) (colour : Indices) (others : List Indices) (w : Nat)
    (l : List EtcBlock) (n : Nat) (b : EtcBlock) (bits rest : List Bool) : Prop where
  reads : ∃ b1 b2 b3,
    (if n / w % 2 = 0 then symbol code bits = some (b.refs, b1) ∧ b.refs < 256
      else b.refs = (l.getD (n - w) {}).refs ∧ b1 = bits) ∧
    (if b.refs / 4 ^ (n / w % 2) % 4 = 0 then
        forEach Spec.Crn.Unity.nextEndpoint (colour :: others)
          (etcLeft ((colour :: others).map fun _ => 0) l n) b1 = some (b.endpoint, b2)
      else b.endpoint = (if b.refs / 4 ^ (n / w % 2) % 4 = 1 then
          etcLeft ((colour :: others).map fun _ => 0) l n
        else if b.refs / 4 ^ (n / w % 2) % 4 = 2 then
          etcAbove ((colour :: others).map fun _ => 0) l w n
        else etcDiagonal ((colour :: others).map fun _ => 0) l w n) ∧ b2 = b1) ∧
    forEach (fun p _ => selectorIndex p) (colour :: others) ((colour :: others).map fun _ => 0) b2
      = some (b.selector, b3) ∧
    (if b.refs / 16 / 4 ^ (n / w % 2) % 4 = 0 then b.second = b.endpoint.headD 0 ∧ rest = b3
      else Spec.Crn.Unity.nextEndpoint colour (b.endpoint.headD 0) b3 = some (b.second, rest)) ∧
    b.flip = if b.refs / 16 / 4 ^ (n / w % 2) % 4 < 2 then 1 else 0

omit [Build] in
theorem etcBlock_reads {code : List Nat} {colour : Indices} {others : List Indices} {w n : Nat}
    (hw : 0 < w) {l : List EtcBlock} {b : EtcBlock} {bits rest : List Bool} (hn : n < l.length)
    (h : Spec.Crn.Unity.etcBlock code colour others w (l.take n) bits = some (b, rest)) :
    EtcReads code colour others w l n b bits rest := by
  unfold Spec.Crn.Unity.etcBlock at h
  have hlen : (l.take n).length = n := by rw [List.length_take]; omega
  simp only [hlen] at h
  obtain ⟨refs, b1, h1, h⟩ := reader_bind.mp h
  obtain ⟨e, b2, h2, h⟩ := reader_bind.mp h
  obtain ⟨s, b3, h3, h⟩ := reader_bind.mp h
  obtain ⟨t, b4, h4, h⟩ := reader_bind.mp h
  obtain ⟨rfl, rfl⟩ := reader_pure.mp h
  generalize hz : ((colour :: others).map fun _ => 0) = z at *
  have hleft : (if n = 0 then z else ((l.take n).getD (n - 1) {}).last) = etcLeft z l n := by
    unfold etcLeft
    by_cases h0 : n = 0
    · rw [if_pos h0, if_pos h0]
    · rw [if_neg h0, if_neg h0, take_getD (by omega)]
  have habove : (if n < w then z else ((l.take n).getD (n - w) {}).endpoint) = etcAbove z l w n := by
    unfold etcAbove
    by_cases h0 : n < w
    · rw [if_pos h0, if_pos h0]
    · rw [if_neg h0, if_neg h0, take_getD (by omega)]
  have hdiag : (if n < w + 1 then z else ((l.take n).getD (n - 1 - w) {}).last)
      = etcDiagonal z l w n := by
    unfold etcDiagonal
    by_cases h0 : n < w + 1
    · rw [if_pos h0, if_pos h0]
    · rw [if_neg h0, if_neg h0, take_getD (by omega)]
  rw [hleft, habove, hdiag] at h2
  refine ⟨b1, b2, b3, ?_, ?_, ?_, ?_, rfl⟩
  · by_cases hx : n / w % 2 = 0
    · rw [if_pos hx] at h1 ⊢
      obtain ⟨s', m, h1a, h⟩ := reader_bind.mp h1
      obtain ⟨hd, h⟩ := require_bind.mp h
      obtain ⟨rfl, rfl⟩ := reader_pure.mp h
      exact ⟨h1a, hd⟩
    · rw [if_neg hx] at h1 ⊢
      obtain ⟨rfl, rfl⟩ := reader_pure.mp h1
      refine ⟨?_, rfl⟩
      rw [take_getD]
      rcases Nat.lt_or_ge n w with h | h
      · rw [Nat.div_eq_of_lt h] at hx; omega
      · omega
  · simp only
    rw [hz]
    by_cases hr : refs / 4 ^ (n / w % 2) % 4 = 0
    · rw [if_pos hr] at h2 ⊢
      exact h2
    · rw [if_neg hr] at h2 ⊢
      obtain ⟨rfl, rfl⟩ := reader_pure.mp h2
      exact ⟨rfl, rfl⟩
  · rw [hz]
    exact h3
  · simp only
    by_cases hr : refs / 16 / 4 ^ (n / w % 2) % 4 = 0
    · rw [if_pos hr] at h4 ⊢
      obtain ⟨rfl, rfl⟩ := reader_pure.mp h4
      exact ⟨rfl, rfl⟩
    · rw [if_neg hr] at h4 ⊢
      exact h4

/-! ## The kinds of blocks -/

/-- What is particular of a format is as the specification says. -/
structure EtcKindOk (buf : List UInt8) (last : Nat) (u : Unpacker) (kind : Kind) (write : EtcWrite)
    (colour : Indices) (others : List Indices)
    (view : Idx → List Nat) (sview : Nat × Nat → List Nat) (Good : Idx → Prop)
    (SGood : Nat × Nat → Prop) (words : Nat) (bytes : EtcBlock → List UInt8) : Prop where
  zero : Good {} ∧ view {} = (colour :: others).map fun _ => 0
  u16 : ∀ i, Good i → i.u16 = i
  inside : ∀ i, Good i → i.c < u.colorEndpoints.length
  head : ∀ i, (view i).headD 0 = i.c
  second : ∀ i v, Good i → v < u.colorEndpoints.length →
    Good { i with c := v } ∧ view { i with c := v } = v :: (view i).tail
  next : ∀ i c bits v rest, Spec.Crn.Unity.nextEndpoint colour i bits = some (v, rest) →
    At buf last c bits →
    ∃ c', Model.Crn.Unity.nextEndpoint kind.msg u.tables.endpoint0 u.colorEndpoints.length i c
        = .ok (v, c') ∧ At buf last c' rest ∧ v < u.colorEndpoints.length
  fresh : ∀ i c bits e rest, Good i →
    forEach Spec.Crn.Unity.nextEndpoint (colour :: others) (view i) bits = some (e, rest) →
    At buf last c bits →
    ∃ i' c', kind.fresh i c = .ok (i', c') ∧ At buf last c' rest ∧ Good i' ∧ view i' = e
  select : ∀ c bits s rest,
    forEach (fun p _ => selectorIndex p) (colour :: others) ((colour :: others).map fun _ => 0) bits
      = some (s, rest) →
    At buf last c bits →
    ∃ t c', kind.select c = .ok (t, c') ∧ At buf last c' rest ∧ SGood t ∧ sview t = s
  write : ∀ i t pd dst (b : EtcBlock), Good i → SGood t → b.second < u.colorEndpoints.length →
    b.endpoint = view i → b.selector = sview t → b.flip < 2 →
    4 * pd + 4 * words ≤ dst.length → dst.length < 2 ^ 32 →
    write (leBytes4 (u.colorEndpoints.getD i.c 0)) (leBytes4 (u.colorEndpoints.getD b.second 0)) i.a0
        b.flip t pd dst = .ok (put dst (4 * pd) (bytes b)) ∧
    (bytes b).length = 4 * words

/-- What is known of the state before block `n`. The buffer holds, for each of the next `w` blocks,
the endpoints above it, and its reference if it is in an odd row. -/
structure EtcCore (buf : List UInt8) (last : Nat) (z : List Nat) (view : Idx → List Nat)
    (Good : Idx → Prop) (w : Nat) (l : List EtcBlock) (bs : Nat → List Bool) (n : Nat)
    (st : UState) : Prop where
  codec : At buf last st.codec (bs n)
  good : Good st.cur
  cur : view st.cur = etcLeft z l n
  goodDiag : Good st.diag
  diag : view st.diag = etcDiagonal z l w n
  len : st.buffer.length = 2 * w
  win : ∀ m, n ≤ m → m < n + w → ∃ e e', st.buffer[2 * (m % w)]? = some e ∧
    st.buffer[2 * (m % w) + 1]? = some e' ∧ Good e.idx ∧ Good e'.idx ∧
    view e.idx = etcAbove z l w m ∧ view e'.idx = etcAboveLast z l w m ∧
    (m / w % 2 = 1 → e.ref = (l.getD (m - w) {}).refs / 4 % 4 + 4 * ((l.getD (m - w) {}).refs / 64 % 4))

variable {buf : List UInt8} {last : Nat}

/-- The two references of a block, as the decoder has them. -/
def etcRef (refs y : Nat) : Nat := refs / 4 ^ (y % 2) % 4 + 4 * (refs / 16 / 4 ^ (y % 2) % 4)

omit [Build] in
theorem etcRef_bits {g : Nat} (h : g < 256) :
    ((g &&& 3) ||| ((g >>> 2) &&& 12)) = etcRef g 0 ∧
    (((g >>> 2) &&& 3) ||| ((g >>> 4) &&& 12)) = g / 4 % 4 + 4 * (g / 64 % 4) := by
  have key : ∀ g : Fin 256, ((g.val &&& 3) ||| ((g.val >>> 2) &&& 12)) = etcRef g.val 0 ∧
    (((g.val >>> 2) &&& 3) ||| ((g.val >>> 4) &&& 12)) = g.val / 4 % 4 + 4 * (g.val / 64 % 4) := by
    decide +kernel
  exact key ⟨g, h⟩

/-- The state after reading the reference of block `n`. -/
structure EtcAfterRef (buf : List UInt8) (last w n refs : Nat) (e : BufElem) (bits : List Bool)
    (st st1 : UState) : Prop where
  codec : At buf last st1.codec bits
  cur : st1.cur = st.cur
  diag : st1.diag = st.diag
  pos : st1.pos = st.pos
  dst : st1.dst = st.dst
  len : st1.buffer.length = 2 * w
  elem : ∃ e1, st1.buffer[2 * (n % w)]? = some e1 ∧ e1.idx = e.idx ∧
    (n / w % 2 = 0 → e1.ref = refs / 4 % 4 + 4 * (refs / 64 % 4))
  others : ∀ j, j ≠ 2 * (n % w) → st1.buffer[j]? = st.buffer[j]?

theorem etcReference_ok {code : List Nat} {dm : DataModel} (hm : TablesOk code dm)
    {z : List Nat} {view : Idx → List Nat} {Good : Idx → Prop} {w n : Nat} (hw : 0 < w)
    {l : List EtcBlock} {bs : Nat → List Bool} {refs : Nat} {b1 : List Bool}
    (h1 : if n / w % 2 = 0 then symbol code (bs n) = some (refs, b1) ∧ refs < 256
      else refs = (l.getD (n - w) {}).refs ∧ b1 = bs n)
    {st : UState} (hst : EtcCore buf last z view Good w l bs n st) (msg : String) {y : Nat}
    (hy : y % 2 = n / w % 2) {e : BufElem} (he : st.buffer[2 * (n % w)]? = some e) :
    ∃ st1, etcReference msg dm y (n % w) st = .ok (etcRef refs (n / w), st1) ∧
      EtcAfterRef buf last w n refs e b1 st st1 := by
  have hx : 2 * (n % w) < st.buffer.length := by have := Nat.mod_lt n hw; rw [hst.len]; omega
  unfold etcReference
  rw [and_1, hy, idx_of_some he, Res.lift_ok, Res.ok_bind]
  by_cases hodd : n / w % 2 = 1
  · rw [if_neg (by omega)] at h1
    obtain ⟨rfl, rfl⟩ := h1
    obtain ⟨e', _, he', _, _, _, _, _, href⟩ := hst.win n (Nat.le_refl _) (by omega)
    obtain rfl : e = e' := by rw [he] at he'; exact Option.some.inj he'
    have href := href hodd
    rw [if_pos hodd]
    refine ⟨st, ?_, hst.codec, rfl, rfl, rfl, rfl, hst.len, ⟨e, he, rfl, by omega⟩, fun _ _ => rfl⟩
    have hmod : asU 8 e.ref = etcRef (l.getD (n - w) {}).refs (n / w) := by
      unfold asU etcRef
      rw [href, hodd, Nat.div_div_eq_div_mul]
      omega
    rw [hmod]
    rfl
  · rw [if_pos (by omega)] at h1
    obtain ⟨hs, hlt⟩ := h1
    obtain ⟨c', ec, hc', _, _⟩ := at_symbol hm hs hst.codec
    have hg : asU 8 refs = refs := by unfold asU; omega
    obtain ⟨q1, q2⟩ := etcRef_bits hlt
    rw [if_neg hodd, ec, Res.orErr_ok, Res.ok_bind]
    simp only
    rw [hg, q1, q2, setIdx_ok hx, Res.lift_ok, Res.ok_bind]
    refine ⟨{ st with codec := c', buffer := (st.buffer.set (2 * (n % w))
        { e with ref := refs / 4 % 4 + 4 * (refs / 64 % 4) }) }, ?_, hc', rfl, rfl, rfl, rfl,
      by simp [hst.len], ⟨{ e with ref := refs / 4 % 4 + 4 * (refs / 64 % 4) }, ?_, rfl, fun _ => rfl⟩, ?_⟩
    · rw [show etcRef refs (n / w) = etcRef refs 0 by unfold etcRef; rw [show n / w % 2 = 0 % 2 by omega]]
      rfl
    · simp only
      rw [List.getElem?_set_self hx]
    · intro j hj
      simp only
      rw [List.getElem?_set_ne (by omega)]

/-- The state after the first endpoints of block `n`. -/
structure EtcAfterEnds (buf : List UInt8) (last : Nat) (view : Idx → List Nat) (Good : Idx → Prop)
    (w n : Nat) (endpoint : List Nat) (e1 : BufElem) (bits : List Bool)
    (st1 st2 : UState) : Prop where
  codec : At buf last st2.codec bits
  good : Good st2.cur
  cur : view st2.cur = endpoint
  pos : st2.pos = st1.pos
  dst : st2.dst = st1.dst
  len : st2.buffer.length = 2 * w
  elem : ∃ e2, st2.buffer[2 * (n % w)]? = some e2 ∧ e2.ref = e1.ref ∧ Good e2.idx ∧
    view e2.idx = endpoint
  others : ∀ j, j ≠ 2 * (n % w) → st2.buffer[j]? = st1.buffer[j]?

omit [Build] in
theorem etcRef_split (refs y : Nat) : etcRef refs y &&& 3 = refs / 4 ^ (y % 2) % 4 ∧
    etcRef refs y >>> 2 = refs / 16 / 4 ^ (y % 2) % 4 := by
  unfold etcRef
  rw [and_3, shr_eq]
  omega

theorem etcEndpoints_ok {u : Unpacker} {kind : Kind} {write : EtcWrite} {colour : Indices}
    {others : List Indices} {view : Idx → List Nat}
    {sview : Nat × Nat → List Nat} {Good : Idx → Prop} {SGood : Nat × Nat → Prop} {words : Nat}
    {bytes : EtcBlock → List UInt8}
    (hk : EtcKindOk buf last u kind write colour others view sview Good SGood words bytes)
    {w n refs : Nat}
    (hw : 0 < w) {left above diagonal endpoint : List Nat} {st1 : UState} {b1 b2 : List Bool}
    (hc : At buf last st1.codec b1) (hg : Good st1.cur) (hcur : view st1.cur = left)
    (hgd : Good st1.diag) (hdiag : view st1.diag = diagonal)
    (hlen : st1.buffer.length = 2 * w) {e1 : BufElem} (he : st1.buffer[2 * (n % w)]? = some e1)
    (hge : Good e1.idx) (hve : view e1.idx = above)
    (h : if refs / 4 ^ (n / w % 2) % 4 = 0 then
        forEach Spec.Crn.Unity.nextEndpoint (colour :: others) left b1 = some (endpoint, b2)
      else endpoint = (if refs / 4 ^ (n / w % 2) % 4 = 1 then left
        else if refs / 4 ^ (n / w % 2) % 4 = 2 then above else diagonal) ∧ b2 = b1) :
    ∃ st2, etcEndpoints kind (n % w) (etcRef refs (n / w)) st1 = .ok st2 ∧
      EtcAfterEnds buf last view Good w n endpoint e1 b2 st1 st2 := by
  have hx : 2 * (n % w) < st1.buffer.length := by have := Nat.mod_lt n hw; rw [hlen]; omega
  unfold etcEndpoints
  rw [idx_of_some he, Res.lift_ok, Res.ok_bind, (etcRef_split refs (n / w)).1]
  have hr4 : refs / 4 ^ (n / w % 2) % 4 < 4 := Nat.mod_lt _ (by omega)
  generalize refs / 4 ^ (n / w % 2) % 4 = ref at h hr4
  have hset : ∀ i : Idx, Good i → view i = endpoint → ∀ c : Codec, At buf last c b2 → ∃ st2,
      (.ok { st1 with cur := i, codec := c, buffer := (st1.buffer.set (2 * (n % w)) { e1 with idx := i }) }
        : Res UState) = .ok st2 ∧ EtcAfterEnds buf last view Good w n endpoint e1 b2 st1 st2 := by
    intro i hi hv c hc'
    refine ⟨_, rfl, hc', hi, hv, rfl, rfl, by simp [hlen],
      ⟨{ e1 with idx := i }, ?_, rfl, hi, hv⟩, ?_⟩
    · simp only
      rw [List.getElem?_set_self hx]
    · intro j hj
      simp only
      rw [List.getElem?_set_ne (by omega)]
  by_cases h0 : ref = 0
  · rw [if_pos h0] at h ⊢
    obtain ⟨i', c', e, hc', hg', hv'⟩ := hk.fresh _ _ _ _ _ hg (hcur ▸ h) hc
    rw [e, Res.ok_bind]
    simp only
    rw [setIdx_ok hx, Res.lift_ok, Res.ok_bind, hk.u16 _ hg']
    exact hset i' hg' hv' c' hc'
  · rw [if_neg h0] at h ⊢
    obtain ⟨rfl, rfl⟩ := h
    by_cases h1 : ref = 1
    · rw [if_pos h1] at hset ⊢
      rw [setIdx_ok hx, Res.lift_ok, Res.ok_bind, hk.u16 _ hg]
      have := hset st1.cur hg hcur st1.codec hc
      rw [if_pos h1]
      exact this
    · rw [if_neg h1] at hset ⊢
      by_cases h3 : ref = 3
      · rw [if_neg (show ¬ ref = 2 by omega)] at hset
        rw [if_pos h3, setIdx_ok hx, Res.lift_ok, Res.ok_bind, hk.u16 _ hgd]
        rw [if_neg h1, if_neg (show ¬ ref = 2 by omega)]
        exact hset st1.diag hgd hdiag st1.codec hc
      · rw [if_neg h3, if_neg h1, if_pos (show ref = 2 by omega)]
        exact ⟨_, rfl, hc, hge, hve, rfl, rfl, hlen, ⟨e1, he, rfl, hge, hve⟩, fun _ _ => rfl⟩

theorem etcBlock_ok {u : Unpacker} {code : List Nat} (hm : TablesOk code u.tables.encoding)
    {kind : Kind} {write : EtcWrite} {colour : Indices} {others : List Indices}
    {view : Idx → List Nat} {sview : Nat × Nat → List Nat} {Good : Idx → Prop}
    {SGood : Nat × Nat → Prop} {words : Nat} (hwords : words ≤ 4)
    {bytes : EtcBlock → List UInt8}
    (hk : EtcKindOk buf last u kind write colour others view sview Good SGood words bytes)
    {w n : Nat} (hw : 0 < w) {l : List EtcBlock} {bs : Nat → List Bool}
    {b : EtcBlock} (hb : l[n]? = some b)
    (hl : EtcReads code colour others w l n b (bs n) (bs (n + 1))) {st : UState}
    (hst : EtcCore buf last ((colour :: others).map fun _ => 0) view Good w l bs n st) {y ow oh : Nat}
    (hy : y % 2 = n / w % 2) (hpos : st.pos < 2 ^ 32)
    (hroom : y < oh ∧ n % w < ow → 4 * st.pos + 4 * words ≤ st.dst.length)
    (hdst : st.dst.length < 2 ^ 32) :
    ∃ st', Model.Crn.Unity.etcBlock u kind write words ow oh y (n % w) st = .ok st' ∧
      EtcCore buf last ((colour :: others).map fun _ => 0) view Good w l bs (n + 1) st' ∧
      st'.pos = st.pos + words ∧
      st'.dst = (if y < oh ∧ n % w < ow then put st.dst (4 * st.pos) (bytes b) else st.dst) ∧
      ((y < oh ∧ n % w < ow) → (bytes b).length = 4 * words) := by
  generalize hz : ((colour :: others).map fun _ => 0) = z at *
  obtain ⟨b1, b2, b3, r1, r2, r3, r4, r5⟩ := hl.reads
  rw [hz] at r2 r3
  obtain ⟨e, e', he, he', hge, hge', hve, hve', _⟩ := hst.win n (Nat.le_refl _) (by omega)
  obtain ⟨st1, q1, a1⟩ := etcReference_ok hm hw r1 hst kind.msg hy he
  obtain ⟨e1, he1, hi1, hr1⟩ := a1.elem
  obtain ⟨st2, q2, a2⟩ := etcEndpoints_ok hk hw (n := n) (w := w) a1.codec
    (by rw [a1.cur]; exact hst.good) (by rw [a1.cur]; exact hst.cur)
    (by rw [a1.diag]; exact hst.goodDiag) (by rw [a1.diag]; exact hst.diag)
    a1.len he1 (by rw [hi1]; exact hge) (by rw [hi1]; exact hve) r2
  obtain ⟨t, c3, q3, hc3, hs3, hv3⟩ := hk.select _ _ _ _ (hz ▸ r3) a2.codec
  have hbg : l.getD n {} = b := by rw [List.getD_eq_getElem?_getD, hb]; rfl
  have hmod := Nat.mod_lt n hw
  have hsplit := (etcRef_split b.refs (n / w)).2
  have hin := hk.inside _ a2.good
  have hhead : b.endpoint.headD 0 = st2.cur.c := by rw [← a2.cur]; exact hk.head _
  -- the second colour
  obtain ⟨c4, q4, hc4, hsec⟩ : ∃ c4,
      (if etcRef b.refs (n / w) >>> 2 ≠ 0 then
        Model.Crn.Unity.nextEndpoint kind.msg u.tables.endpoint0 u.colorEndpoints.length st2.cur.c c3
      else pure (st2.cur.c, c3) : Res (Nat × Codec)) = .ok (b.second, c4) ∧
      At buf last c4 (bs (n + 1)) ∧ b.second < u.colorEndpoints.length := by
    rw [hsplit]
    rw [hhead] at r4
    by_cases h0 : b.refs / 16 / 4 ^ (n / w % 2) % 4 = 0
    · rw [if_pos h0] at r4
      rw [if_neg (by omega)]
      refine ⟨c3, by rw [r4.1]; rfl, by rw [r4.2]; exact hc3, by rw [r4.1]; exact hin⟩
    · rw [if_neg h0] at r4
      rw [if_pos h0]
      exact hk.next _ _ _ _ _ r4 hc3
  obtain ⟨hgs, hvs⟩ := hk.second _ b.second a2.good hsec
  have hlast : view { st2.cur with c := b.second } = b.last := by
    rw [hvs, a2.cur]
    rfl
  have he2' : st2.buffer[2 * (n % w) + 1]? = some e' := by
    rw [a2.others _ (by omega), a1.others _ (by omega), he']
  have hx : 2 * (n % w) + 1 < st2.buffer.length := by rw [a2.len]; omega
  have hflip : (etcRef b.refs (n / w) >>> 2) >>> 1 ^^^ 1 = b.flip := by
    rw [hsplit, r5]
    have h4 : b.refs / 16 / 4 ^ (n / w % 2) % 4 < 4 := Nat.mod_lt _ (by omega)
    generalize b.refs / 16 / 4 ^ (n / w % 2) % 4 = r at h4
    have key : ∀ r : Fin 4, r.val >>> 1 ^^^ 1 = if r.val < 2 then 1 else 0 := by decide
    exact key ⟨r, h4⟩
  have hflip2 : b.flip < 2 := by rw [r5]; split <;> omega
  have hwr := fun hv => hk.write st2.cur t st.pos st.dst b a2.good hs3 hsec a2.cur.symm hv3.symm hflip2
    (hroom hv) hdst
  have hwrite : (if y < oh ∧ n % w < ow then
        write (leBytes4 (u.colorEndpoints.getD st2.cur.c 0)) (leBytes4 (u.colorEndpoints.getD b.second 0))
          st2.cur.a0 b.flip t st2.pos st2.dst
      else pure st2.dst : Out (List UInt8)) = .ok (if y < oh ∧ n % w < ow then
        put st.dst (4 * st.pos) (bytes b) else st.dst) := by
    by_cases hv : y < oh ∧ n % w < ow
    · rw [if_pos hv, if_pos hv, a2.dst, a1.dst, a2.pos, a1.pos, (hwr hv).1]
    · rw [if_neg hv, if_neg hv, a2.dst, a1.dst]
      rfl
  refine ⟨{ st2 with
      codec := c4
      cur := { st2.cur with c := b.second }
      diag := e'.idx
      buffer := (st2.buffer.set (2 * (n % w) + 1) { e' with idx := { st2.cur with c := b.second } })
      dst := (if y < oh ∧ n % w < ow then put st.dst (4 * st.pos) (bytes b) else st.dst)
      pos := st.pos + words },
    ?_, ?_, rfl, rfl, fun hv => (hwr hv).2⟩
  · unfold Model.Crn.Unity.etcBlock
    rw [q1, Res.ok_bind]
    simp only
    rw [q2, Res.ok_bind, idx_of_some (getElem?_getD hin), Res.lift_ok, Res.ok_bind, q3, Res.ok_bind]
    simp only
    rw [q4, Res.ok_bind]
    simp only
    rw [idx_of_some he2', Res.lift_ok, Res.ok_bind, setIdx_ok hx, Res.lift_ok, Res.ok_bind,
      idx_of_some (getElem?_getD hsec), Res.lift_ok, Res.ok_bind, hflip, hwrite, Res.lift_ok, Res.ok_bind,
      a2.pos, a1.pos, addU_ok (by omega), Res.lift_ok, Res.ok_bind, hk.u16 _ hgs]
    rfl
  · obtain ⟨e2, he2, hr2, hg2, hv2⟩ := a2.elem
    refine ⟨hc4, hgs, ?_, hge', ?_, by simp [a2.len], ?_⟩
    · show view { st2.cur with c := b.second } = _
      rw [hlast]
      unfold etcLeft
      rw [if_neg (by omega), Nat.add_sub_cancel, hbg]
    · show view e'.idx = _
      rw [hve']
      unfold etcAboveLast etcDiagonal
      by_cases h : n < w
      · rw [if_pos h, if_pos (by omega)]
      · rw [if_neg h, if_neg (by omega), Nat.add_sub_cancel]
    · intro m hm1 hm2
      by_cases hmn : m = n + w
      · subst hmn
        refine ⟨e2, { e' with idx := { st2.cur with c := b.second } }, ?_, ?_, hg2, hgs, ?_, ?_, ?_⟩
        · rw [Nat.add_mod_right]
          simp only
          rw [List.getElem?_set_ne (by omega)]
          exact he2
        · rw [Nat.add_mod_right]
          simp only
          rw [List.getElem?_set_self hx]
        · rw [hv2]
          unfold etcAbove
          rw [if_neg (by omega), Nat.add_sub_cancel, hbg]
        · rw [hlast]
          unfold etcAboveLast
          rw [if_neg (by omega), Nat.add_sub_cancel, hbg]
        · intro hodd
          rw [Nat.add_div_right _ hw] at hodd
          rw [hr2, hr1 (by omega), Nat.add_sub_cancel, hbg]
      · have hne := window (w := w) (n := n) (m := m) (by omega) (by omega)
        obtain ⟨f, f', hf, hf', rest⟩ := hst.win m (by omega) (by omega)
        refine ⟨f, f', ?_, ?_, rest⟩
        · simp only
          rw [List.getElem?_set_ne (by omega), a2.others _ (by omega), a1.others _ (by omega), hf]
        · simp only
          rw [List.getElem?_set_ne (by omega), a2.others _ (by omega), a1.others _ (by omega), hf']

end Verif.Proofs.Crn.Unity
