import Verif.Proofs.Crn.UnityLoop

/-!
# Unity's variant of Crunch: blocks with one set of endpoints
-/

namespace Verif.Proofs.Crn.Unity

open Verif Verif.Model Verif.Model.Crn Verif.Model.Crn.Unity Verif.Spec.Crn Verif.Spec.Crn.Unity

variable [Build]

/-! ## Indices -/

theorem nextEndpoint_ok {buf : List UInt8} {last : Nat} {code : List Nat} {dm : DataModel}
    {num : Nat} (hm : 0 < num → TablesOk code dm) (hnum : num < 2 ^ 16) {prev v : Nat}
    {bits rest : List Bool} {c : Codec} (msg : String)
    (h : nextPaletteIndex code num prev bits = some (v, rest)) (hc : At buf last c bits) :
    ∃ c', Model.Crn.Unity.nextEndpoint msg dm num prev c = .ok (v, c') ∧ At buf last c' rest ∧
      v < num := by
  unfold nextPaletteIndex at h
  obtain ⟨d, b1, h1, h⟩ := reader_bind.mp h
  obtain ⟨hd, h⟩ := require_bind.mp h
  obtain ⟨rfl, rfl⟩ := reader_pure.mp h
  obtain ⟨c', e, hc', _, _⟩ := at_symbol (hm (by omega)) h1 hc
  refine ⟨c', ?_, hc', Nat.mod_lt _ (by omega)⟩
  unfold Model.Crn.Unity.nextEndpoint
  rw [e, Res.orErr_ok, Res.ok_bind]
  simp only
  rw [addU_ok (by omega), Res.lift_ok, Res.ok_bind]
  by_cases hlt : prev + d < num
  · rw [if_neg (by omega), Nat.mod_eq_of_lt hlt]
    rfl
  · rw [if_pos (by omega), subU_ok (by omega), Res.lift_ok, Res.ok_bind,
      Nat.mod_eq_sub_mod (by omega), Nat.mod_eq_of_lt (by omega)]
    rfl

theorem selector_ok {buf : List UInt8} {last : Nat} {p : Indices} {dm : DataModel}
    (hm : 0 < p.selectors → TablesOk p.selectorCode dm) {v : Nat}
    {bits rest : List Bool} {c : Codec} (msg : String)
    (h : selectorIndex p bits = some (v, rest)) (hc : At buf last c bits) :
    ∃ c', selector msg dm c = .ok (v, c') ∧ At buf last c' rest ∧ v < p.selectors := by
  unfold selectorIndex at h
  obtain ⟨d, b1, h1, h⟩ := reader_bind.mp h
  obtain ⟨hd, h⟩ := require_bind.mp h
  obtain ⟨rfl, rfl⟩ := reader_pure.mp h
  obtain ⟨c', e, hc', _, _⟩ := at_symbol (hm (by omega)) h1 hc
  refine ⟨c', ?_, hc', hd⟩
  unfold selector
  rw [e, Res.orErr_ok]

/-! ## What the specification reads for a block -/

/-- The endpoints before those of block `n`. -/
def leftOf (z : List Nat) (l : List Block) (n : Nat) : List Nat :=
  if n = 0 then z else (l.getD (n - 1) {}).endpoint

/-- The endpoints above those of block `n`. -/
def aboveOf (z : List Nat) (l : List Block) (w n : Nat) : List Nat :=
  if n < w then z else (l.getD (n - w) {}).endpoint

omit [Build] in
theorem take_getD {α : Type} {l : List α} {n k : Nat} {d : α} (h : k < n) :
    (l.take n).getD k d = l.getD k d := by
  simp [List.getD_eq_getElem?_getD, List.getElem?_take_of_lt h]

/-- What the specification reads for block `n`. -/
structure Reads (code : List Nat) (planes : List Indices) (w : Nat) (l : List Block) (n : Nat)
    (b : Block) (bits rest : List Bool) : Prop where
  reads : ∃ b1 b2,
    (if n % w % 2 = 0 ∧ n / w % 2 = 0 then symbol code bits = some (b.refs, b1) ∧ b.refs < 256
      else b.refs = (l.getD (n / w / 2 * 2 * w + n % w / 2 * 2) {}).refs ∧ b1 = bits) ∧
    (if b.refs / 4 ^ (2 * (n % w % 2) + n / w % 2) % 4 = 0 then
        forEach Spec.Crn.Unity.nextEndpoint planes (leftOf (planes.map fun _ => 0) l n) b1
          = some (b.endpoint, b2)
      else b.endpoint = (if b.refs / 4 ^ (2 * (n % w % 2) + n / w % 2) % 4 = 1 then
        leftOf (planes.map fun _ => 0) l n else aboveOf (planes.map fun _ => 0) l w n) ∧ b2 = b1) ∧
    forEach (fun p _ => selectorIndex p) planes (planes.map fun _ => 0) b2 = some (b.selector, rest)

omit [Build] in
theorem block_reads {code : List Nat} {planes : List Indices} {w n : Nat} (hw : 0 < w)
    {l : List Block} {b : Block} {bits rest : List Bool} (hn : n < l.length)
    (h : Spec.Crn.Unity.block code planes w (l.take n) bits = some (b, rest)) :
    Reads code planes w l n b bits rest := by
  unfold Spec.Crn.Unity.block at h
  have hlen : (l.take n).length = n := by rw [List.length_take]; omega
  simp only [hlen] at h
  obtain ⟨refs, b1, h1, h⟩ := reader_bind.mp h
  obtain ⟨e, b2, h2, h⟩ := reader_bind.mp h
  obtain ⟨s, b3, h3, h⟩ := reader_bind.mp h
  obtain ⟨rfl, rfl⟩ := reader_pure.mp h
  have hleft : (if n = 0 then planes.map fun _ => 0 else ((l.take n).getD (n - 1) {}).endpoint)
      = leftOf (planes.map fun _ => 0) l n := by
    unfold leftOf
    by_cases h0 : n = 0
    · rw [if_pos h0, if_pos h0]
    · rw [if_neg h0, if_neg h0, take_getD (by omega)]
  have habove : (if n < w then planes.map fun _ => 0 else ((l.take n).getD (n - w) {}).endpoint)
      = aboveOf (planes.map fun _ => 0) l w n := by
    unfold aboveOf
    by_cases h0 : n < w
    · rw [if_pos h0, if_pos h0]
    · rw [if_neg h0, if_neg h0, take_getD (by omega)]
  rw [hleft, habove] at h2
  refine ⟨b1, b2, ?_, ?_, h3⟩
  · by_cases hx : n % w % 2 = 0 ∧ n / w % 2 = 0
    · rw [if_pos hx] at h1 ⊢
      obtain ⟨s', m, h1a, h⟩ := reader_bind.mp h1
      obtain ⟨hd, h⟩ := require_bind.mp h
      obtain ⟨rfl, rfl⟩ := reader_pure.mp h
      exact ⟨h1a, hd⟩
    · rw [if_neg hx] at h1 ⊢
      obtain ⟨rfl, rfl⟩ := reader_pure.mp h1
      refine ⟨?_, rfl⟩
      rw [take_getD]
      have hd := Nat.div_add_mod n w
      by_cases hy : n / w % 2 = 0
      · have : n / w / 2 * 2 = n / w := by omega
        rw [this, Nat.mul_comm]
        have : n % w % 2 ≠ 0 := fun hc => hx ⟨hc, hy⟩
        omega
      · have h1 : n / w / 2 * 2 = n / w - 1 := by omega
        have h2 : (n / w - 1) * w + w = w * (n / w) := by
          rw [← Nat.succ_mul, Nat.mul_comm]; congr 1; omega
        have := Nat.mod_lt n hw
        rw [h1]
        omega
  · simp only
    by_cases hr : refs / 4 ^ (2 * (n % w % 2) + n / w % 2) % 4 = 0
    · rw [if_pos hr] at h2 ⊢
      exact h2
    · rw [if_neg hr] at h2 ⊢
      obtain ⟨rfl, rfl⟩ := reader_pure.mp h2
      exact ⟨rfl, rfl⟩

/-! ## The kinds of blocks -/

/-- What is particular of a format is as the specification says. -/
structure KindOk (buf : List UInt8) (last : Nat) (kind : Kind) (planes : List Indices)
    (view : Idx → List Nat) (sview : Nat × Nat → List Nat) (Good : Idx → Prop)
    (SGood : Nat × Nat → Prop) (words : Nat) (bytes : List Nat → List Nat → List UInt8) : Prop where
  zero : Good {} ∧ view {} = planes.map fun _ => 0
  u16 : ∀ i, Good i → i.u16 = i
  fresh : ∀ i c bits e rest, Good i →
    forEach Spec.Crn.Unity.nextEndpoint planes (view i) bits = some (e, rest) → At buf last c bits →
    ∃ i' c', kind.fresh i c = .ok (i', c') ∧ At buf last c' rest ∧ Good i' ∧ view i' = e
  select : ∀ c bits s rest,
    forEach (fun p _ => selectorIndex p) planes (planes.map fun _ => 0) bits = some (s, rest) →
    At buf last c bits →
    ∃ t c', kind.select c = .ok (t, c') ∧ At buf last c' rest ∧ SGood t ∧ sview t = s
  write : ∀ i t pd dst, Good i → SGood t → 4 * pd + 4 * words ≤ dst.length → dst.length < 2 ^ 32 →
    kind.write i t pd dst = .ok (put dst (4 * pd) (bytes (view i) (sview t))) ∧
    (bytes (view i) (sview t)).length = 4 * words

/-- What is known of the state before block `n`. The buffer holds, for each of the next `w` blocks,
the endpoints above it, and its reference if it is in an odd row. -/
structure Core (buf : List UInt8) (last : Nat) (planes : List Indices) (view : Idx → List Nat)
    (Good : Idx → Prop) (w : Nat) (l : List Block) (bs : Nat → List Bool) (n : Nat)
    (st : UState) : Prop where
  codec : At buf last st.codec (bs n)
  good : Good st.cur
  cur : view st.cur = leftOf (planes.map fun _ => 0) l n
  len : st.buffer.length = w
  win : ∀ m, n ≤ m → m < n + w → ∃ e, st.buffer[m % w]? = some e ∧ Good e.idx ∧
    view e.idx = aboveOf (planes.map fun _ => 0) l w m ∧
    (m / w % 2 = 1 → e.ref = (l.getD (m - w) {}).refs / 4 ^ (2 * (m % w % 2) + 1) % 4)
  group : n / w % 2 = 0 → n % w % 2 = 1 → st.group = (l.getD (n - 1) {}).refs / 16

variable {buf : List UInt8} {last : Nat}

/-- The state after reading the reference of block `n`. -/
structure AfterRef (buf : List UInt8) (last w n refs : Nat) (e : BufElem) (bits : List Bool)
    (st st1 : UState) : Prop where
  codec : At buf last st1.codec bits
  cur : st1.cur = st.cur
  pos : st1.pos = st.pos
  dst : st1.dst = st.dst
  len : st1.buffer.length = w
  elem : ∃ e1, st1.buffer[n % w]? = some e1 ∧ e1.idx = e.idx ∧
    (n / w % 2 = 0 → e1.ref = refs / 4 ^ (2 * (n % w % 2) + 1) % 4)
  others : ∀ j, j ≠ n % w → st1.buffer[j]? = st.buffer[j]?
  group : n / w % 2 = 0 → n % w % 2 = 0 → st1.group = refs / 16

theorem reference_ok {code : List Nat} {dm : DataModel} (hm : TablesOk code dm)
    {planes : List Indices} {view : Idx → List Nat} {Good : Idx → Prop} {w n : Nat} (hw : 0 < w)
    (heven : w % 2 = 0) {l : List Block} {bs : Nat → List Bool}
    (hl : ∀ k b, l[k]? = some b → Reads code planes w l k b (bs k) (bs (k + 1)))
    {b : Block} (hb : l[n]? = some b) {b1 : List Bool}
    (h1 : if n % w % 2 = 0 ∧ n / w % 2 = 0 then symbol code (bs n) = some (b.refs, b1) ∧ b.refs < 256
      else b.refs = (l.getD (n / w / 2 * 2 * w + n % w / 2 * 2) {}).refs ∧ b1 = bs n)
    {st : UState} (hst : Core buf last planes view Good w l bs n st) (msg : String) {y : Nat}
    (hy : y % 2 = n / w % 2) {e : BufElem} (he : st.buffer[n % w]? = some e) :
    ∃ st1, reference msg dm y (n % w) st
        = .ok (b.refs / 4 ^ (2 * (n % w % 2) + n / w % 2) % 4, st1) ∧
      AfterRef buf last w n b.refs e b1 st st1 := by
  have hx : n % w < w := Nat.mod_lt _ hw
  have hnlen : n < l.length := (List.getElem?_eq_some_iff.mp hb).1
  have hd := Nat.div_add_mod n w
  unfold reference
  rw [and_1, and_1, hy]
  by_cases hodd : n / w % 2 = 1
  · -- an odd row: the reference is in the buffer
    rw [if_neg (by omega)] at h1
    obtain ⟨hrefs, rfl⟩ := h1
    have hge : w ≤ n := by
      rcases Nat.lt_or_ge n w with h | h
      · rw [Nat.div_eq_of_lt h] at hodd; omega
      · exact h
    have hq1 : 1 ≤ n / w := by
      rcases Nat.eq_zero_or_pos (n / w) with h | h
      · rw [h] at hodd; omega
      · exact h
    obtain ⟨e', he', _, _, href⟩ := hst.win n (Nat.le_refl _) (by omega)
    obtain rfl : e = e' := by rw [he] at he'; exact Option.some.inj he'
    have href := href hodd
    have hsame : b.refs = (l.getD (n - w) {}).refs := by
      rw [hrefs]
      have hk : n - w < l.length := by omega
      have hkg : l[n - w]? = some l[n - w] := List.getElem?_eq_getElem hk
      have hkw : (n - w) / w = n / w - 1 := by
        have : ((n - w) + w) / w = (n - w) / w + 1 := Nat.add_div_right _ hw
        rw [show (n - w) + w = n by omega] at this
        omega
      have hkm : (n - w) % w = n % w := by
        have := Nat.add_mod_right (n - w) w
        rw [show (n - w) + w = n by omega] at this
        omega
      by_cases hxo : n % w % 2 = 0
      · have : n / w / 2 * 2 * w + n % w / 2 * 2 = n - w := by
          have h3 : (n / w - 1) * w + w = w * (n / w) := by
            rw [← Nat.succ_mul, Nat.mul_comm]; congr 1; omega
          rw [show n / w / 2 * 2 = n / w - 1 by omega]
          omega
        rw [this]
      · obtain ⟨_, _, hr, _⟩ := (hl _ _ hkg).reads
        rw [if_neg (by rw [hkm]; omega), hkw, hkm] at hr
        rw [show (l.getD (n - w) {}) = l[n - w] by
          rw [List.getD_eq_getElem?_getD, hkg]; rfl, hr.1]
        have h3 : (n / w - 1) / 2 * 2 = n / w / 2 * 2 := by omega
        rw [h3]
    rw [if_neg (by omega)]
    refine ⟨{ st with group := st.group }, ?_, hst.codec, rfl, rfl, rfl, hst.len, ⟨e, he, rfl, by omega⟩,
      fun _ _ => rfl, by omega⟩
    rw [Res.pure_eq, Res.ok_bind]
    simp only
    rw [idx_of_some he, Res.lift_ok, Res.ok_bind, if_pos hodd]
    have hmod : asU 8 e.ref = e.ref := by
      unfold asU; rw [href]; omega
    rw [hmod, href, hsame, hodd]
    rfl
  · have heve : n / w % 2 = 0 := by omega
    by_cases hx0 : n % w % 2 = 0
    · -- a new group
      rw [if_pos ⟨hx0, heve⟩] at h1
      obtain ⟨hs, hlt⟩ := h1
      obtain ⟨c', ec, hc', _, _⟩ := at_symbol hm hs hst.codec
      rw [if_pos ⟨heve, hx0⟩, ec, Res.orErr_ok, Res.ok_bind]
      simp only
      rw [Res.pure_eq, Res.ok_bind]
      simp only
      rw [idx_of_some he, Res.lift_ok, Res.ok_bind, if_neg (by omega),
        setIdx_ok (by rw [hst.len]; exact hx), Res.lift_ok, Res.ok_bind]
      have hg : asU 8 b.refs = b.refs := by unfold asU; omega
      have h4 : (2 * (n % w % 2) + n / w % 2) = 0 := by omega
      refine ⟨{ st with codec := c', group := asU 8 b.refs >>> 4, buffer := (st.buffer.set (n % w)
          { e with ref := (asU 8 b.refs >>> 2) &&& 3 }) }, ?_, hc', rfl, rfl, rfl, by simp [hst.len], ⟨{ e with ref := b.refs / 4 % 4 }, ?_, rfl, ?_⟩,
        ?_, ?_⟩
      · rw [h4, and_3 (asU 8 b.refs), show asU 8 b.refs % 4 = b.refs / 4 ^ 0 % 4 by rw [hg]; simp]
        rfl
      · simp only
        rw [List.getElem?_set_self (by rw [hst.len]; exact hx), hg, shr_eq, and_3]
      · intro _
        rw [hx0]
      · intro j hj
        simp only
        rw [List.getElem?_set_ne (by omega)]
      · intro _ _
        simp only
        rw [hg, shr_eq]
    · -- the second column of a group
      have hx1 : n % w % 2 = 1 := by omega
      rw [if_neg (by omega)] at h1
      obtain ⟨hrefs, rfl⟩ := h1
      have hgr := hst.group heve hx1
      have hsame : (l.getD (n - 1) {}).refs = b.refs := by
        rw [hrefs]
        have : n / w / 2 * 2 * w + n % w / 2 * 2 = n - 1 := by
          rw [show n / w / 2 * 2 = n / w by omega, Nat.mul_comm]
          omega
        rw [this]
      rw [hsame] at hgr
      rw [if_neg (by omega), Res.pure_eq, Res.ok_bind]
      simp only
      rw [idx_of_some he, Res.lift_ok, Res.ok_bind, if_neg (by omega),
        setIdx_ok (by rw [hst.len]; exact hx), Res.lift_ok, Res.ok_bind]
      refine ⟨{ st with group := st.group >>> 4, buffer := (st.buffer.set (n % w)
          { e with ref := (st.group >>> 2) &&& 3 }) }, ?_, hst.codec, rfl, rfl, rfl, by simp [hst.len],
        ⟨{ e with ref := b.refs / 64 % 4 }, ?_, rfl, ?_⟩, ?_, by omega⟩
      · rw [heve, hx1, and_3 st.group]
        simp only [hgr]
        rfl
      · simp only
        rw [List.getElem?_set_self (by rw [hst.len]; exact hx), hgr, shr_eq, and_3,
          Nat.div_div_eq_div_mul]
      · intro _
        rw [hx1]
      · intro j hj
        simp only
        rw [List.getElem?_set_ne (by omega)]

/-- The state after the endpoints of block `n`. -/
structure AfterEnds (buf : List UInt8) (last : Nat) (view : Idx → List Nat) (Good : Idx → Prop)
    (w n : Nat) (endpoint : List Nat) (e1 : BufElem) (bits : List Bool)
    (st1 st2 : UState) : Prop where
  codec : At buf last st2.codec bits
  good : Good st2.cur
  cur : view st2.cur = endpoint
  pos : st2.pos = st1.pos
  dst : st2.dst = st1.dst
  group : st2.group = st1.group
  len : st2.buffer.length = w
  elem : ∃ e2, st2.buffer[n % w]? = some e2 ∧ e2.ref = e1.ref ∧ Good e2.idx ∧ view e2.idx = endpoint
  others : ∀ j, j ≠ n % w → st2.buffer[j]? = st1.buffer[j]?

omit [Build] in
theorem endpoints_ok {kind : Kind} {planes : List Indices} {view : Idx → List Nat}
    {sview : Nat × Nat → List Nat} {Good : Idx → Prop} {SGood : Nat × Nat → Prop} {words : Nat}
    {bytes : List Nat → List Nat → List UInt8}
    (hk : KindOk buf last kind planes view sview Good SGood words bytes) {w n ref : Nat}
    (hw : 0 < w) {left above endpoint : List Nat} {st1 : UState} {b1 b2 : List Bool}
    (hc : At buf last st1.codec b1) (hg : Good st1.cur) (hcur : view st1.cur = left)
    (hlen : st1.buffer.length = w) {e1 : BufElem} (he : st1.buffer[n % w]? = some e1)
    (hge : Good e1.idx) (hve : view e1.idx = above)
    (h : if ref = 0 then forEach Spec.Crn.Unity.nextEndpoint planes left b1 = some (endpoint, b2)
      else endpoint = (if ref = 1 then left else above) ∧ b2 = b1) :
    ∃ st2, endpoints kind (n % w) ref st1 = .ok st2 ∧
      AfterEnds buf last view Good w n endpoint e1 b2 st1 st2 := by
  have hx : n % w < st1.buffer.length := by rw [hlen]; exact Nat.mod_lt _ hw
  unfold endpoints
  rw [idx_of_some he, Res.lift_ok, Res.ok_bind]
  by_cases h0 : ref = 0
  · rw [if_pos h0] at h ⊢
    obtain ⟨i', c', e, hc', hg', hv'⟩ := hk.fresh _ _ _ _ _ hg (hcur ▸ h) hc
    rw [e, Res.ok_bind]
    simp only
    rw [setIdx_ok hx, Res.lift_ok, Res.ok_bind, hk.u16 _ hg']
    refine ⟨_, rfl, hc', hg', hv', rfl, rfl, rfl, by simp [hlen],
      ⟨{ e1 with idx := i' }, ?_, rfl, hg', hv'⟩, ?_⟩
    · simp only
      rw [List.getElem?_set_self hx]
    · intro j hj
      simp only
      rw [List.getElem?_set_ne (by omega)]
  · rw [if_neg h0] at h ⊢
    obtain ⟨rfl, rfl⟩ := h
    by_cases h1 : ref = 1
    · rw [if_pos h1, if_pos h1, setIdx_ok hx, Res.lift_ok, Res.ok_bind, hk.u16 _ hg]
      refine ⟨_, rfl, hc, hg, hcur, rfl, rfl, rfl, by simp [hlen],
        ⟨{ e1 with idx := st1.cur }, ?_, rfl, hg, hcur⟩, ?_⟩
      · simp only
        rw [List.getElem?_set_self hx]
      · intro j hj
        simp only
        rw [List.getElem?_set_ne (by omega)]
    · rw [if_neg h1, if_neg h1]
      exact ⟨_, rfl, hc, hge, hve, rfl, rfl, rfl, hlen, ⟨e1, he, rfl, hge, hve⟩, fun _ _ => rfl⟩

omit [Build] in
/-- The blocks in the window of the buffer are in different columns. -/
theorem window {w n m : Nat} (h1 : n < m) (h2 : m < n + w) : m % w ≠ n % w := by
  intro h
  have hd := Nat.div_add_mod n w
  have hd' := Nat.div_add_mod m w
  rw [h] at hd'
  have h3 : n / w < m / w := by
    rcases Nat.lt_or_ge (n / w) (m / w) with h4 | h4
    · exact h4
    · have := Nat.mul_le_mul_left w h4
      omega
  have := Nat.mul_le_mul_left w h3
  rw [Nat.mul_succ] at this
  omega

theorem block_ok {code : List Nat} {dm : DataModel} (hm : TablesOk code dm) {kind : Kind}
    {planes : List Indices} {view : Idx → List Nat}
    {sview : Nat × Nat → List Nat} {Good : Idx → Prop} {SGood : Nat × Nat → Prop} {words : Nat}
    (hwords : words ≤ 4)
    {bytes : List Nat → List Nat → List UInt8}
    (hk : KindOk buf last kind planes view sview Good SGood words bytes) {w n : Nat} (hw : 0 < w)
    (heven : w % 2 = 0) {l : List Block} {bs : Nat → List Bool}
    (hl : ∀ k b, l[k]? = some b → Reads code planes w l k b (bs k) (bs (k + 1)))
    {b : Block} (hb : l[n]? = some b) {st : UState}
    (hst : Core buf last planes view Good w l bs n st) {y ow oh : Nat}
    (hy : y % 2 = n / w % 2) (hpos : st.pos < 2 ^ 32)
    (hroom : y < oh ∧ n % w < ow → 4 * st.pos + 4 * words ≤ st.dst.length)
    (hdst : st.dst.length < 2 ^ 32) :
    ∃ st', Model.Crn.Unity.block kind dm words ow oh y (n % w) st = .ok st' ∧
      Core buf last planes view Good w l bs (n + 1) st' ∧ st'.pos = st.pos + words ∧
      st'.dst = (if y < oh ∧ n % w < ow then put st.dst (4 * st.pos) (bytes b.endpoint b.selector)
        else st.dst) ∧
      ((y < oh ∧ n % w < ow) → (bytes b.endpoint b.selector).length = 4 * words) := by
  obtain ⟨b1, b2, r1, r2, r3⟩ := (hl n b hb).reads
  obtain ⟨e, he, hge, hve, _⟩ := hst.win n (Nat.le_refl _) (by omega)
  obtain ⟨st1, q1, a1⟩ := reference_ok hm hw heven hl hb r1 hst kind.msg hy he
  obtain ⟨e1, he1, hi1, hr1⟩ := a1.elem
  obtain ⟨st2, q2, a2⟩ := endpoints_ok hk hw (n := n) (w := w) a1.codec (by rw [a1.cur]; exact hst.good)
    (by rw [a1.cur]; exact hst.cur) a1.len he1 (by rw [hi1]; exact hge) (by rw [hi1]; exact hve) r2
  obtain ⟨t, c3, q3, hc3, hs3, hv3⟩ := hk.select _ _ _ _ r3 a2.codec
  have hbg : l.getD n {} = b := by rw [List.getD_eq_getElem?_getD, hb]; rfl
  have hwrite : (if y < oh ∧ n % w < ow then kind.write st2.cur t st2.pos st2.dst else pure st2.dst
      : Out (List UInt8)) = .ok (if y < oh ∧ n % w < ow then
        put st.dst (4 * st.pos) (bytes b.endpoint b.selector) else st.dst) := by
    by_cases hv : y < oh ∧ n % w < ow
    · rw [if_pos hv, if_pos hv, a2.dst, a1.dst, a2.pos, a1.pos,
        (hk.write _ _ _ _ a2.good hs3 (hroom hv) hdst).1, a2.cur, hv3]
    · rw [if_neg hv, if_neg hv, a2.dst, a1.dst]
      rfl
  refine ⟨{ st2 with codec := c3, dst := (if y < oh ∧ n % w < ow then
        put st.dst (4 * st.pos) (bytes b.endpoint b.selector) else st.dst), pos := st.pos + words },
    ?_, ?_, rfl, rfl, ?_⟩
  · unfold Model.Crn.Unity.block
    rw [q1, Res.ok_bind]
    simp only
    rw [q2, Res.ok_bind, q3, Res.ok_bind]
    simp only
    rw [hwrite, Res.lift_ok, Res.ok_bind, a2.pos, a1.pos, addU_ok (by omega), Res.lift_ok, Res.ok_bind]
    rfl
  · obtain ⟨e2, he2, hr2, hg2, hv2⟩ := a2.elem
    refine ⟨hc3, a2.good, ?_, a2.len, ?_, ?_⟩
    · show view st2.cur = _
      rw [a2.cur]
      unfold leftOf
      rw [if_neg (by omega), Nat.add_sub_cancel, hbg]
    · intro m hm1 hm2
      by_cases hmn : m = n + w
      · subst hmn
        refine ⟨e2, ?_, hg2, ?_, ?_⟩
        · rw [Nat.add_mod_right]; exact he2
        · rw [hv2]
          unfold aboveOf
          rw [if_neg (by omega), Nat.add_sub_cancel, hbg]
        · intro hodd
          rw [Nat.add_div_right _ hw] at hodd
          rw [hr2, hr1 (by omega), Nat.add_mod_right, Nat.add_sub_cancel, hbg]
      · have hne := window (w := w) (n := n) (m := m) (by omega) (by omega)
        obtain ⟨e', he', hg', hv', hr'⟩ := hst.win m (by omega) (by omega)
        refine ⟨e', ?_, hg', hv', hr'⟩
        show st2.buffer[m % w]? = _
        rw [a2.others _ hne, a1.others _ hne, he']
    · intro hr hx
      have hd := Nat.div_add_mod n w
      have hlt := Nat.mod_lt n hw
      -- block `n` is in the same row and in an even column
      have hsame : (n + 1) / w = n / w ∧ (n + 1) % w = n % w + 1 := by
        rcases Nat.lt_or_ge (n % w + 1) w with h1 | h1
        · have e1 : (n + 1) / w = n / w := by
            rw [show n + 1 = w * (n / w) + (n % w + 1) by omega, Nat.mul_add_div hw,
              Nat.div_eq_of_lt h1, Nat.add_zero]
          refine ⟨e1, ?_⟩
          rw [show n + 1 = w * (n / w) + (n % w + 1) by omega, Nat.mul_add_mod, Nat.mod_eq_of_lt h1]
        · exfalso
          have : (n + 1) % w = 0 := by
            rw [show n + 1 = w * (n / w) + w by omega, Nat.mul_add_mod, Nat.mod_self]
          omega
      rw [hsame.1] at hr
      show st2.group = _
      rw [a2.group, a1.group hr (by omega), Nat.add_sub_cancel, hbg]
  · intro hv
    have := (hk.write _ _ _ _ a2.good hs3 (hroom hv) hdst).2
    rw [a2.cur, hv3] at this
    exact this

end Verif.Proofs.Crn.Unity
