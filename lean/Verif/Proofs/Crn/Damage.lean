import Verif.Proofs.Crn.File
import Verif.Spec.CrnClosed

/-!
# Unpacking a level whatever its data are

The header, codes and palettes of the file are good, the level data are arbitrary bytes.
-/

namespace Verif.Proofs.Crn

open Verif Verif.Model Verif.Model.Crn Verif.Spec.Crn

/-- No panic, and what holds of the value if there is one. -/
def Safe {α : Type} (P : α → Prop) : Res α → Prop
  | .ok a => P a
  | .fail _ => True
  | .panic => False

theorem Safe.cases {α : Type} {P : α → Prop} {x : Res α} (h : Safe P x) :
    (∃ m, x = .fail m) ∨ ∃ a, x = .ok a ∧ P a := by
  cases x with
  | ok a => exact Or.inr ⟨a, rfl, h⟩
  | fail m => exact Or.inl ⟨m, rfl⟩
  | panic => exact h.elim

theorem Safe.bind {α β : Type} {Q : α → Prop} {P : β → Prop} {x : Res α} {f : α → Res β}
    (h : Safe Q x) (hf : ∀ a, Q a → Safe P (f a)) : Safe P (x >>= f) := by
  rcases h.cases with ⟨m, rfl⟩ | ⟨a, rfl, ha⟩
  · trivial
  · exact hf a ha

theorem Safe.orErr {α : Type} {P : α → Prop} {x : Res α} (msg : String) (h : Safe P x) :
    Safe P (Res.orErr msg x) := by
  rcases h.cases with ⟨m, rfl⟩ | ⟨a, rfl, ha⟩
  · trivial
  · exact ha

theorem Safe.forRange {σ : Type} {n : Nat} {f : Nat → σ → Res σ} {s : σ} (P : Nat → σ → Prop)
    (h0 : P 0 s) (h : ∀ i, i < n → ∀ s, P i s → Safe (P (i + 1)) (f i s)) :
    Safe (P n) (Res.forRange n f s) := by
  induction n with
  | zero => exact h0
  | succ n ih => exact Safe.bind (ih fun i hi => h i (by omega)) (fun a ha => h n (by omega) a ha)

theorem Safe.mono {α : Type} {P Q : α → Prop} {x : Res α} (h : Safe P x) (hq : ∀ a, P a → Q a) :
    Safe Q x := by
  rcases h.cases with ⟨m, rfl⟩ | ⟨a, rfl, ha⟩
  · trivial
  · exact hq a ha

variable [Build]

/-! ## Symbols -/

omit [Build] in
theorem st_drop {c : Codec} {n : Nat} (h : St c []) (hn : n ≤ c.bitCount) :
    St { c with bitBuf := (c.bitBuf <<< n) % 2 ^ 32, bitCount := c.bitCount - n } [] := by
  obtain ⟨V, hV, e, _⟩ := h.bits
  have h' : St c ((msbBits c.bitCount V).take n ++ []) := ⟨h.cnt, h.next, h.ready, h.last, V, hV, e, by
    rw [List.append_nil]
    exact (List.take_prefix _ _).trans (List.prefix_append _ _)⟩
  have hl : ((msbBits c.bitCount V).take n).length = n := by
    rw [List.length_take, msbBits_length]; omega
  have := (st_take h' (by omega)).2
  rwa [hl] at this

theorem decode_safe {code : List Nat} {m : DataModel} (hm : TablesOk code m) (hu : UsedCode code)
    {c : Codec} (h : St c []) :
    Safe (fun r => 0 < code.getD r.1 0 ∧ St r.2 []) (c.decode m) := by
  obtain ⟨c1, e1, h1, hc1, _⟩ := refill_ok h
  unfold Codec.decode
  rw [e1, Res.lift_ok, Res.ok_bind]
  by_cases hs : ∃ s, Starts code s (c1.bitBuf >>> 16)
  · obtain ⟨s, hs⟩ := hs
    have h16 := lenOf_le hm.lensOk s
    rw [lookup_starts hm (st_buf_lt h1) hs, Res.ok_bind]
    simp only
    rw [shlU_ok (by omega), Res.lift_ok, Res.ok_bind, subU_ok (by omega), Res.lift_ok, Res.ok_bind]
    exact ⟨hs.1, st_drop h1 (by omega)⟩
  · rw [lookup_none hm (st_buf_lt h1) (by
      obtain ⟨l, hl, h0⟩ := hu
      exact ⟨l, h0, hm.lensOk.le16 l hl, fun h => by
        rw [List.count_eq_zero] at h; exact h hl⟩) (fun s h => hs ⟨s, h⟩), Res.fail_bind]
    trivial

/-- The tables of a code for the changes of an index below `num`. -/
structure IndexOk (dm : DataModel) (num : Nat) : Prop where
  lt : num < 2 ^ 16
  code : ∃ code, TablesOk code dm ∧ UsedCode code ∧ SymbolsBelow num code

omit [Build] in
theorem below_pos {num : Nat} {code : List Nat} (h : UsedCode code) (hb : SymbolsBelow num code) :
    0 < num := by
  obtain ⟨l, hl, h0⟩ := h
  obtain ⟨i, hi, rfl⟩ := List.getElem_of_mem hl
  have := hb i (by rw [List.getD_eq_getElem?_getD, List.getElem?_eq_getElem hi]; exact h0)
  omega

omit [Build] in
theorem IndexOk.pos {dm : DataModel} {num : Nat} (h : IndexOk dm num) : 0 < num := by
  obtain ⟨code, _, h1, h2⟩ := h.code
  exact below_pos h1 h2

theorem nextIndex_safe {dm : DataModel} {num : Nat} (h : IndexOk dm num) {prev : Nat}
    (hp : prev < num) {c : Codec} (hc : St c []) (msg : String) :
    Safe (fun r => r.1 < num ∧ St r.2 []) (nextIndex msg dm num prev c) := by
  obtain ⟨hn, code, ht, hu, hb⟩ := h
  unfold nextIndex
  refine Safe.bind (Safe.orErr _ (decode_safe ht hu hc)) ?_
  rintro ⟨d, c'⟩ ⟨hd, hc'⟩
  have hd := hb d hd
  simp only
  rw [addU_ok (by omega), Res.lift_ok, Res.ok_bind, limit_ok (by omega) (by omega), Res.lift_ok,
    Res.ok_bind]
  refine ⟨?_, hc'⟩
  simp only
  split <;> omega

theorem tileEndpoints_safe {dm : DataModel} {E : List Nat} (h : IndexOk dm E.length) {n e : Nat}
    (hn : n ≤ 4) (he : e < E.length) {c : Codec} (hc : St c []) (msg : String) :
    Safe (fun r => r.1.length = 4 ∧ r.2.1 < E.length ∧ St r.2.2 []) (tileEndpoints msg dm E n e c) := by
  have hs : asU 32 E.length = E.length := by have := h.lt; unfold asU; omega
  unfold tileEndpoints
  refine Safe.forRange (fun _ (r : List Nat × Nat × Codec) =>
    r.1.length = 4 ∧ r.2.1 < E.length ∧ St r.2.2 []) ⟨by simp, he, hc⟩ ?_
  rintro i hi ⟨l, p, c⟩ ⟨hl, hp, hc⟩
  simp only at hl hp hc ⊢
  rw [hs]
  refine Safe.bind (nextIndex_safe h hp hc msg) ?_
  rintro ⟨p', c'⟩ ⟨hp', hc'⟩
  simp only at hp' hc' ⊢
  rw [idx_of_some (List.getElem?_eq_getElem hp'), Res.lift_ok, Res.ok_bind, setIdx_ok (by omega),
    Res.lift_ok, Res.ok_bind]
  exact ⟨by simp [hl], hp', hc'⟩

/-! ## Blocks -/

/-- What holds of the state between any two steps: the bounds are the sizes of the palettes. -/
structure Inv (a b c d n : Nat) (st : LevelState) : Prop where
  codec : St st.codec []
  e0 : st.e0 < a
  e1 : st.e1 < b
  s0 : st.s0 < c
  s1 : st.s1 < d
  dst : st.dst.length = n

theorem nextEncoding_safe {code : List Nat} {dm : DataModel} (hm : TablesOk code dm)
    (hu : UsedCode code) {a b c d n : Nat} {st : LevelState} (h : Inv a b c d n st) (msg : String) :
    Safe (fun r => r.1 < 8 ∧ Inv a b c d n r.2) (nextEncoding msg dm st) := by
  have h7 : ∀ e : Nat, e &&& 7 < 8 := fun e => by
    rw [show (7 : Nat) = 2 ^ 3 - 1 from rfl, Nat.and_two_pow_sub_one_eq_mod]; omega
  unfold nextEncoding
  refine Safe.bind (Q := Inv a b c d n) ?_ (fun st' h' => ⟨h7 _, ⟨h'.codec, h'.e0, h'.e1, h'.s0, h'.s1, h'.dst⟩⟩)
  split
  · refine Safe.bind (Safe.orErr _ (decode_safe hm hu h.codec)) ?_
    rintro ⟨v, k⟩ ⟨_, hk⟩
    exact ⟨hk, h.e0, h.e1, h.s0, h.s1, h.dst⟩
  · exact h

theorem writeInt_safe {l : List UInt8} {i v : Nat} (h : 4 * i + 4 ≤ l.length)
    (hl : l.length < 2 ^ 64) : ∃ l', writeInt l i v = .ok l' ∧ l'.length = l.length :=
  ⟨_, writeInt_ok h hl, put_length (by rw [leBytes_length]; omega)⟩

theorem writeAlpha_safe {u : Unpacker} {S : List Nat} (hu : u.alphaSelectors = S.flatMap words3)
    (hS : S.length < 2 ^ 16) {e p pd : Nat} (hp : p < S.length) {dst : List UInt8}
    (hd : 4 * pd + 8 ≤ dst.length) (hl : dst.length < 2 ^ 64) :
    ∃ l, writeAlpha u e p pd dst = .ok l ∧ l.length = dst.length := by
  obtain ⟨h3, g0, g1, g2⟩ := words3_get hp
  unfold writeAlpha
  rw [mulU_ok (by omega), Out.ok_bind, hu, Nat.mul_comm p 3, sliceFrom_ok (by omega), Out.ok_bind,
    idx_of_some g0, Out.ok_bind, shlU_ok (by omega), Out.ok_bind]
  generalize (e ||| _) = v
  obtain ⟨l1, e1, n1⟩ := writeInt_safe (v := v) (show 4 * pd + 4 ≤ dst.length by omega) hl
  rw [e1, Out.ok_bind, idx_of_some g1, Out.ok_bind, idx_of_some g2, Out.ok_bind, shlU_ok (by omega),
    Out.ok_bind, addU_ok (by omega), Out.ok_bind]
  obtain ⟨l2, e2, n2⟩ := writeInt_safe (l := l1) (i := pd + 1)
    (v := S.getD p 0 / 65536 % 65536 ||| ((S.getD p 0 / 4294967296) <<< 16) % 2 ^ 32)
    (by omega) (by omega)
  exact ⟨l2, e2, by omega⟩

/-- What a block does. -/
def BlockSafe (B len : Nat) (I : LevelState → Prop)
    (block : Nat → Bool → Nat → LevelState → Res LevelState) : Prop :=
  ∀ (q m : Nat) (visible : Bool) (st : LevelState), q < 4 → I st → (visible = true → m < len) →
    Safe I (block q visible (B / 4 * m) st)

/-- The tiles of a chunk, as far as they matter here. -/
def TilesIn (tiles : List Nat) : Prop := ∀ q, q < 4 → ∃ t, tiles[q]? = some t ∧ t < 4

omit [Build] in
theorem ends_get {l : List Nat} (h : l.length = 4) {t : Nat} (ht : t < 4) : ∃ e, l[t]? = some e :=
  ⟨_, List.getElem?_eq_getElem (by omega)⟩

theorem dxt5a_safe {u : Unpacker} {S ends tiles : List Nat} {a b d len : Nat}
    (hi : IndexOk u.tables.selector1 S.length) (hu : u.alphaSelectors = S.flatMap words3)
    (hnum : u.header.alphaSelectors.num = S.length) (he : ends.length = 4) (ht : TilesIn tiles)
    (hlen : 8 * len < 2 ^ 32) :
    BlockSafe 8 len (Inv a b S.length d (8 * len)) (dxt5aBlock u ends tiles) := by
  intro q m visible st hq h hv
  obtain ⟨t, t1, t2⟩ := ht q hq
  obtain ⟨e, t3⟩ := ends_get he t2
  have hd := h.dst
  unfold dxt5aBlock
  rw [hnum]
  refine Safe.bind (nextIndex_safe hi h.s0 h.codec _) ?_
  rintro ⟨p, c'⟩ ⟨hp, hc'⟩
  simp only at hp hc' ⊢
  cases visible with
  | false => exact ⟨hc', h.e0, h.e1, hp, h.s1, h.dst⟩
  | true =>
    have := hv rfl
    obtain ⟨l, e1, n1⟩ := writeAlpha_safe (pd := 8 / 4 * m) (e := e) hu hi.lt hp (dst := st.dst)
      (by omega) (by omega)
    rw [if_pos rfl, idx_of_some t1, Res.lift_ok, Res.ok_bind, idx_of_some t3, Res.lift_ok, Res.ok_bind,
      e1, Res.lift_ok, Res.ok_bind]
    exact ⟨hc', h.e0, h.e1, hp, h.s1, n1.trans hd⟩

theorem dxn_safe {u : Unpacker} {S ends ends' tiles : List Nat} {a b len : Nat}
    (hi : IndexOk u.tables.selector1 S.length) (hu : u.alphaSelectors = S.flatMap words3)
    (hnum : u.header.alphaSelectors.num = S.length) (he : ends.length = 4) (he' : ends'.length = 4)
    (ht : TilesIn tiles) (hlen : 16 * len < 2 ^ 32) :
    BlockSafe 16 len (Inv a b S.length S.length (16 * len)) (dxnBlock u ends ends' tiles) := by
  intro q m visible st hq h hv
  obtain ⟨t, t1, t2⟩ := ht q hq
  obtain ⟨e, t3⟩ := ends_get he t2
  obtain ⟨e', t4⟩ := ends_get he' t2
  have hd := h.dst
  unfold dxnBlock
  rw [hnum]
  refine Safe.bind (nextIndex_safe hi h.s0 h.codec _) ?_
  rintro ⟨p, c'⟩ ⟨hp, hc'⟩
  simp only at hp hc' ⊢
  refine Safe.bind (nextIndex_safe hi h.s1 hc' _) ?_
  rintro ⟨p', c''⟩ ⟨hp', hc''⟩
  simp only at hp' hc'' ⊢
  cases visible with
  | false => exact ⟨hc'', h.e0, h.e1, hp, hp', h.dst⟩
  | true =>
    have := hv rfl
    obtain ⟨l, e1, n1⟩ := writeAlpha_safe (pd := 16 / 4 * m) (e := e) hu hi.lt hp (dst := st.dst)
      (by omega) (by omega)
    obtain ⟨l', e2, n2⟩ := writeAlpha_safe (pd := 16 / 4 * m + 2) (e := e') hu hi.lt hp' (dst := l)
      (by omega) (by omega)
    rw [if_pos rfl, idx_of_some t1, Res.lift_ok, Res.ok_bind, idx_of_some t3, Res.lift_ok, Res.ok_bind,
      e1, Res.lift_ok, Res.ok_bind, idx_of_some t4, Res.lift_ok, Res.ok_bind, addU_ok (by omega),
      Res.lift_ok, Res.ok_bind, e2, Res.lift_ok, Res.ok_bind]
    exact ⟨hc'', h.e0, h.e1, hp, hp', (n2.trans n1).trans hd⟩

theorem dxt5_safe {u : Unpacker} {S S' ends ends' tiles : List Nat} {a b len : Nat}
    (hi : IndexOk u.tables.selector1 S.length) (hu : u.alphaSelectors = S.flatMap words3)
    (hnum : u.header.alphaSelectors.num = S.length)
    (hi' : IndexOk u.tables.selector0 S'.length) (hu' : u.colorSelectors = S')
    (he : ends.length = 4) (he' : ends'.length = 4)
    (ht : TilesIn tiles) (hlen : 16 * len < 2 ^ 32) :
    BlockSafe 16 len (Inv a b S.length S'.length (16 * len)) (dxt5Block u ends ends' tiles) := by
  intro q m visible st hq h hv
  obtain ⟨t, t1, t2⟩ := ht q hq
  obtain ⟨e, t3⟩ := ends_get he t2
  obtain ⟨e', t4⟩ := ends_get he' t2
  have hd := h.dst
  have hs : asU 32 S'.length = S'.length := by have := hi'.lt; unfold asU; omega
  unfold dxt5Block
  rw [hnum, hu', hs]
  refine Safe.bind (nextIndex_safe hi h.s0 h.codec _) ?_
  rintro ⟨p, c'⟩ ⟨hp, hc'⟩
  simp only at hp hc' ⊢
  refine Safe.bind (nextIndex_safe hi' h.s1 hc' _) ?_
  rintro ⟨p', c''⟩ ⟨hp', hc''⟩
  simp only at hp' hc'' ⊢
  cases visible with
  | false => exact ⟨hc'', h.e0, h.e1, hp, hp', h.dst⟩
  | true =>
    have := hv rfl
    obtain ⟨l, e1, n1⟩ := writeAlpha_safe (pd := 16 / 4 * m) (e := e) hu hi.lt hp (dst := st.dst)
      (by omega) (by omega)
    obtain ⟨l2, e2, n2⟩ := writeInt_safe (l := l) (i := 16 / 4 * m + 2) (v := e') (by omega) (by omega)
    obtain ⟨l3, e3, n3⟩ := writeInt_safe (l := l2) (i := 16 / 4 * m + 3) (v := S'[p']) (by omega)
      (by omega)
    rw [if_pos rfl, idx_of_some t1, Res.lift_ok, Res.ok_bind, idx_of_some t3, Res.lift_ok, Res.ok_bind,
      e1, Res.lift_ok, Res.ok_bind, idx_of_some t4, Res.lift_ok, Res.ok_bind, addU_ok (by omega),
      Res.lift_ok, Res.ok_bind, e2, Res.lift_ok, Res.ok_bind,
      idx_of_some (List.getElem?_eq_getElem hp'), Res.lift_ok, Res.ok_bind, addU_ok (by omega),
      Res.lift_ok, Res.ok_bind, e3, Res.lift_ok, Res.ok_bind]
    exact ⟨hc'', h.e0, h.e1, hp, hp', by rw [← hd, ← n1, ← n2, ← n3]⟩

theorem dxt1_safe {u : Unpacker} {S ends tiles : List Nat} {a b d len : Nat}
    (hi : IndexOk u.tables.selector0 S.length) (hu : u.colorSelectors = S)
    (he : ends.length = 4) (ht : TilesIn tiles) (hlen : 8 * len < 2 ^ 32) :
    BlockSafe 8 len (Inv a b S.length d (8 * len)) (dxt1Either u ends tiles) := by
  intro q m visible st hq h hv
  obtain ⟨t, t1, t2⟩ := ht q hq
  obtain ⟨e, t3⟩ := ends_get he t2
  have hd := h.dst
  have hs : asU 32 S.length = S.length := by have := hi.lt; unfold asU; omega
  unfold dxt1Either
  rw [hu, hs]
  refine Safe.bind (nextIndex_safe hi h.s0 h.codec _) ?_
  rintro ⟨p, c'⟩ ⟨hp, hc'⟩
  simp only at hp hc' ⊢
  cases visible with
  | false => exact ⟨hc', h.e0, h.e1, hp, h.s1, h.dst⟩
  | true =>
    have := hv rfl
    obtain ⟨l2, e2, n2⟩ := writeInt_safe (l := st.dst) (i := 8 / 4 * m) (v := e) (by omega) (by omega)
    obtain ⟨l3, e3, n3⟩ := writeInt_safe (l := l2) (i := 8 / 4 * m + 1) (v := S[p]) (by omega)
      (by omega)
    rw [if_pos rfl, idx_of_some t1, Res.lift_ok, Res.ok_bind, idx_of_some t3, Res.lift_ok, Res.ok_bind,
      e2, Res.lift_ok, Res.ok_bind,
      idx_of_some (List.getElem?_eq_getElem hp), Res.lift_ok, Res.ok_bind, addU_ok (by omega),
      Res.lift_ok, Res.ok_bind, e3, Res.lift_ok, Res.ok_bind]
    exact ⟨hc', h.e0, h.e1, hp, h.s1, by rw [← hd, ← n2, ← n3]⟩

/-- The order of writing and reading matters only for a failure. -/
theorem dxt1Block_safe {u : Unpacker} {S ends tiles : List Nat} {a b d len : Nat}
    (hi : IndexOk u.tables.selector0 S.length) (hu : u.colorSelectors = S)
    (he : ends.length = 4) (ht : TilesIn tiles) (hlen : 8 * len < 2 ^ 32) {q m : Nat} (hq : q < 4)
    (hm : m < len) {st : LevelState} (h : Inv a b S.length d (8 * len) st) :
    Safe (Inv a b S.length d (8 * len)) (dxt1Block u ends tiles q (8 / 4 * m) st) := by
  obtain ⟨t, t1, t2⟩ := ht q hq
  obtain ⟨e, t3⟩ := ends_get he t2
  have hd := h.dst
  have hs : asU 32 S.length = S.length := by have := hi.lt; unfold asU; omega
  obtain ⟨l2, e2, n2⟩ := writeInt_safe (l := st.dst) (i := 8 / 4 * m) (v := e) (by omega) (by omega)
  unfold dxt1Block
  rw [idx_of_some t1, Res.lift_ok, Res.ok_bind, idx_of_some t3, Res.lift_ok, Res.ok_bind,
    e2, Res.lift_ok, Res.ok_bind, hu, hs]
  refine Safe.bind (nextIndex_safe hi h.s0 h.codec _) ?_
  rintro ⟨p, c'⟩ ⟨hp, hc'⟩
  simp only at hp hc' ⊢
  obtain ⟨l3, e3, n3⟩ := writeInt_safe (l := l2) (i := 8 / 4 * m + 1) (v := S[p]) (by omega)
    (by omega)
  rw [idx_of_some (List.getElem?_eq_getElem hp), Res.lift_ok, Res.ok_bind, addU_ok (by omega),
    Res.lift_ok, Res.ok_bind, e3, Res.lift_ok, Res.ok_bind]
  exact ⟨hc', h.e0, h.e1, hp, h.s1, by rw [← hd, ← n2, ← n3]⟩

/-! ## The blocks of a chunk -/

theorem blockLoop_safe {B len : Nat} {I : LevelState → Prop}
    {block : Nat → Bool → Nat → LevelState → Res LevelState} (hB : B = 8 ∨ B = 16)
    (step : BlockSafe B len I block) {z : LevelSize} {nx : Nat} (hz : z.pitch = B * nx)
    {sr sb : Bool} {n : Nat} {st : LevelState} (h : I st) (hi : Inside B nx sr sb n len) :
    Safe I (blockLoop z (B / 4) B sr sb (B * n) block st) := by
  have hi0 := hi.b0
  have big := hi.big
  unfold blockLoop
  simp only [Res.forRange, Res.ok_bind]
  rw [(size_parts hB n).2, hz]
  simp only [ne_eq, Nat.reduceAdd, Nat.reduceMul, not_true_eq_false, decide_false, Bool.false_and,
    Bool.or_false, Bool.not_false]
  rcases (step 0 n true st (by omega) h (fun _ => hi0)).cases with ⟨m, e0⟩ | ⟨s0, e0, h0⟩
  · simp only [e0, Res.fail_bind]; trivial
  simp only [e0, Res.ok_bind]
  rw [addWords hB hi (m := n) (by omega), Res.lift_ok, Res.ok_bind]
  simp only [Res.pure_eq, Res.ok_bind]
  simp only [Nat.one_ne_zero, not_false_eq_true, decide_true, Bool.true_and]
  rcases (step 1 (n + 1) (!sr) s0 (by omega) h0 (fun hv => hi.b1 (by simpa using hv))).cases
    with ⟨m, e1⟩ | ⟨s1, e1, h1⟩
  · simp only [e1, Res.fail_bind]; trivial
  simp only [e1, Res.ok_bind]
  rw [addWords hB hi (m := n + 1) (by omega), Res.lift_ok, Res.ok_bind, Res.ok_bind]
  simp only
  rw [nextRow_ok hB (m := n + 1 + 1) (nx := nx) (by
    have : B * (n + 1 + 1 + nx + 2) ≤ B * (len + 2 * nx + 4) :=
      Nat.mul_le_mul_left _ (by omega)
    omega) (by omega), Res.ok_bind]
  rcases (step 2 (n + nx) (!sb) s1 (by omega) h1 (fun hv => hi.b2 (by simpa using hv))).cases
    with ⟨m, e2⟩ | ⟨s2, e2, h2⟩
  · simp only [show n + 1 + 1 + nx - 2 = n + nx by omega, Bool.false_or, e2, Res.fail_bind]; trivial
  simp only [show n + 1 + 1 + nx - 2 = n + nx by omega, Bool.false_or, e2, Res.ok_bind]
  rw [addWords hB hi (m := n + nx) (by omega), Res.lift_ok, Res.ok_bind, Res.ok_bind]
  rcases (step 3 (n + nx + 1) (!(sr || sb)) s2 (by omega) h2 (fun hv => by
    cases sr <;> cases sb <;> first | exact hi.b3 rfl rfl | simp at hv)).cases
    with ⟨m, e3⟩ | ⟨s3, e3, h3⟩
  · simp only [e3, Res.fail_bind]; trivial
  simp only [e3, Res.ok_bind]
  rw [addWords hB hi (m := n + nx + 1) (by omega), Res.lift_ok, Res.ok_bind, Res.ok_bind]
  simp only
  rw [nextRow_ok hB (m := n + nx + 1 + 1) (nx := nx) (by
    have : B * (n + nx + 1 + 1 + nx + 2) ≤ B * (len + 2 * nx + 4) :=
      Nat.mul_le_mul_left _ (by omega)
    omega) (by omega), Res.ok_bind]
  exact h3

theorem dxt1Full_safe {u : Unpacker} {S ends tiles : List Nat} {a b d len : Nat}
    (hi : IndexOk u.tables.selector0 S.length) (hu : u.colorSelectors = S)
    (he : ends.length = 4) (ht : TilesIn tiles) {z : LevelSize} {nx : Nat}
    (hz : z.pitch = 8 * nx) {n : Nat} {st : LevelState} (h : Inv a b S.length d (8 * len) st)
    (hin : Inside 8 nx false false n len) :
    Safe (Inv a b S.length d (8 * len)) (dxt1Full u z ends tiles ((8 * n) >>> 2) st) := by
  have hi0 := hin.b0
  have hi1 := hin.b1 rfl
  have hi2 := hin.b2 rfl
  have hi3 := hin.b3 rfl rfl
  have big := hin.big
  have hlen : 8 * len < 2 ^ 32 := by omega
  unfold dxt1Full
  rw [hz, (size_parts (Or.inl rfl) n).2, (size_parts (Or.inl rfl) nx).2]
  refine Safe.bind (dxt1Block_safe hi hu he ht hlen (by omega) hi0 h) (fun s0 h0 => ?_)
  rw [addU_ok (by omega), Res.lift_ok, Res.ok_bind, show 8 / 4 * n + 2 = 8 / 4 * (n + 1) by omega]
  refine Safe.bind (dxt1Block_safe hi hu he ht hlen (by omega) hi1 h0) (fun s1 h1 => ?_)
  rw [addU_ok (by omega), Res.lift_ok, Res.ok_bind,
    show 8 / 4 * n + 8 / 4 * nx = 8 / 4 * (n + nx) by omega]
  refine Safe.bind (dxt1Block_safe hi hu he ht hlen (by omega) hi2 h1) (fun s2 h2 => ?_)
  rw [addU_ok (by omega), Res.lift_ok, Res.ok_bind,
    show 8 / 4 * (n + 1) + 8 / 4 * nx = 8 / 4 * (n + nx + 1) by omega]
  exact dxt1Block_safe hi hu he ht hlen (by omega) hi3 h2

theorem dxt1Border_safe {u : Unpacker} {ends tiles : List Nat} {len : Nat} {I : LevelState → Prop}
    (step : BlockSafe 8 len I (dxt1Either u ends tiles)) {z : LevelSize} {nx : Nat}
    (hz : z.pitch = 8 * nx) {sr sb : Bool} {n : Nat} {st : LevelState} (h : I st)
    (hi : Inside 8 nx sr sb n len) :
    Safe I (dxt1Border u z ends tiles sr sb (8 * n) st) := by
  have hi0 := hi.b0
  have big := hi.big
  unfold dxt1Border
  simp only [Res.forRange, Res.ok_bind, dxt1Skip_eq]
  rw [hz, mulU_ok (by omega), Res.lift_ok, Res.ok_bind, addU_ok (by omega), Res.lift_ok, Res.ok_bind,
    Nat.mul_zero, show 8 * n + 0 = 8 * n from rfl, (size_parts (Or.inl rfl) n).2]
  simp only [ne_eq, Nat.reduceAdd, Nat.reduceMul, not_true_eq_false, decide_false, Bool.false_and,
    Bool.or_false, Bool.not_false]
  rcases (step 0 n true st (by omega) h (fun _ => hi0)).cases with ⟨m, e0⟩ | ⟨s0, e0, h0⟩
  · simp only [e0, Res.fail_bind]; trivial
  simp only [e0, Res.ok_bind]
  rw [addU_ok (by omega), Res.lift_ok, Res.ok_bind]
  simp only [Res.pure_eq, Res.ok_bind]
  rw [show 8 / 4 * n + 2 = 8 / 4 * (n + 1) by omega]
  simp only [Nat.one_ne_zero, not_false_eq_true, decide_true, Bool.true_and]
  rcases (step 1 (n + 1) (!sr) s0 (by omega) h0 (fun hv => hi.b1 (by simpa using hv))).cases
    with ⟨m, e1⟩ | ⟨s1, e1, h1⟩
  · simp only [e1, Res.fail_bind]; trivial
  simp only [e1, Res.ok_bind]
  rw [addU_ok (by omega), Res.lift_ok, Res.ok_bind, Res.ok_bind]
  simp only
  rw [mulU_ok (by omega), Res.lift_ok, Res.ok_bind, Res.ok_bind, addU_ok (by omega), Res.lift_ok,
    Res.ok_bind, show 8 * n + 8 * nx * 1 = 8 * (n + nx) by omega, (size_parts (Or.inl rfl) (n + nx)).2]
  rcases (step 2 (n + nx) (!sb) s1 (by omega) h1 (fun hv => hi.b2 (by simpa using hv))).cases
    with ⟨m, e2⟩ | ⟨s2, e2, h2⟩
  · simp only [Bool.false_or, e2, Res.fail_bind]; trivial
  simp only [Bool.false_or, e2, Res.ok_bind]
  rw [addU_ok (by omega), Res.lift_ok, Res.ok_bind, Res.ok_bind]
  simp only
  rw [show 8 / 4 * (n + nx) + 2 = 8 / 4 * (n + nx + 1) by omega]
  rcases (step 3 (n + nx + 1) (!(sr || sb)) s2 (by omega) h2 (fun hv => by
    cases sr <;> cases sb <;> first | exact hi.b3 rfl rfl | simp at hv)).cases
    with ⟨m, e3⟩ | ⟨s3, e3, h3⟩
  · simp only [e3, Res.fail_bind]; trivial
  rw [e3, Res.ok_bind, addU_ok (by omega), Res.lift_ok, Res.ok_bind, Res.ok_bind]
  exact h3

/-! ## Chunks -/

/-- What a chunk does. -/
def ChunkSafe (B nx len : Nat) (I : LevelState → Prop) (z : LevelSize)
    (fn : Nat → Nat → Nat → LevelState → Res LevelState) : Prop :=
  ∀ (x y n : Nat) (st : LevelState), I st → x < z.chunksX → y < z.chunksY → z.chunksX < 2 ^ 16 →
    Inside B nx (decide (z.blocksX % 2 = 1 ∧ x + 1 = z.chunksX))
      (decide (z.blocksY % 2 = 1 ∧ y + 1 = z.chunksY)) n len → Safe I (fn x y (B * n) st)

omit [Build] in
theorem tiles_in {enc : Nat} (h : enc < 8) : ∃ t, tilesTable[enc]? = some t ∧
    numTilesTable[enc]? = some (tileCount enc) ∧ TilesIn t := by
  obtain ⟨t, t1, t2, t3⟩ := tiles_eq h
  refine ⟨t, t1, t2, fun q hq => ⟨_, (t3 q hq).1, ?_⟩⟩
  have := (t3 q hq).2
  have := tileCount_le enc
  omega

theorem dxt1Chunk_safe {code : List Nat} {u : Unpacker} (hm : TablesOk code u.tables.encoding)
    (hu : UsedCode code) {E S : List Nat} (hE : u.colorEndpoints = E) (hS : u.colorSelectors = S)
    (hiE : IndexOk u.tables.endpoint0 E.length) (hiS : IndexOk u.tables.selector0 S.length)
    {z : LevelSize} {nx len : Nat} (hz : z.pitch = 8 * nx) {b d : Nat} :
    ChunkSafe 8 nx len (Inv E.length b S.length d (8 * len)) z (dxt1Chunk u z) := by
  intro x y n st h hx hy hzx hin
  have hlen : 8 * len < 2 ^ 32 := by have := hin.big; omega
  unfold dxt1Chunk
  rw [skipBottom_ok z hy, Res.lift_ok, Res.ok_bind]
  refine Safe.bind (nextEncoding_safe hm hu h _) ?_
  rintro ⟨enc, st'⟩ ⟨henc, h'⟩
  obtain ⟨tiles, t1, t2, t3⟩ := tiles_in henc
  simp only at h' ⊢
  rw [idx_of_some t2, Res.lift_ok, Res.ok_bind, hE]
  refine Safe.bind (tileEndpoints_safe hiE (tileCount_le _) h'.e0 h'.codec _) ?_
  rintro ⟨ends, e, c⟩ ⟨hl, he, hc⟩
  simp only at hl he hc ⊢
  rw [idx_of_some t1, Res.lift_ok, Res.ok_bind, skipRight_ok z hx hzx, Res.lift_ok, Res.ok_bind]
  generalize decide (z.blocksX % 2 = 1 ∧ x + 1 = z.chunksX) = sr at *
  generalize decide (z.blocksY % 2 = 1 ∧ y + 1 = z.chunksY) = sb at *
  have h2 : Inv E.length b S.length d (8 * len) { st' with codec := c, e0 := e } :=
    ⟨hc, he, h'.e1, h'.s0, h'.s1, h'.dst⟩
  by_cases hsk : sr = false ∧ sb = false
  · obtain ⟨rfl, rfl⟩ := hsk
    rw [if_pos (show (!false && !false) = true from rfl)]
    exact dxt1Full_safe hiS hS hl t3 hz h2 hin
  · rw [if_neg (by cases sr <;> cases sb <;> simp at hsk ⊢)]
    exact dxt1Border_safe (dxt1_safe hiS hS hl t3 hlen) hz h2 hin

theorem dxt5aChunk_safe {code : List Nat} {u : Unpacker} (hm : TablesOk code u.tables.encoding)
    (hu : UsedCode code) {E S : List Nat} (hE : u.alphaEndpoints = E)
    (hS : u.alphaSelectors = S.flatMap words3) (hnum : u.header.alphaSelectors.num = S.length)
    (hiE : IndexOk u.tables.endpoint1 E.length) (hiS : IndexOk u.tables.selector1 S.length)
    {z : LevelSize} {nx len : Nat} (hz : z.pitch = 8 * nx) {b d : Nat} :
    ChunkSafe 8 nx len (Inv E.length b S.length d (8 * len)) z (dxt5aChunk u z) := by
  intro x y n st h hx hy hzx hin
  have hlen : 8 * len < 2 ^ 32 := by have := hin.big; omega
  unfold dxt5aChunk
  rw [skipBottom_ok z hy, Res.lift_ok, Res.ok_bind]
  refine Safe.bind (nextEncoding_safe hm hu h _) ?_
  rintro ⟨enc, st'⟩ ⟨henc, h'⟩
  obtain ⟨tiles, t1, t2, t3⟩ := tiles_in henc
  simp only at h' ⊢
  rw [idx_of_some t2, Res.lift_ok, Res.ok_bind, idx_of_some t1, Res.lift_ok, Res.ok_bind,
    skipRight_ok z hx hzx, Res.lift_ok, Res.ok_bind, hE]
  refine Safe.bind (tileEndpoints_safe hiE (tileCount_le _) h'.e0 h'.codec _) ?_
  rintro ⟨ends, e, c⟩ ⟨hl, he, hc⟩
  simp only at hl he hc ⊢
  exact blockLoop_safe (Or.inl rfl) (dxt5a_safe hiS hS hnum hl t3 hlen) hz
    ⟨hc, he, h'.e1, h'.s0, h'.s1, h'.dst⟩ hin

theorem dxt5Chunk_safe {code : List Nat} {u : Unpacker} (hm : TablesOk code u.tables.encoding)
    (hu : UsedCode code) {E S E' S' : List Nat} (hE : u.alphaEndpoints = E)
    (hS : u.alphaSelectors = S.flatMap words3) (hnum : u.header.alphaSelectors.num = S.length)
    (hiE : IndexOk u.tables.endpoint1 E.length) (hiS : IndexOk u.tables.selector1 S.length)
    (hE' : u.colorEndpoints = E') (hS' : u.colorSelectors = S')
    (hiE' : IndexOk u.tables.endpoint0 E'.length) (hiS' : IndexOk u.tables.selector0 S'.length)
    {z : LevelSize} {nx len : Nat} (hz : z.pitch = 16 * nx) :
    ChunkSafe 16 nx len (Inv E.length E'.length S.length S'.length (16 * len)) z (dxt5Chunk u z) := by
  intro x y n st h hx hy hzx hin
  have hlen : 16 * len < 2 ^ 32 := by have := hin.big; omega
  unfold dxt5Chunk
  rw [skipBottom_ok z hy, Res.lift_ok, Res.ok_bind]
  refine Safe.bind (nextEncoding_safe hm hu h _) ?_
  rintro ⟨enc, st'⟩ ⟨henc, h'⟩
  obtain ⟨tiles, t1, t2, t3⟩ := tiles_in henc
  simp only at h' ⊢
  rw [idx_of_some t2, Res.lift_ok, Res.ok_bind, idx_of_some t1, Res.lift_ok, Res.ok_bind,
    skipRight_ok z hx hzx, Res.lift_ok, Res.ok_bind, hE, hE']
  refine Safe.bind (tileEndpoints_safe hiE (tileCount_le _) h'.e0 h'.codec _) ?_
  rintro ⟨ends, e, c⟩ ⟨hl, he, hc⟩
  simp only at hl he hc ⊢
  refine Safe.bind (tileEndpoints_safe hiE' (tileCount_le _) h'.e1 hc _) ?_
  rintro ⟨ends', e', c'⟩ ⟨hl', he', hc'⟩
  simp only at hl' he' hc' ⊢
  exact blockLoop_safe (Or.inr rfl) (dxt5_safe hiS hS hnum hiS' hS' hl hl' t3 hlen) hz
    ⟨hc', he, he', h'.s0, h'.s1, h'.dst⟩ hin

theorem dxnChunk_safe {code : List Nat} {u : Unpacker} (hm : TablesOk code u.tables.encoding)
    (hu : UsedCode code) {E S : List Nat} (hE : u.alphaEndpoints = E)
    (hS : u.alphaSelectors = S.flatMap words3) (hnum : u.header.alphaSelectors.num = S.length)
    (hiE : IndexOk u.tables.endpoint1 E.length) (hiS : IndexOk u.tables.selector1 S.length)
    {z : LevelSize} {nx len : Nat} (hz : z.pitch = 16 * nx) :
    ChunkSafe 16 nx len (Inv E.length E.length S.length S.length (16 * len)) z (dxnChunk u z) := by
  intro x y n st h hx hy hzx hin
  have hlen : 16 * len < 2 ^ 32 := by have := hin.big; omega
  unfold dxnChunk
  rw [skipBottom_ok z hy, Res.lift_ok, Res.ok_bind]
  refine Safe.bind (nextEncoding_safe hm hu h _) ?_
  rintro ⟨enc, st'⟩ ⟨henc, h'⟩
  obtain ⟨tiles, t1, t2, t3⟩ := tiles_in henc
  simp only at h' ⊢
  rw [idx_of_some t2, Res.lift_ok, Res.ok_bind, idx_of_some t1, Res.lift_ok, Res.ok_bind,
    skipRight_ok z hx hzx, Res.lift_ok, Res.ok_bind, hE]
  refine Safe.bind (tileEndpoints_safe hiE (tileCount_le _) h'.e0 h'.codec _) ?_
  rintro ⟨ends, e, c⟩ ⟨hl, he, hc⟩
  simp only at hl he hc ⊢
  refine Safe.bind (tileEndpoints_safe hiE (tileCount_le _) h'.e1 hc _) ?_
  rintro ⟨ends', e', c'⟩ ⟨hl', he', hc'⟩
  simp only at hl' he' hc' ⊢
  exact blockLoop_safe (Or.inr rfl) (dxn_safe hiS hS hnum hl hl' t3 hlen) hz
    ⟨hc', he, he', h'.s0, h'.s1, h'.dst⟩ hin

/-! ## All chunks -/

theorem chunkRow_safe {I : LevelState → Prop} {B faces nx ny cx cy : Nat} {z : LevelSize}
    {fn : Nat → Nat → Nat → LevelState → Res LevelState} (hB : B = 8 ∨ B = 16)
    (step : ChunkSafe B nx (faces * ny * nx) I z fn) (hs : Sizes faces nx ny cx cy)
    (hzx : z.blocksX = nx) (hzy : z.blocksY = ny) (hcx : z.chunksX = cx) (hcy : z.chunksY = cy)
    (hbig : B * (faces * ny * nx + 2 * nx + 4) < 2 ^ 31)
    {f y : Nat} (hf : f < faces) (hy : y < cy) {s : Nat × LevelState}
    (h : s.1 = B * (2 * (f * cy + y) * nx) ∧ I s.2) :
    Safe (fun s => s.1 = B * (2 * (f * cy + y + 1) * nx) ∧ I s.2) (do
        let (rowDst, st) := s
        let (blockDst, delta) ← (if y &&& 1 = 1 then do
            let n ← subI 32 (asI 32 cx) 1
            let n ← mulI 32 n B
            let n ← mulI 32 n 2
            let b ← addU 64 rowDst (asUI 64 n)
            pure (b, -(B : Int) * 2)
          else pure (rowDst, (B : Int) * 2))
        let (_, st) ← Res.forRange cx (fun i (s : Nat × LevelState) => do
          let (blockDst, st) := s
          let x := if y &&& 1 = 1 then cx - 1 - i else i
          let st ← fn x y blockDst st
          let b ← addI 32 (asI 32 blockDst) delta
          pure (asUI 64 b, st)) (blockDst, st)
        let p ← mulU 32 (B * nx) 2
        let rowDst ← addU 64 rowDst p
        pure (rowDst, st)) := by
  obtain ⟨rowDst, st⟩ := s
  obtain ⟨hrow, hinv⟩ := h
  simp only at hrow hinv
  generalize hY : f * cy + y = Y at hrow ⊢
  have hmod : Y % cy = y := by
    rw [← hY, Nat.mul_comm, Nat.mul_add_mod, Nat.mod_eq_of_lt hy]
  have hodd : (y &&& 1 = 1) ↔ Y % cy % 2 = 1 := by
    rw [hmod, show (1 : Nat) = 2 ^ 1 - 1 from rfl, Nat.and_two_pow_sub_one_eq_mod]
  have hplace : ∀ X, X < cx → Place (faces * ny) nx Y X (decide (nx % 2 = 1 ∧ X + 1 = cx))
      (decide (ny % 2 = 1 ∧ y + 1 = cy)) := fun X hX => hY ▸ hs.place hf hy hX
  obtain ⟨ecx, ecy, hnx0, hnx, hny, _⟩ := hs
  have hB16 : B ≤ 16 := by omega
  have hpl := (hplace 0 (by omega)).row
  have hR : 2 * Y * nx + nx ≤ faces * ny * nx := by
    have := Nat.mul_le_mul_right nx hpl
    rwa [Nat.succ_mul] at this
  have hb1 : B * (2 * Y * nx) + B * nx + B * (2 * nx) + B * 4 < 2 ^ 31 := by
    have e : B * (2 * Y * nx) + B * nx + B * (2 * nx) + B * 4 = B * (2 * Y * nx + nx + 2 * nx + 4) := by
      simp only [Nat.mul_add]
    rw [e]
    exact Nat.lt_of_le_of_lt (Nat.mul_le_mul_left _ (by omega)) hbig
  have hb2 : B * (2 * cx) ≤ B * nx + B := by
    have : B * (2 * cx) ≤ B * (nx + 1) := Nat.mul_le_mul_left _ (by omega)
    rwa [Nat.mul_succ] at this
  generalize hT : 2 * Y * nx = T at *
  have hTpos : Y % cy % 2 = 1 → 2 ≤ T := by
    intro ho
    have hY1 : 1 ≤ Y := by
      rcases Nat.eq_zero_or_pos Y with h0 | h0
      · rw [h0] at ho; simp at ho
      · exact h0
    have := Nat.mul_le_mul (show 2 ≤ 2 * Y by omega) (show 1 ≤ nx by omega)
    omega
  -- where the row starts
  have hfirst : (if y &&& 1 = 1 then do
      let n ← subI 32 (asI 32 cx) 1
      let n ← mulI 32 n B
      let n ← mulI 32 n 2
      let b ← addU 64 rowDst (asUI 64 n)
      pure (b, -(B : Int) * 2)
    else pure (rowDst, (B : Int) * 2) : Res (Nat × Int))
      = .ok (B * T + (if Y % cy % 2 = 1 then B * 2 * (cx - 1) else 0),
          if Y % cy % 2 = 1 then -(B : Int) * 2 else (B : Int) * 2) := by
    by_cases ho : Y % cy % 2 = 1
    · rw [if_pos (hodd.mpr ho), if_pos ho, if_pos ho, asI_small (by omega)]
      unfold subI mulI
      rw [fitI_ok (by unfold InI; omega), Res.lift_ok, Res.ok_bind,
        fitI_ok (by unfold InI; rcases hB with rfl | rfl <;> omega), Res.lift_ok, Res.ok_bind,
        fitI_ok (by unfold InI; rcases hB with rfl | rfl <;> omega), Res.lift_ok, Res.ok_bind]
      have ha : asUI 64 (((cx : Int) - 1) * B * 2) = B * 2 * (cx - 1) := by
        unfold asUI
        rcases hB with rfl | rfl <;> omega
      rw [ha, hrow, addU_ok (by rcases hB with rfl | rfl <;> omega), Res.lift_ok, Res.ok_bind]
      rfl
    · rw [if_neg (fun hc => ho (hodd.mp hc)), if_neg ho, if_neg ho, hrow]
      rfl
  have hinner := Safe.forRange (n := cx)
    (s := (B * T + (if Y % cy % 2 = 1 then B * 2 * (cx - 1) else 0), st))
    (f := fun i (s : Nat × LevelState) => do
      let (blockDst, st) := s
      let x := if y &&& 1 = 1 then cx - 1 - i else i
      let st ← fn x y blockDst st
      let b ← addI 32 (asI 32 blockDst) (if Y % cy % 2 = 1 then -(B : Int) * 2 else (B : Int) * 2)
      pure (asUI 64 b, st))
    (fun i s => (s.1 : Int) = B * T + B * 2 * (if Y % cy % 2 = 1 then (cx : Int) - 1 - i else i) ∧ I s.2)
    (by
      refine ⟨?_, hinv⟩
      by_cases ho : Y % cy % 2 = 1
      · rw [if_pos ho, if_pos ho]
        rcases hB with rfl | rfl <;> omega
      · rw [if_neg ho, if_neg ho]
        rcases hB with rfl | rfl <;> omega)
    (by
      rintro i hi ⟨bd, st⟩ ⟨hbd, hinv⟩
      simp only at hbd hinv
      have hX : (if y &&& 1 = 1 then cx - 1 - i else i) = if Y % cy % 2 = 1 then cx - 1 - i else i := by
        by_cases ho : Y % cy % 2 = 1
        · rw [if_pos ho, if_pos (hodd.mpr ho)]
        · rw [if_neg ho, if_neg (fun hc => ho (hodd.mp hc))]
      have hXlt : (if Y % cy % 2 = 1 then cx - 1 - i else i) < cx := by split <;> omega
      have hp := hplace _ hXlt
      have hbd' : bd = B * (T + 2 * (if Y % cy % 2 = 1 then cx - 1 - i else i)) := by
        by_cases ho : Y % cy % 2 = 1
        · rw [if_pos ho] at hbd ⊢
          rcases hB with rfl | rfl <;> omega
        · rw [if_neg ho] at hbd ⊢
          rcases hB with rfl | rfl <;> omega
      have hin := hp.inside hbig
      rw [hT] at hin
      simp only
      rw [hX, hbd']
      refine Safe.bind (step _ y _ st hinv (by rw [hcx]; exact hXlt) (by rw [hcy]; exact hy)
        (by omega) (by rw [hzx, hzy, hcx, hcy]; exact hin)) (fun st' hinv' => ?_)
      rw [← hbd', asI_small (by
        rw [hbd']
        rcases hB with rfl | rfl <;> omega)]
      unfold addI
      rw [fitI_ok (by
        unfold InI
        rw [hbd']
        by_cases ho : Y % cy % 2 = 1
        · rw [if_pos ho]; rcases hB with rfl | rfl <;> omega
        · rw [if_neg ho]; rcases hB with rfl | rfl <;> omega), Res.lift_ok, Res.ok_bind]
      refine ⟨?_, hinv'⟩
      simp only
      have hTp := hTpos
      unfold asUI
      by_cases ho : Y % cy % 2 = 1
      · have := hTp ho
        simp only [if_pos ho] at hbd hXlt ⊢
        rcases hB with rfl | rfl <;> omega
      · simp only [if_neg ho] at hbd hXlt ⊢
        rcases hB with rfl | rfl <;> omega)
  simp only [hfirst, Res.ok_bind]
  refine Safe.bind hinner ?_
  rintro ⟨bd, st'⟩ ⟨_, hinv'⟩
  simp only at hinv' ⊢
  rw [mulU_ok (by omega), Res.lift_ok, Res.ok_bind, addU_ok (by omega), Res.lift_ok, Res.ok_bind]
  refine ⟨?_, hinv'⟩
  have e : 2 * (Y + 1) * nx = T + 2 * nx := by rw [← hT, Nat.mul_add, Nat.add_mul]
  show rowDst + B * nx * 2 = _
  rw [e, hrow, Nat.mul_add, Nat.mul_left_comm B 2 nx, Nat.mul_comm 2]

theorem chunkLoop_safe {I : LevelState → Prop} {B faces nx ny cx cy : Nat} {z : LevelSize}
    {fn : Nat → Nat → Nat → LevelState → Res LevelState} (hB : B = 8 ∨ B = 16)
    (step : ChunkSafe B nx (faces * ny * nx) I z fn) (hs : Sizes faces nx ny cx cy)
    (hzx : z.blocksX = nx) (hzy : z.blocksY = ny) (hcx : z.chunksX = cx) (hcy : z.chunksY = cy)
    (hbig : B * (faces * ny * nx + 2 * nx + 4) < 2 ^ 31) {st : LevelState} (h0 : I st) :
    Safe I (chunkLoop faces cx cy (B * nx) B fn st) := by
  unfold chunkLoop
  refine Safe.bind (Safe.forRange (fun f (s : Nat × LevelState) => s.1 = B * (2 * (f * cy) * nx) ∧ I s.2)
    ⟨by simp, h0⟩ ?_) (fun s h => h.2)
  intro f hf s h
  exact Safe.mono (Safe.forRange
    (fun y (s : Nat × LevelState) => s.1 = B * (2 * (f * cy + y) * nx) ∧ I s.2) h
    (fun y hy s h' => chunkRow_safe hB step hs hzx hzy hcx hcy hbig hf hy h'))
    (fun s h => by rw [Nat.succ_mul f cy]; exact h)

/-! ## The level -/

omit [Build] in
theorem colour_index {p : Plane} {dmE dmS : DataModel} {E S : List Nat}
    (h : ColourPlaneOk p dmE dmS E S) (hc : p.Closed) : IndexOk dmE E.length ∧ IndexOk dmS S.length := by
  have hE : p.endpoints.length = E.length := by rw [h.ends, List.length_map]
  have hS : p.selectors.length = S.length := by rw [h.sels, List.length_map]
  have h1 := hc.endpointBelow
  have h2 := hc.selectorBelow
  rw [hE] at h1
  rw [hS] at h2
  exact ⟨⟨h.endsLt, _, h.endTables (below_pos hc.endpointUsed h1), hc.endpointUsed, h1⟩,
    ⟨h.selsLt, _, h.selTables (below_pos hc.selectorUsed h2), hc.selectorUsed, h2⟩⟩

omit [Build] in
theorem alpha_index {p : Plane} {dmE dmS : DataModel} {E S : List Nat}
    (h : AlphaPlaneOk p dmE dmS E S) (hc : p.Closed) : IndexOk dmE E.length ∧ IndexOk dmS S.length := by
  have hE : p.endpoints.length = E.length := by rw [h.ends, List.length_map]
  have hS : p.selectors.length = S.length := by rw [h.sels, List.length_map]
  have h1 := hc.endpointBelow
  have h2 := hc.selectorBelow
  rw [hE] at h1
  rw [hS] at h2
  exact ⟨⟨h.endsLt, _, h.endTables (below_pos hc.endpointUsed h1), hc.endpointUsed, h1⟩,
    ⟨h.selsLt, _, h.selTables (below_pos hc.selectorUsed h2), hc.selectorUsed, h2⟩⟩

theorem unpackFormat_safe {file : List UInt8} {cs : Codes} {colour alpha : Plane}
    {u : Unpacker} {E S E' S' : List Nat} (hu : UnpackerOk file cs colour alpha u E S E' S')
    {planes : List Plane} (hp : planesOf (format file) colour alpha = some planes)
    (henc : UsedCode cs.encoding) (hcl : ∀ p ∈ planes, p.Closed)
    {nx ny cx cy B : Nat} (hB : B = if format file = 0 ∨ format file = 9 then 8 else 16)
    (hs : Sizes (faces file) nx ny cx cy)
    (hbig : B * (faces file * ny * nx + 2 * nx + 4) < 2 ^ 31) {c : Codec} (hc : St c []) :
    Safe (fun st => st.dst.length = B * (faces file * ny * nx)) (unpackFormat u ⟨nx, ny, cx, cy, B * nx⟩
        { codec := c, dst := List.replicate (B * (faces file * ny * nx)) 0 }) := by
  have hfmt : u.header.format = format file := by rw [hu.header]; rfl
  have hfac : u.header.faces = faces file := by rw [hu.header]; rfl
  unfold planesOf at hp
  unfold unpackFormat
  simp only [hfmt, hfac]
  by_cases f0 : format file = 0
  · rw [if_pos f0] at hp ⊢
    obtain rfl := Option.some.inj hp
    rw [if_pos (Or.inl f0)] at hB
    subst hB
    obtain ⟨i1, i2⟩ := colour_index hu.colour (hcl _ (by simp))
    exact Safe.mono (chunkLoop_safe (Or.inl rfl)
      (dxt1Chunk_safe (b := 1) (d := 1) hu.encoding henc hu.colourEnds hu.colourSels i1 i2 rfl)
      hs rfl rfl rfl rfl hbig ⟨hc, i1.pos, Nat.one_pos, i2.pos, Nat.one_pos, List.length_replicate⟩)
      (fun st h => h.dst)
  · rw [if_neg f0] at hp ⊢
    by_cases f2 : 2 ≤ format file ∧ format file ≤ 6
    · rw [if_pos f2] at hp ⊢
      obtain rfl := Option.some.inj hp
      rw [if_neg (by omega)] at hB
      subst hB
      obtain ⟨i1, i2⟩ := alpha_index hu.alpha (hcl _ (by simp))
      obtain ⟨i3, i4⟩ := colour_index hu.colour (hcl _ (by simp))
      exact Safe.mono (chunkLoop_safe (Or.inr rfl)
        (dxt5Chunk_safe hu.encoding henc hu.alphaEnds hu.alphaSels (hu.alphaNum i1.pos) i1 i2
          hu.colourEnds hu.colourSels i3 i4 rfl)
        hs rfl rfl rfl rfl hbig ⟨hc, i1.pos, i3.pos, i2.pos, i4.pos, List.length_replicate⟩)
        (fun st h => h.dst)
    · rw [if_neg f2] at hp ⊢
      by_cases f7 : format file = 7 ∨ format file = 8
      · rw [if_pos f7] at hp
        obtain rfl := Option.some.inj hp
        rw [if_neg (by omega)] at hB
        subst hB
        rw [if_neg (by omega), if_pos f7]
        obtain ⟨i1, i2⟩ := alpha_index hu.alpha (hcl _ (by simp))
        exact Safe.mono (chunkLoop_safe (Or.inr rfl)
          (dxnChunk_safe hu.encoding henc hu.alphaEnds hu.alphaSels (hu.alphaNum i1.pos) i1 i2 rfl)
          hs rfl rfl rfl rfl hbig ⟨hc, i1.pos, i1.pos, i2.pos, i2.pos, List.length_replicate⟩)
          (fun st h => h.dst)
      · rw [if_neg f7] at hp
        by_cases f9 : format file = 9
        · rw [if_pos f9] at hp ⊢
          obtain rfl := Option.some.inj hp
          rw [if_pos (Or.inr f9)] at hB
          subst hB
          obtain ⟨i1, i2⟩ := alpha_index hu.alpha (hcl _ (by simp))
          exact Safe.mono (chunkLoop_safe (Or.inl rfl)
            (dxt5aChunk_safe (b := 1) (d := 1) hu.encoding henc hu.alphaEnds hu.alphaSels
              (hu.alphaNum i1.pos) i1 i2 rfl)
            hs rfl rfl rfl rfl hbig ⟨hc, i1.pos, Nat.one_pos, i2.pos, Nat.one_pos, List.length_replicate⟩)
            (fun st h => h.dst)
        · rw [if_neg f9] at hp
          exact absurd hp (by simp)

theorem unpackLevel2_safe {file src : List UInt8} {size : Nat} {cs : Codes} {colour alpha : Plane}
    {u : Unpacker} {E S E' S' : List Nat} (hu : UnpackerOk file cs colour alpha u E S E' S')
    {planes : List Plane} (hp : planesOf (format file) colour alpha = some planes)
    {B : Nat} (hB : B = if format file = 0 ∨ format file = 9 then 8 else 16)
    (hf : 0 < faces file) (hshape : faces file ≤ 1 ∨ blocksY file % 2 = 0)
    (hbig : 16 * (faces file * blocksY file * blocksX file) < 2 ^ 30)
    (henc : UsedCode cs.encoding) (hcl : ∀ p ∈ planes, p.Closed)
    {c : Codec} (hc0 : Codec.start src size = .ok c) (hc : St c []) :
    Safe (fun l => l.length = B * (faces file * blocksY file * blocksX file))
      (unpackLevel2 u src size (B * blocksX file * blocksY file) (blocksX file * B) 0) := by
  have hfmt : u.header.format = format file := by rw [hu.header]; rfl
  have hfac : u.header.faces = faces file := by rw [hu.header]; rfl
  have hw : u.header.width = width file := by rw [hu.header]; rfl
  have hh : u.header.height = height file := by rw [hu.header]; rfl
  have hwl : width file < 2 ^ 16 := be_lt file _ 2
  have hhl : height file < 2 ^ 16 := be_lt file _ 2
  have hfl : faces file < 2 ^ 8 := be_lt file _ 1
  have hnx : blocksX file < 2 ^ 15 := blocksOf_lt hwl
  have hny : blocksY file < 2 ^ 15 := blocksOf_lt hhl
  have hnx0 : 0 < blocksX file := blocksOf_pos _
  have hny0 : 0 < blocksY file := blocksOf_pos _
  have hBB : B = 8 ∨ B = 16 := by split at hB <;> omega
  have hT : blocksY file * blocksX file ≤ faces file * blocksY file * blocksX file := by
    rw [Nat.mul_assoc]; exact Nat.le_mul_of_pos_left _ hf
  have hT2 : B * blocksX file * blocksY file = B * (blocksY file * blocksX file) := by
    rw [Nat.mul_assoc, Nat.mul_comm (blocksX file)]
  have hT3 : B * blocksX file * blocksY file * faces file
      = B * (faces file * blocksY file * blocksX file) := by
    rw [hT2, Nat.mul_assoc, Nat.mul_comm _ (faces file), Nat.mul_assoc]
  have hbits : ∀ n, n < 2 ^ 16 → shrU 32 n 0 = .ok n := fun n _ => by
    rw [shrU_ok (by omega)]; rfl
  have key := unpackFormat_safe hu hp henc hcl hB
    (⟨rfl, rfl, hnx0, hnx, hny, hshape⟩ : Sizes (faces file) (blocksX file) (blocksY file) _ _)
    (by rcases hBB with rfl | rfl <;> omega) hc
  unfold unpackLevel2
  rw [hw, hh, hbits _ hwl, Res.lift_ok, Res.ok_bind, hbits _ hhl, Res.lift_ok, Res.ok_bind,
    addU_ok (by omega), Res.lift_ok, Res.ok_bind, addU_ok (by omega), Res.lift_ok, Res.ok_bind]
  simp only [blocksOf_shift, hfmt, ← hB, hfac]
  rw [show blocksOf (width file) = blocksX file from rfl, show blocksOf (height file) = blocksY file from rfl]
  rw [mulU_ok (by rcases hBB with rfl | rfl <;> omega), Res.lift_ok, Res.ok_bind]
  rw [if_neg (by
    rintro ⟨_, hc | hc⟩
    · rw [Nat.mul_comm] at hc; omega
    · apply hc
      rw [show (3 : Nat) = 2 ^ 2 - 1 from rfl, Nat.and_two_pow_sub_one_eq_mod]
      rcases hBB with rfl | rfl <;> omega)]
  rw [if_neg (by rcases hBB with rfl | rfl <;> omega), Nat.mul_comm (blocksX file) B]
  rw [mulU_ok (by rw [hT3]; rcases hBB with rfl | rfl <;> omega), Res.lift_ok, Res.ok_bind,
    mulU_ok (by rw [hT2]; rcases hBB with rfl | rfl <;> omega), Res.lift_ok, Res.ok_bind,
    if_neg (by omega), addU_ok (by omega), Res.lift_ok, Res.ok_bind, addU_ok (by omega), Res.lift_ok,
    Res.ok_bind, hc0, Res.orErr_ok, Res.ok_bind, hT3]
  have es : ∀ n : Nat, (n + 1) >>> 1 = (n + 1) / 2 := fun n => by
    rw [Nat.shiftRight_eq_div_pow]
  rw [es, es]
  exact Safe.bind key (fun st h => h)

theorem crunchUnpackLevel_safe {file : List UInt8} (hg : GoodTables file) :
    Safe (fun r => r.format = crnFormatOf (format file) ∧ r.dxtData.length < 2 ^ 30)
      (crunchUnpackLevel file (asU 32 file.length) 0) ∧
    (format file = 0 ∨ (2 ≤ format file ∧ format file ≤ 9)) := by
  obtain ⟨hh, hlv, hhb, hend, ⟨hsmall, hins, hf, hshape, hbig⟩, cs, colour, alpha, planes, h1, h2, h3, h4,
    henc, hcl⟩ := hg
  have h74 : 74 ≤ file.length := by unfold headerBytes at hhb; omega
  obtain ⟨u, E, S, E', S', eu, hu⟩ := init_ok hh hhb h74 h1 h2 h3 hins
  have hfmt : format file = 0 ∨ (2 ≤ format file ∧ format file ≤ 9) := by
    unfold planesOf at h4
    split at h4
    · omega
    · split at h4
      · omega
      · split at h4
        · omega
        · split at h4
          · omega
          · exact absurd h4 (by simp)
  have hwl : width file < 2 ^ 16 := be_lt file _ 2
  have hhl : height file < 2 ^ 16 := be_lt file _ 2
  have hnx : blocksX file < 2 ^ 15 := blocksOf_lt hwl
  have hnx0 : 0 < blocksX file := blocksOf_pos _
  have hny0 : 0 < blocksY file := blocksOf_pos _
  generalize hB : (if format file = 0 ∨ format file = 9 then 8 else 16) = B
  have hBB : B = 8 ∨ B = 16 := by split at hB <;> omega
  have hT : blocksY file * blocksX file ≤ faces file * blocksY file * blocksX file := by
    rw [Nat.mul_assoc]; exact Nat.le_mul_of_pos_left _ hf
  have hT2 : B * blocksX file * blocksY file = B * (blocksY file * blocksX file) := by
    rw [Nat.mul_assoc, Nat.mul_comm (blocksX file)]
  have hTp : 0 < blocksY file * blocksX file := Nat.mul_pos hny0 hnx0
  have hbits : ∀ n, n < 2 ^ 16 → shrU 32 n 0 = .ok n := fun n _ => by
    rw [shrU_ok (by omega)]; rfl
  have hofs : u.header.levelOfs[0]? = some (levelOfs file 0) := by
    rw [hu.header]
    show ((List.range (levels file)).map (levelOfs file))[0]? = _
    rw [List.getElem?_map, List.getElem?_range hlv]; rfl
  have hnext : nextLevelOfs u 0 = .ok (levelEnd file) := by
    unfold nextLevelOfs levelEnd
    rw [addU_ok (by omega), Out.ok_bind]
    have hlvs : u.header.levels = levels file := by rw [hu.header]; rfl
    rw [hlvs]
    by_cases hl1 : 1 < levels file
    · refine (if_pos hl1).trans ?_
      rw [if_pos hl1]
      apply idx_of_some
      rw [hu.header]
      show ((List.range (levels file)).map (levelOfs file))[0 + 1]? = _
      rw [List.getElem?_map, List.getElem?_range hl1]; rfl
    · refine (if_neg hl1).trans ?_
      rw [if_neg hl1, hu.size]; rfl
  have hunpack : Safe (fun l => l.length = B * (faces file * blocksY file * blocksX file))
      (unpackLevel u (B * blocksX file * blocksY file) (blocksX file * B) 0) := by
    unfold unpackLevel
    rw [if_neg (by rw [hT2]; rcases hBB with rfl | rfl <;> omega), idx_of_some hofs, Res.lift_ok,
      Res.ok_bind, hnext, Res.lift_ok, Res.ok_bind]
    by_cases hle : levelEnd file ≤ levelOfs file 0
    · rw [if_pos hle]; trivial
    · obtain ⟨c, ec, hc, _⟩ := start_ok (buf := file.drop (levelOfs file 0))
        (size := levelEnd file - levelOfs file 0) (by omega) (by rw [List.length_drop]; omega)
      rw [if_neg hle, hu.data, sliceFrom_ok (by omega), Res.lift_ok, Res.ok_bind, subU_ok (by omega),
        Res.lift_ok, Res.ok_bind]
      exact unpackLevel2_safe hu h4 hB.symm hf hshape hbig henc hcl ec
        ⟨hc.cnt, hc.next, hc.ready, hc.last, by
          obtain ⟨V, a, b, _⟩ := hc.bits
          exact ⟨V, a, b, List.nil_prefix⟩⟩
  refine ⟨?_, hfmt⟩
  unfold crunchUnpackLevel
  rw [show asU 32 file.length = file.length from Nat.mod_eq_of_lt hsmall,
    textureInfo_ok h74 rfl hhb hh (by omega), Res.lift_ok, Res.ok_bind]
  simp only
  rw [if_neg (by simp)]
  unfold unpackBegin
  rw [if_neg (by omega), eu, Res.orErr_ok, Res.ok_bind, hbits _ hwl, Res.lift_ok, Res.ok_bind,
    hbits _ hhl, Res.lift_ok, Res.ok_bind, addU_ok (by omega), Res.lift_ok, Res.ok_bind,
    addU_ok (by omega), Res.lift_ok, Res.ok_bind, bytesPerDxtBlock_ok hfmt, hB, Res.ok_bind]
  rw [Nat.max_comm 1 (width file), Nat.max_comm 1 (height file), blocksOf_shift, blocksOf_shift,
    show blocksOf (width file) = blocksX file from rfl, show blocksOf (height file) = blocksY file from rfl,
    Nat.max_eq_right (show 1 ≤ blocksX file from hnx0), Nat.max_eq_right (show 1 ≤ blocksY file from hny0)]
  rw [mulU_ok (by rcases hBB with rfl | rfl <;> omega), Res.lift_ok, Res.ok_bind,
    mulU_ok (by
      rw [Nat.mul_comm (blocksX file) B, hT2]
      rcases hBB with rfl | rfl <;> omega), Res.lift_ok, Res.ok_bind]
  rw [show blocksX file * B * blocksY file = B * blocksX file * blocksY file by
    rw [Nat.mul_comm (blocksX file) B]]
  refine Safe.bind hunpack (fun l hl => ⟨rfl, ?_⟩)
  show l.length < _
  rw [hl]
  rcases hBB with rfl | rfl <;> omega

end Verif.Proofs.Crn
