import Verif.Spec.CrnStream
import Verif.Proofs.Crn.Read

/-!
# Reading prefix codes: the decoder against the specification
-/

namespace Verif.Proofs.Crn

open Verif Verif.Model.Crn Verif.Spec.Crn

variable [Build]

/-! ## Readers -/

omit [Build] in
theorem reader_bind {α β : Type} {r : Reader α} {f : α → Reader β} {bits rest : List Bool} {b : β} :
    (r >>= f) bits = some (b, rest) ↔
      ∃ a mid, r bits = some (a, mid) ∧ f a mid = some (b, rest) := by
  show (r bits >>= fun p => f p.1 p.2) = _ ↔ _
  simp only [Option.bind_eq_bind, Option.bind_eq_some_iff, Prod.exists]

omit [Build] in
theorem reader_pure {α : Type} {a b : α} {bits rest : List Bool} :
    (pure a : Reader α) bits = some (b, rest) ↔ a = b ∧ bits = rest := by
  show some (a, bits) = some (b, rest) ↔ _
  simp

omit [Build] in
theorem reader_require {p : Prop} [Decidable p] {u : Unit} {bits rest : List Bool} :
    require p bits = some (u, rest) ↔ p ∧ bits = rest := by
  unfold require
  by_cases h : p <;> simp [h]

omit [Build] in
theorem require_bind {β : Type} {p : Prop} [Decidable p] {f : Unit → Reader β}
    {bits rest : List Bool} {b : β} :
    (require p >>= f) bits = some (b, rest) ↔ p ∧ f () bits = some (b, rest) := by
  rw [reader_bind]
  constructor
  · rintro ⟨u, mid, h1, h2⟩
    obtain ⟨hp, rfl⟩ := reader_require.mp h1
    exact ⟨hp, h2⟩
  · rintro ⟨hp, h⟩
    exact ⟨(), bits, reader_require.mpr ⟨hp, rfl⟩, h⟩

/-- The codec reads the given buffer and has the given bits in front of it. -/
structure At (buf : List UInt8) (last : Nat) (c : Codec) (bits : List Bool) : Prop where
  st : St c bits
  hbuf : c.buf = buf
  hlast : c.last = last

variable {buf : List UInt8} {last : Nat}

theorem at_number {n v : Nat} {bits rest : List Bool} {c : Codec} (hn : n ≤ 16)
    (hl : last + 1 < buf.length) (h : number n bits = some (v, rest)) (hc : At buf last c bits) :
    ∃ c', c.decodeBits n = .ok (v, c') ∧ At buf last c' rest ∧ v < 2 ^ n := by
  obtain ⟨hst, rfl, rfl⟩ := hc
  unfold number at h
  split at h
  · rename_i hb
    obtain ⟨rfl, rfl⟩ : ofBits (bits.take n) = v ∧ bits.drop n = rest := by simpa using h
    have hlen : (bits.take n).length = n := by rw [List.length_take]; omega
    rw [← List.take_append_drop n bits] at hst
    obtain ⟨c', e, h1, h2, h3⟩ := decodeBits_ok (by omega) hst hl
    rw [hlen] at e
    refine ⟨c', e, ⟨h1, h2, h3⟩, ?_⟩
    have := ofBits_lt (bits.take n)
    rwa [hlen] at this
  · exact absurd h (by simp)

theorem at_symbol {lens : List Nat} {m : DataModel} (hm : TablesOk lens m) {s : Nat}
    {bits rest : List Bool} {c : Codec} (h : symbol lens bits = some (s, rest))
    (hc : At buf last c bits) :
    ∃ c', c.decode m = .ok (s, c') ∧ At buf last c' rest ∧ s < lens.length ∧ s < 8192 := by
  obtain ⟨hst, rfl, rfl⟩ := hc
  obtain ⟨c', e, h1, h2, h3, _⟩ := decode_read hm h hst
  have := (readSymbol_some h).1
  have := hm.lensOk.len
  exact ⟨c', e, ⟨h1, h2, h3⟩, by omega, by omega⟩

/-! ## The code of the lengths -/

omit [Build] in
theorem order_nodup : lengthOrder.Nodup := by decide

omit [Build] in
theorem order_lt {i : Nat} (h : i < 21) : ∃ s, s < 21 ∧ lengthOrder[i]? = some s ∧
    lengthOrder.idxOf s = i := by
  have key : ∀ i : Fin 21, ∃ s : Fin 21, lengthOrder[i.val]? = some s.val ∧
    lengthOrder.idxOf s.val = i.val := by decide +kernel
  obtain ⟨s, h1, h2⟩ := key ⟨i, h⟩
  exact ⟨s.val, s.isLt, h1, h2⟩

omit [Build] in
theorem order_idx {s : Nat} (h : s < 21) :
    lengthOrder[lengthOrder.idxOf s]? = some s := by
  have key : ∀ s : Fin 21, lengthOrder[lengthOrder.idxOf s.val]? = some s.val := by decide +kernel
  exact key ⟨s, h⟩

omit [Build] in
theorem lengthCode_push (ls : List Nat) (v : Nat) {s : Nat} (hs : s < 21)
    (h : lengthOrder[ls.length]? = some s) :
    (lengthCode ls).set s v = lengthCode (ls ++ [v]) := by
  unfold lengthCode
  apply map_range_set
  · have : lengthOrder.idxOf s = ls.length := by
      have hl : ls.length < 21 := by
        have := (List.getElem?_eq_some_iff.mp h).1
        simpa [lengthOrder] using this
      obtain ⟨s', _, h1, h2⟩ := order_lt hl
      rw [h] at h1
      obtain rfl : s = s' := by simpa using h1
      exact h2
    simp only [this]
    simp
  · intro j hj hne
    have hx : lengthOrder.idxOf j ≠ ls.length := by
      intro e
      have := order_idx hj
      rw [e, h] at this
      exact hne (by simpa using this.symm)
    simp only [List.getD_eq_getElem?_getD]
    rcases Nat.lt_trichotomy (lengthOrder.idxOf j) ls.length with hlt | heq | hgt
    · rw [List.getElem?_append_left hlt]
    · exact absurd heq hx
    · have h2 : (ls ++ [v]).length ≤ lengthOrder.idxOf j := by
        rw [List.length_append, List.length_singleton]; omega
      rw [List.getElem?_eq_none h2, List.getElem?_eq_none (by omega)]

theorem readLengthCodes_aux (hl : last + 1 < buf.length) (codes : List Nat) :
    ∀ {pre ls : List Nat} {bits rest : List Bool} {c : Codec},
      (∀ i s, codes[i]? = some s → s < 21 ∧ lengthOrder[pre.length + i]? = some s) →
      many (number 3) codes.length bits = some (ls, rest) → At buf last c bits →
      ∃ c', Res.forList codes (fun code (s : List Nat × Codec) => do
          let (sizes, c) := s
          let (v, c) ← c.decodeBits 3
          let sizes ← setIdx sizes code (asU 8 v)
          pure (sizes, c)) (lengthCode pre, c) = .ok (lengthCode (pre ++ ls), c') ∧
        At buf last c' rest ∧ ∀ v ∈ ls, v < 8 := by
  induction codes with
  | nil =>
    intro pre ls bits rest c _ h hc
    obtain ⟨rfl, rfl⟩ := reader_pure.mp h
    exact ⟨c, by simp [Res.forList], hc, by simp⟩
  | cons s codes ih =>
    intro pre ls bits rest c hs h hc
    unfold many at h
    obtain ⟨v, b1, h1, h⟩ := reader_bind.mp h
    obtain ⟨l, b2, h2, h⟩ := reader_bind.mp h
    obtain ⟨rfl, rfl⟩ := reader_pure.mp h
    obtain ⟨c1, e1, hc1, hv⟩ := at_number (by omega) hl h1 hc
    obtain ⟨hs21, hso⟩ := hs 0 s rfl
    have hv8 : asU 8 v = v := by unfold asU; omega
    obtain ⟨c2, e2, hc2, hl2⟩ := ih (pre := pre ++ [v]) (fun i t ht => by
      have := hs (i + 1) t (by simpa using ht)
      simpa [Nat.add_assoc, Nat.add_comm 1 i] using this) h2 hc1
    refine ⟨c2, ?_, hc2, ?_⟩
    · unfold Res.forList
      simp only [e1, Res.ok_bind, hv8]
      rw [setIdx_ok (by simpa [lengthCode] using hs21), Res.lift_ok, Res.ok_bind,
        lengthCode_push pre v hs21 (by simpa using hso), Res.pure_eq, Res.ok_bind, e2]
      simp
    · intro w hw
      rcases List.mem_cons.mp hw with rfl | hw
      · omega
      · exact hl2 w hw

theorem readLengthCodes_ok (hl : last + 1 < buf.length) {n : Nat} (hn : n ≤ 21) {ls : List Nat}
    {bits rest : List Bool} {c : Codec} (h : many (number 3) n bits = some (ls, rest))
    (hc : At buf last c bits) :
    ∃ c', readLengthCodes c n = .ok (lengthCode ls, c') ∧ At buf last c' rest ∧
      LensOk (lengthCode ls) := by
  have hlen : (mostProbable.take n).length = n := by
    rw [List.length_take, show mostProbable.length = 21 from rfl]; omega
  obtain ⟨c', e, h1, h2⟩ := readLengthCodes_aux hl (mostProbable.take n) (pre := []) (ls := ls)
    (bits := bits) (rest := rest) (c := c) (by
      intro i s hs
      rw [List.getElem?_take] at hs
      split at hs
      · rename_i hi
        obtain ⟨s', hs', h1, _⟩ := order_lt (show i < 21 by omega)
        have h1' : mostProbable[i]? = some s' := h1
        rw [h1'] at hs
        obtain rfl : s' = s := by simpa using hs
        refine ⟨hs', ?_⟩
        rw [List.length_nil, Nat.zero_add]
        exact h1
      · exact absurd hs (by simp)) (by rw [hlen]; exact h) hc
  refine ⟨c', ?_, h1, ⟨by simp [lengthCode], by simp [lengthCode], ?_⟩⟩
  · unfold readLengthCodes
    have h0 : lengthCode [] = List.replicate 21 0 := by decide
    rw [← h0]
    exact e
  · intro l hl
    obtain ⟨s, _, rfl⟩ := List.mem_map.mp hl
    rw [List.getD_eq_getElem?_getD]
    cases hg : ls[lengthOrder.idxOf s]? with
    | none => simp
    | some v =>
      have := h2 v (List.mem_of_getElem? hg)
      simp only [Option.getD_some]
      omega

/-! ## The lengths -/

omit [Build] in
/-- The array of lengths while it is filled. -/
theorem fill_sizes {l : List Nat} {total v : Nat} (h : l.length < total) :
    (l ++ List.replicate (total - l.length) 0).set l.length v
      = (l ++ [v]) ++ List.replicate (total - (l ++ [v]).length) 0 := by
  rw [List.set_append_right _ _ (by omega), Nat.sub_self]
  obtain ⟨k, hk⟩ : ∃ k, total - l.length = k + 1 := ⟨total - l.length - 1, by omega⟩
  rw [hk, show total - (l ++ [v]).length = k by simp; omega, List.replicate_succ, List.set_cons_zero]
  simp

omit [Build] in
theorem repeatSize_ok {l : List Nat} {total len prev : Nat} (h : l.length + len ≤ total) :
    repeatSize (l ++ List.replicate (total - l.length) 0) l.length len prev
      = .ok ((l ++ List.replicate len prev)
          ++ List.replicate (total - (l ++ List.replicate len prev).length) 0) := by
  unfold repeatSize
  obtain ⟨s, e, p⟩ := Res.forRange_inv (n := len)
    (f := fun i (sizes : List Nat) => (setIdx sizes (l.length + i) prev : Res (List Nat)))
    (s := l ++ List.replicate (total - l.length) 0)
    (fun i s => s = (l ++ List.replicate i prev)
      ++ List.replicate (total - (l ++ List.replicate i prev).length) 0) (by simp) (by
      intro i hi s hs
      subst hs
      refine ⟨_, ?_, rfl⟩
      rw [setIdx_ok (by simp; omega), Res.lift_ok]
      have hf := fill_sizes (l := l ++ List.replicate i prev) (total := total) (v := prev)
        (by simp; omega)
      rw [show l.length + i = (l ++ List.replicate i prev).length by simp, hf]
      simp [List.replicate_succ', List.append_assoc])
  rw [e, p]

theorem lengthStep_ok (hl : last + 1 < buf.length) {code : List Nat} {dm : DataModel}
    (hm : TablesOk code dm) (hcode : code.length = 21) {total : Nat} {l run : List Nat}
    {bits rest : List Bool} {c : Codec} (hlt : l.length < total)
    (h : lengthRun code l bits = some (run, rest)) (hrun : l.length + run.length ≤ total)
    (hc : At buf last c bits) :
    ∃ c', lengthStep dm total (l.length, l ++ List.replicate (total - l.length) 0, c)
        = .ok ((l ++ run).length, (l ++ run) ++ List.replicate (total - (l ++ run).length) 0, c') ∧
      At buf last c' rest ∧ 0 < run.length ∧ ((∀ v ∈ l, v ≤ 16) → ∀ v ∈ run, v ≤ 16) := by
  unfold lengthRun at h
  obtain ⟨s, b1, h1, h⟩ := reader_bind.mp h
  obtain ⟨c1, e1, hc1, hs, _⟩ := at_symbol hm h1 hc
  unfold lengthStep
  simp only [e1, Res.ok_bind]
  have zeros : ∀ n : Nat, (l ++ List.replicate n 0)
      ++ List.replicate (total - (l ++ List.replicate n (0 : Nat)).length) 0
      = l ++ List.replicate (n + (total - (l.length + n))) 0 := by
    intro n
    rw [List.append_assoc, List.replicate_append_replicate]
    simp
  by_cases h16 : s ≤ 16
  · rw [if_pos h16] at h
    rw [if_pos h16]
    obtain ⟨rfl, rfl⟩ := reader_pure.mp h
    have : asU 8 s = s := by unfold asU; omega
    rw [setIdx_ok (by simp; omega), Res.lift_ok, Res.ok_bind, this, fill_sizes hlt]
    exact ⟨c1, by simp, hc1, by simp, fun _ v hv => by
      rw [List.mem_singleton.mp hv]; exact h16⟩
  · rw [if_neg h16] at h
    rw [if_neg h16]
    by_cases h17 : s = 17
    · rw [if_pos h17] at h
      rw [if_pos h17]
      obtain ⟨n, b2, h2, h⟩ := reader_bind.mp h
      obtain ⟨rfl, rfl⟩ := reader_pure.mp h
      obtain ⟨c2, e2, hc2, _⟩ := at_number (by omega) hl h2 hc1
      simp only [e2, Res.ok_bind]
      simp only [List.length_replicate] at hrun
      rw [if_neg (by omega)]
      refine ⟨c2, ?_, hc2, by simp, fun _ v hv => by rw [(List.mem_replicate.mp hv).2]; omega⟩
      rw [zeros, show n + 3 + (total - (l.length + (n + 3))) = total - l.length by omega]
      simp
    · rw [if_neg h17] at h
      rw [if_neg h17]
      by_cases h18 : s = 18
      · rw [if_pos h18] at h
        rw [if_pos h18]
        obtain ⟨n, b2, h2, h⟩ := reader_bind.mp h
        obtain ⟨rfl, rfl⟩ := reader_pure.mp h
        obtain ⟨c2, e2, hc2, _⟩ := at_number (by omega) hl h2 hc1
        simp only [e2, Res.ok_bind]
        simp only [List.length_replicate] at hrun
        rw [if_neg (by omega)]
        refine ⟨c2, ?_, hc2, by simp, fun _ v hv => by rw [(List.mem_replicate.mp hv).2]; omega⟩
        rw [zeros, show n + 11 + (total - (l.length + (n + 11))) = total - l.length by omega]
        simp
      · rw [if_neg h18] at h
        rw [if_neg h18, if_pos (show s = 19 ∨ s = 20 by omega)]
        obtain ⟨hne, h⟩ := require_bind.mp h
        obtain ⟨n, b2, h2, h⟩ := reader_bind.mp h
        obtain ⟨rfl, rfl⟩ := reader_pure.mp h
        have hnum : ∃ c2, (if s = 19 then c1.decodeBits 2 else c1.decodeBits 6) = .ok (n, c2) ∧
            At buf last c2 b2 := by
          by_cases h19 : s = 19
          · rw [if_pos h19] at h2
            rw [if_pos h19]
            obtain ⟨c2, e2, hc2, _⟩ := at_number (by omega) hl h2 hc1
            exact ⟨c2, e2, hc2⟩
          · rw [if_neg h19] at h2
            rw [if_neg h19]
            obtain ⟨c2, e2, hc2, _⟩ := at_number (by omega) hl h2 hc1
            exact ⟨c2, e2, hc2⟩
        obtain ⟨c2, e2, hc2⟩ := hnum
        simp only [e2, Res.ok_bind]
        have hlen : (if s = 19 then n + 3 else n + 7) = n + if s = 19 then 3 else 7 := by
          by_cases h19 : s = 19
          · rw [if_pos h19, if_pos h19]
          · rw [if_neg h19, if_neg h19]
        rw [hlen]
        generalize hk : (n + if s = 19 then 3 else 7) = k at hrun
        have hkpos : 0 < k := by
          by_cases h19 : s = 19
          · rw [if_pos h19] at hk; omega
          · rw [if_neg h19] at hk; omega
        simp only [List.length_replicate] at hrun
        have hl0 : l ≠ [] := by
          intro h0; subst h0; exact hne rfl
        have hlpos : 0 < l.length := List.length_pos_iff.mpr hl0
        have hlastget : (l ++ List.replicate (total - l.length) 0)[l.length - 1]?
            = some (l.getLastD 0) := by
          rw [List.getElem?_append_left (by omega), ← List.getLast?_eq_getElem?]
          rw [List.getLast?_eq_some_getLast hl0, List.getLastD_eq_getLast?,
            List.getLast?_eq_some_getLast hl0]
          rfl
        rw [if_neg (by omega), idx_of_some hlastget, Res.lift_ok, Res.ok_bind, if_neg hne,
          repeatSize_ok hrun, Res.ok_bind]
        refine ⟨c2, by simp, hc2, by simpa using hkpos, fun hle v hv => ?_⟩
        rw [(List.mem_replicate.mp hv).2]
        apply hle
        rw [List.getLastD_eq_getLast?, List.getLast?_eq_some_getLast hl0]
        exact List.getLast_mem hl0

theorem lengthLoop_ok (hl : last + 1 < buf.length) {code : List Nat} {dm : DataModel}
    (hm : TablesOk code dm) (hcode : code.length = 21) {total : Nat} :
    ∀ (n : Nat) {l lens : List Nat} {bits rest : List Bool} {c : Codec}, l.length ≤ total →
      (∀ v ∈ l, v ≤ 16) → lengthRuns code total n l bits = some (lens, rest) →
      At buf last c bits →
      ∃ c', lengthLoop dm total n (l.length, l ++ List.replicate (total - l.length) 0, c)
          = .ok (lens, c') ∧ At buf last c' rest ∧ lens.length = total ∧ ∀ v ∈ lens, v ≤ 16 := by
  intro n
  induction n with
  | zero =>
    intro l lens bits rest c _ h16 h hc
    unfold lengthRuns at h
    obtain ⟨ht, h⟩ := require_bind.mp h
    obtain ⟨rfl, rfl⟩ := reader_pure.mp h
    refine ⟨c, ?_, hc, ht, h16⟩
    rw [ht, Nat.sub_self]
    simp [lengthLoop]
  | succ n ih =>
    intro l lens bits rest c hle h16 h hc
    unfold lengthRuns at h
    unfold lengthLoop
    by_cases ht : l.length = total
    · rw [if_pos ht] at h
      obtain ⟨rfl, rfl⟩ := reader_pure.mp h
      refine ⟨c, ?_, hc, ht, h16⟩
      rw [if_neg (by simp only; omega), ht, Nat.sub_self]
      simp
    · rw [if_neg ht] at h
      obtain ⟨run, b1, h1, h⟩ := reader_bind.mp h
      obtain ⟨hr, h⟩ := require_bind.mp h
      obtain ⟨c1, e1, hc1, _, h161⟩ := lengthStep_ok hl hm hcode (by omega) h1 hr hc
      rw [if_pos (by simp only; omega), e1, Res.ok_bind]
      refine ih (by simpa using hr) ?_ h hc1
      intro v hv
      rcases List.mem_append.mp hv with hv | hv
      · exact h16 v hv
      · exact h161 h16 v hv

/-- Receiving a prefix code. -/
theorem receiveModel_ok (hl : last + 1 < buf.length) {lens : List Nat} {bits rest : List Bool}
    {c : Codec} (h : prefixCode bits = some (lens, rest)) (hc : At buf last c bits) :
    ∃ m c', c.receiveModel = .ok (m, c') ∧ TablesOk lens m ∧ At buf last c' rest := by
  unfold prefixCode at h
  obtain ⟨total, b1, h1, h⟩ := reader_bind.mp h
  obtain ⟨htot, h⟩ := require_bind.mp h
  obtain ⟨n, b2, h2, h⟩ := reader_bind.mp h
  obtain ⟨hn, h⟩ := require_bind.mp h
  obtain ⟨ls, b3, h3, h⟩ := reader_bind.mp h
  obtain ⟨hk1, h⟩ := require_bind.mp h
  obtain ⟨lens', b4, h4, h⟩ := reader_bind.mp h
  obtain ⟨hk2, h⟩ := require_bind.mp h
  obtain ⟨rfl, rfl⟩ := reader_pure.mp h
  obtain ⟨c1, e1, hc1, _⟩ := at_number (by omega) hl h1 hc
  obtain ⟨c2, e2, hc2, _⟩ := at_number (by omega) hl h2 hc1
  obtain ⟨c3, e3, hc3, hok⟩ := readLengthCodes_ok hl hn.2 h3 hc2
  obtain ⟨dm, e4, hdm, _⟩ := prepare_ok hok (kraft_fits hk1)
  obtain ⟨c5, e5, hc5, hlen, h16⟩ := lengthLoop_ok hl hdm (by simp [lengthCode]) total
    (l := []) (by simp) (by simp) h4 hc3
  obtain ⟨m, e6, hm, _⟩ := prepare_ok ⟨by omega, by omega, h16⟩ (kraft_fits hk2)
  have ht : totalBits 8192 = 14 := by decide
  refine ⟨m, c5, ?_, hm, hc5⟩
  unfold Codec.receiveModel
  simp only [ht, e1, e2, Res.ok_bind]
  rw [if_neg (by omega)]
  simp only [e3, e4, Res.ok_bind]
  have e5' : lengthLoop dm total total (0, List.replicate total 0, c3) = .ok (lens', c5) := by
    simpa using e5
  simp only [e5', e6, Res.ok_bind, Res.pure_eq]

end Verif.Proofs.Crn
