import Verif.Spec.Loop
import Verif.Model.LoopBodies

/-! # The unbounded loops end -/

namespace Verif.Proofs.Termination

open Verif Verif.Model Verif.Spec

/-- A loop has at most one outcome. -/
theorem LoopEnds.unique {σ β : Type} {body : σ → Res (σ ⊕ β)} {s : σ} {r r' : Res β}
    (h : LoopEnds body s r) (h' : LoopEnds body s r') : r = r' := by
  induction h with
  | leave h => cases h' <;> simp_all
  | fail h => cases h' <;> simp_all
  | panic h => cases h' <;> simp_all
  | next h _ ih =>
    cases h' with
    | next h2 hr2 =>
      rw [h] at h2
      cases h2
      exact ih hr2
    | _ => simp_all

variable [Build]

theorem morton_ends {x y minDim : Nat} (n : Nat) {a s m : Nat} (hm : m = 2 ^ s)
    (hn : 64 ≤ s + n) (hs : s ≤ 63) (hd : minDim ≤ 2 ^ 63) :
    LoopEnds (mortonBody 64 x y minDim) (a, s, m) (liftM (mortonLoop x y minDim n (a, s, m))) := by
  induction n generalizing a s m with
  | zero => omega
  | succ n ih =>
    unfold mortonLoop
    by_cases h : m < minDim
    · have h63 : s < 63 := by
        rcases Nat.lt_or_ge s 63 with h1 | h1
        · exact h1
        · have : s = 63 := by omega
          subst this
          omega
      have hp : (2 : Nat) ^ (s + 1) ≤ 2 ^ 63 := Nat.pow_le_pow_right (by omega) (by omega)
      rw [if_pos h, shlU_ok (by omega), Out.ok_bind, shlU_ok (by omega), Out.ok_bind,
        shlU_ok (by omega), Out.ok_bind, addU_ok (by omega), Out.ok_bind]
      refine .next ?_ (ih (s := s + 1) (by
        rw [hm, Nat.shiftLeft_eq, Nat.pow_one, ← Nat.pow_succ, Nat.mod_eq_of_lt (by omega)])
        (by omega) (by omega))
      unfold mortonBody
      simp only
      rw [if_pos h, shlU_ok (by omega), Res.lift_ok, Res.ok_bind, shlU_ok (by omega), Res.lift_ok,
        Res.ok_bind, shlU_ok (by omega), Res.lift_ok, Res.ok_bind, addU_ok (by omega), Res.lift_ok,
        Res.ok_bind, Res.pure_eq]
    · rw [if_neg h]
      refine .leave ?_
      unfold mortonBody
      rw [if_neg h]
      rfl

theorem morton32_ends {x y minDim : Nat} (n : Nat) {a s m : Nat} (hm : m = 2 ^ s)
    (hn : 32 ≤ s + n) (hs : s ≤ 31) (hd : minDim ≤ 2 ^ 31) :
    LoopEnds (mortonBody 32 x y minDim) (a, s, m) (liftM (mortonLoop32 x y minDim n (a, s, m))) := by
  induction n generalizing a s m with
  | zero => omega
  | succ n ih =>
    unfold mortonLoop32
    by_cases h : m < minDim
    · have h31 : s < 31 := by
        rcases Nat.lt_or_ge s 31 with h1 | h1
        · exact h1
        · have : s = 31 := by omega
          subst this
          omega
      have hp : (2 : Nat) ^ (s + 1) ≤ 2 ^ 31 := Nat.pow_le_pow_right (by omega) (by omega)
      rw [if_pos h, shlU_ok (by omega), Out.ok_bind, shlU_ok (by omega), Out.ok_bind,
        shlU_ok (by omega), Out.ok_bind, addU_ok (by omega), Out.ok_bind]
      refine .next ?_ (ih (s := s + 1) (by
        rw [hm, Nat.shiftLeft_eq, Nat.pow_one, ← Nat.pow_succ, Nat.mod_eq_of_lt (by omega)])
        (by omega) (by omega))
      unfold mortonBody
      simp only
      rw [if_pos h, shlU_ok (by omega), Res.lift_ok, Res.ok_bind, shlU_ok (by omega), Res.lift_ok,
        Res.ok_bind, shlU_ok (by omega), Res.lift_ok, Res.ok_bind, addU_ok (by omega), Res.lift_ok,
        Res.ok_bind, Res.pure_eq]
    · rw [if_neg h]
      refine .leave ?_
      unfold mortonBody
      rw [if_neg h]
      rfl

theorem bc7Mode_ends {data : List UInt8} (n : Nat) {mode pos : Nat} (hm : mode ≤ 8)
    (hn : 9 ≤ mode + n) :
    LoopEnds (bc7ModeBody data) (mode, pos) (liftM (bc7Mode data n mode pos)) := by
  induction n generalizing mode pos with
  | zero => omega
  | succ n ih =>
    unfold bc7Mode
    cases e : readBits data pos 1 with
    | panic =>
      refine .panic ?_
      unfold bc7ModeBody
      simp only
      rw [e]
      rfl
    | ok r =>
      obtain ⟨b, p⟩ := r
      rw [Out.ok_bind]
      simp only
      by_cases h : b = 0 ∧ mode < 8
      · rw [if_pos h]
        refine .next ?_ (ih (by omega) (by omega))
        unfold bc7ModeBody
        simp only
        rw [e, Res.lift_ok, Res.ok_bind]
        simp only
        rw [if_pos h, addU_ok (by omega), Res.lift_ok, Res.ok_bind, Res.pure_eq]
      · rw [if_neg h]
        refine .leave ?_
        unfold bc7ModeBody
        simp only
        rw [e, Res.lift_ok, Res.ok_bind]
        simp only
        rw [if_neg h, Res.pure_eq]

theorem fill_ends {numBits : Nat} (n : Nat) {c : Crn.Codec} (hn : 48 ≤ c.bitCount + 8 * n)
    (hc : 0 < n) :
    LoopEnds (Crn.fillBody numBits) c (c.fill numBits n) := by
  induction n generalizing c with
  | zero => omega
  | succ n ih =>
    unfold Crn.Codec.fill
    by_cases h : c.bitCount < numBits
    · rw [if_pos h]
      cases e : byte c.buf c.next with
      | panic =>
        refine .panic ?_
        unfold Crn.fillBody
        rw [if_pos h, e]
        rfl
      | ok b =>
        rw [Res.lift_ok, Res.ok_bind]
        simp only
        by_cases h2 : c.bitCount + 8 > 32
        · rw [if_pos h2]
          refine .fail ?_
          unfold Crn.fillBody
          rw [if_pos h, e, Res.lift_ok, Res.ok_bind]
          simp only
          rw [if_pos h2]
        · rw [if_neg h2]
          cases e3 : shlU 32 b (32 - (c.bitCount + 8)) with
          | panic =>
            refine .panic ?_
            unfold Crn.fillBody
            rw [if_pos h, e, Res.lift_ok, Res.ok_bind]
            simp only
            rw [if_neg h2, e3]
            rfl
          | ok v =>
            rw [Res.lift_ok, Res.ok_bind]
            refine .next ?_ (ih ?_ ?_)
            · unfold Crn.fillBody
              rw [if_pos h, e, Res.lift_ok, Res.ok_bind]
              simp only
              rw [if_neg h2, e3, Res.lift_ok, Res.ok_bind, Res.pure_eq]
            · simp only; omega
            · omega
    · rw [if_neg h]
      refine .leave ?_
      unfold Crn.fillBody
      rw [if_neg h]
      rfl

theorem findLen_ends {maxCodes : List Nat} {k : Nat} (hl : maxCodes.length ≤ 17) (n : Nat) {len : Nat}
    (hn : len = 0 ∨ 18 < len + n) (hn0 : 0 < n) :
    LoopEnds (Crn.findLenBody maxCodes k) len (Crn.findLen maxCodes k len n) := by
  induction n generalizing len with
  | zero => omega
  | succ n ih =>
    unfold Crn.findLen
    cases e : subU 32 len 1 with
    | panic =>
      refine .panic ?_
      unfold Crn.findLenBody
      rw [e]
      rfl
    | ok i =>
      rw [Res.lift_ok, Res.ok_bind]
      cases e2 : idx maxCodes i with
      | panic =>
        refine .panic ?_
        unfold Crn.findLenBody
        rw [e, Res.lift_ok, Res.ok_bind, e2]
        rfl
      | ok m =>
        have hi : i < maxCodes.length := by
          rcases Nat.lt_or_ge i maxCodes.length with h | h
          · exact h
          · rw [idx, List.getElem?_eq_none h] at e2
            cases e2
        have hlen1 : len ≤ 17 ∧ 0 < len := by
          rcases Nat.eq_zero_or_pos len with h0 | h0
          · subst h0
            unfold subU at e
            simp at e
            split at e
            · cases e
            · cases e
              omega
          · rw [subU_ok (by omega)] at e
            cases e
            omega
        rw [Res.lift_ok, Res.ok_bind]
        by_cases h : k ≤ m
        · rw [if_pos h]
          refine .leave ?_
          unfold Crn.findLenBody
          rw [e, Res.lift_ok, Res.ok_bind, e2, Res.lift_ok, Res.ok_bind, if_pos h]
          rfl
        · rw [if_neg h, addU_ok (by omega), Res.lift_ok, Res.ok_bind]
          refine .next ?_ (ih (by omega) (by omega))
          unfold Crn.findLenBody
          rw [e, Res.lift_ok, Res.ok_bind, e2, Res.lift_ok, Res.ok_bind, if_neg h, addU_ok (by omega),
            Res.lift_ok, Res.ok_bind]
          rfl

theorem lengthStep_advances {dm : Crn.DataModel} {total : Nat} {s s' : Nat × List Nat × Crn.Codec}
    (h : Crn.lengthStep dm total s = .ok s') : s.1 < s'.1 := by
  obtain ⟨ofs, sizes, c⟩ := s
  unfold Crn.lengthStep at h
  obtain ⟨⟨code, c1⟩, _, h⟩ := Res.bind_eq_ok.mp h
  simp only at h
  split at h
  · obtain ⟨l, _, h⟩ := Res.bind_eq_ok.mp h
    cases h
    exact Nat.lt_succ_self _
  split at h
  · obtain ⟨⟨v, c2⟩, _, h⟩ := Res.bind_eq_ok.mp h
    simp only at h
    split at h
    · cases h
    · cases h
      simp only
      omega
  split at h
  · obtain ⟨⟨v, c2⟩, _, h⟩ := Res.bind_eq_ok.mp h
    simp only at h
    split at h
    · cases h
    · cases h
      simp only
      omega
  split at h
  · obtain ⟨⟨v, c2⟩, _, h⟩ := Res.bind_eq_ok.mp h
    simp only at h
    generalize e : (if code = 19 then v + 3 else v + 7) = len at h
    have hl : 0 < len := by
      rw [← e]
      split <;> omega
    split at h
    · cases h
    · obtain ⟨prev, _, h⟩ := Res.bind_eq_ok.mp h
      split at h
      · cases h
      · obtain ⟨l, _, h⟩ := Res.bind_eq_ok.mp h
        cases h
        simp only
        omega
  · cases h

theorem length_ends {dm : Crn.DataModel} {total : Nat} (n : Nat)
    {s : Nat × List Nat × Crn.Codec} (hn : total ≤ s.1 + n) :
    LoopEnds (Crn.lengthBody dm total) s (Crn.lengthLoop dm total n s) := by
  induction n generalizing s with
  | zero =>
    refine .leave ?_
    unfold Crn.lengthBody
    rw [if_neg (by omega)]
    rfl
  | succ n ih =>
    unfold Crn.lengthLoop
    by_cases h : s.1 < total
    · rw [if_pos h]
      cases e : Crn.lengthStep dm total s with
      | panic =>
        refine .panic ?_
        unfold Crn.lengthBody
        rw [if_pos h, e]
        rfl
      | fail m =>
        refine .fail ?_
        unfold Crn.lengthBody
        rw [if_pos h, e]
        rfl
      | ok s' =>
        have := lengthStep_advances e
        rw [Res.ok_bind]
        refine .next ?_ (ih (by omega))
        unfold Crn.lengthBody
        rw [if_pos h, e]
        rfl
    · rw [if_neg h]
      refine .leave ?_
      unfold Crn.lengthBody
      rw [if_neg h]
      rfl

omit [Build] in
theorem setIdx_length {α : Type} {l l' : List α} {i : Nat} {a : α} (h : setIdx l i a = .ok l') :
    l'.length = l.length := by
  unfold setIdx at h
  split at h
  · cases h
    simp
  · cases h

theorem rangeStep_length {nc : List Nat} {i : Nat} {r r' : Crn.Ranges}
    (h : Crn.rangeStep nc i r = .ok r') : r'.maxCodes.length = r.maxCodes.length := by
  unfold Crn.rangeStep at h
  obtain ⟨n, _, h⟩ := Res.bind_eq_ok.mp h
  obtain ⟨r1, e1, h⟩ := Res.bind_eq_ok.mp h
  obtain ⟨cur, _, h⟩ := Res.bind_eq_ok.mp h
  cases h
  show r1.maxCodes.length = _
  split at e1
  · obtain ⟨l, e, e1⟩ := Res.bind_eq_ok.mp e1
    cases e1
    exact setIdx_length (Res.lift_eq_ok.mp e)
  · unfold Crn.codeRange at e1
    obtain ⟨_, _, e1⟩ := Res.bind_eq_ok.mp e1
    obtain ⟨_, _, e1⟩ := Res.bind_eq_ok.mp e1
    obtain ⟨_, _, e1⟩ := Res.bind_eq_ok.mp e1
    obtain ⟨_, _, e1⟩ := Res.bind_eq_ok.mp e1
    obtain ⟨_, _, e1⟩ := Res.bind_eq_ok.mp e1
    obtain ⟨_, _, e1⟩ := Res.bind_eq_ok.mp e1
    obtain ⟨_, _, e1⟩ := Res.bind_eq_ok.mp e1
    obtain ⟨l, e, e1⟩ := Res.bind_eq_ok.mp e1
    obtain ⟨_, _, e1⟩ := Res.bind_eq_ok.mp e1
    obtain ⟨_, _, e1⟩ := Res.bind_eq_ok.mp e1
    obtain ⟨_, _, e1⟩ := Res.bind_eq_ok.mp e1
    cases e1
    exact setIdx_length (Res.lift_eq_ok.mp e)

omit [Build] in
theorem forRange_keeps {σ : Type} {n : Nat} {f : Nat → σ → Res σ} {s s' : σ} (P : σ → Prop)
    (hstep : ∀ i s s', P s → f i s = .ok s' → P s') (h0 : P s)
    (h : Res.forRange n f s = .ok s') : P s' := by
  induction n generalizing s' with
  | zero => cases h; exact h0
  | succ n ih =>
    obtain ⟨s1, e1, e2⟩ := Res.bind_eq_ok.mp h
    exact hstep n s1 s' (ih e1) e2

/-- The array of upper bounds keeps its 17 entries. -/
theorem prepare_length {m m' : Crn.DataModel} (h : m.prepare = .ok m') :
    m'.tables.maxCodes.length = m.tables.maxCodes.length := by
  unfold Crn.DataModel.prepare at h
  simp only at h
  split at h
  · cases h
  obtain ⟨_, _, h⟩ := Res.bind_eq_ok.mp h
  obtain ⟨t, e, h⟩ := Res.bind_eq_ok.mp h
  cases h
  show t.maxCodes.length = _
  unfold Crn.Tables.init at e
  split at e
  · cases e
  obtain ⟨nc, _, e⟩ := Res.bind_eq_ok.mp e
  obtain ⟨r, er, e⟩ := Res.bind_eq_ok.mp e
  obtain ⟨_, _, e⟩ := Res.bind_eq_ok.mp e
  obtain ⟨_, _, e⟩ := Res.bind_eq_ok.mp e
  obtain ⟨_, _, e⟩ := Res.bind_eq_ok.mp e
  obtain ⟨_, _, e⟩ := Res.bind_eq_ok.mp e
  obtain ⟨l, el, e⟩ := Res.bind_eq_ok.mp e
  obtain ⟨_, _, e⟩ := Res.bind_eq_ok.mp e
  obtain ⟨_, _, e⟩ := Res.bind_eq_ok.mp e
  cases e
  show l.length = _
  rw [setIdx_length (Res.lift_eq_ok.mp el)]
  unfold Crn.codeRanges at er
  exact forRange_keeps (fun r => r.maxCodes.length = m.tables.maxCodes.length)
    (fun i s s' hs e => (rangeStep_length e).trans hs) rfl er

omit [Build] in
theorem lastUsed_ends {numCodes : List Nat} (i : Nat) :
    LoopEnds (Crn.lastUsedBody numCodes) i (Crn.lastUsed numCodes i) := by
  induction i with
  | zero => exact .leave rfl
  | succ i ih =>
    unfold Crn.lastUsed
    cases e : idx numCodes (i + 1) with
    | panic =>
      refine .panic ?_
      unfold Crn.lastUsedBody
      rw [if_pos (by omega), e]
      rfl
    | ok n =>
      rw [Res.lift_ok, Res.ok_bind]
      by_cases h : n ≠ 0
      · rw [if_pos h]
        refine .leave ?_
        unfold Crn.lastUsedBody
        rw [if_pos (by omega), e, Res.lift_ok, Res.ok_bind, if_pos h]
        rfl
      · rw [if_neg h]
        refine .next ?_ ih
        unfold Crn.lastUsedBody
        rw [if_pos (by omega), e, Res.lift_ok, Res.ok_bind, if_neg h]
        rfl

theorem totalBits_ends {v l : Nat} (h : l + Crn.totalBits v < 2 ^ 32) :
    LoopEnds Crn.totalBitsBody (v, l) (.ok (l + Crn.totalBits v)) := by
  induction v using Nat.strongRecOn generalizing l with
  | _ v ih =>
    by_cases h0 : v = 0
    · subst h0
      exact .leave rfl
    · have e : Crn.totalBits v = 1 + Crn.totalBits (v / 2) := by
        unfold Crn.totalBits
        rw [if_neg h0]
        split
        · rw [Nat.log2_def, if_neg (by omega)]
        · rw [Nat.log2_def, if_pos (by omega)]
          omega
      refine .next (s' := (v / 2, l + 1)) ?_ ?_
      · unfold Crn.totalBitsBody
        simp only
        rw [if_pos (by omega), addU_ok (by omega)]
        rfl
      · rw [e, ← Nat.add_assoc]
        exact ih (v / 2) (by omega) (by omega)

omit [Build] in
theorem forRange_front {σ : Type} (n : Nat) (f : Nat → σ → Res σ) (s : σ) :
    Res.forRange (n + 1) f s = (f 0 s >>= Res.forRange n (fun i => f (i + 1))) := by
  induction n with
  | zero =>
    show (f 0 s) = (f 0 s >>= fun s => .ok s)
    cases f 0 s <;> rfl
  | succ n ih =>
    show (Res.forRange (n + 1) f s >>= f (n + 1)) = _
    rw [ih]
    cases f 0 s <;> rfl

omit [Build] in
/-- A loop that counts in steps of `k` to `m * k`, from `j * k`. -/
theorem count_ends {σ : Type} {m k : Nat} {f : Nat → σ → Res σ} (hk : 0 < k) (d : Nat) {j : Nat}
    (hj : j + d = m) {s : σ} :
    LoopEnds (countBody (m * k) k f) (j * k, s)
      (Res.forRange d (fun i => f ((j + i) * k)) s) := by
  induction d generalizing j s with
  | zero =>
    refine .leave ?_
    unfold countBody
    obtain rfl : j = m := hj
    rw [if_neg (Nat.lt_irrefl _)]
    rfl
  | succ d ih =>
    have hlt : j * k < m * k := Nat.mul_lt_mul_of_pos_right (by omega) hk
    rw [forRange_front, Nat.add_zero]
    cases e : f (j * k) s with
    | panic =>
      refine .panic ?_
      unfold countBody
      simp only
      rw [if_pos hlt, e]
      rfl
    | fail msg =>
      refine .fail ?_
      unfold countBody
      simp only
      rw [if_pos hlt, e]
      rfl
    | ok s' =>
      rw [Res.ok_bind]
      have := ih (j := j + 1) (s := s') (by omega)
      rw [show (fun i => f ((j + (i + 1)) * k)) = fun i => f ((j + 1 + i) * k) by
        funext i; rw [Nat.add_assoc j 1 i, Nat.add_comm 1 i]]
      refine .next ?_ this
      unfold countBody
      simp only
      rw [if_pos hlt, e, Nat.succ_mul]
      rfl

end Verif.Proofs.Termination
