import Verif.Proofs.Crn.Lookup

/-!
# What `DecoderTables::init` computes
-/

namespace Verif.Proofs.Crn

open Verif Verif.Model.Crn Verif.Spec.Crn

variable [Build]

omit [Build] in
theorem M_unused (lens : List Nat) {i k : Nat} (hik : i ≤ k) (hk : k ≤ 16)
    (h : ∀ j, i < j → j ≤ k → lens.count j = 0) : M lens k = M lens i := by
  induction k with
  | zero => rw [show i = 0 by omega]
  | succ k ih =>
    rcases (show i = k + 1 ∨ i ≤ k by omega) with rfl | hi
    · rfl
    · rw [M_succ lens (by omega), h (k + 1) (by omega) (by omega), Nat.zero_mul, Nat.add_zero,
        ih hi (by omega) (fun j a b => h j a (by omega))]

omit [Build] in
theorem lastUsed_ok (lens : List Nat) {tb : Nat} (htb : tb ≤ 16) :
    ∃ i, lastUsed (NC lens) tb = .ok i ∧ i ≤ tb ∧ (i = 0 ∨ lens.count i ≠ 0) ∧
      ∀ j, i < j → j ≤ tb → lens.count j = 0 := by
  induction tb with
  | zero => exact ⟨0, rfl, by omega, Or.inl rfl, fun j a b => by omega⟩
  | succ tb ih =>
    unfold lastUsed
    rw [idx_of_some (NC_get lens (show tb + 1 < 17 by omega) (by omega)), Res.lift_ok, Res.ok_bind]
    by_cases hn : lens.count (tb + 1) = 0
    · obtain ⟨i, e, h1, h2, h3⟩ := ih (by omega)
      refine ⟨i, by rw [if_neg (by omega), e], by omega, h2, ?_⟩
      intro j a b
      rcases (show j = tb + 1 ∨ j ≤ tb by omega) with rfl | hj
      · exact hn
      · exact h3 j a hj
    · exact ⟨tb + 1, by rw [if_pos hn]; rfl, by omega, Or.inr hn, fun j a b => by omega⟩

omit [Build] in
theorem firstUsed_ok (lens : List Nat) (dflt : Nat) {j n : Nat} (hj : 0 < j) (h : j + n ≤ 17) :
    ∃ r, firstUsed (NC lens) dflt j n = .ok r ∧
      ((r = dflt ∧ ∀ i, j ≤ i → i < j + n → lens.count i = 0) ∨
       (j ≤ r ∧ r < j + n ∧ ∀ i, j ≤ i → i < r → lens.count i = 0)) := by
  induction n generalizing j with
  | zero => exact ⟨dflt, rfl, Or.inl ⟨rfl, fun i a b => by omega⟩⟩
  | succ n ih =>
    unfold firstUsed
    rw [idx_of_some (NC_get lens (show j < 17 by omega) hj), Res.lift_ok, Res.ok_bind]
    by_cases hn : lens.count j = 0
    · obtain ⟨r, e, hr⟩ := ih (j := j + 1) (by omega) (by omega)
      refine ⟨r, by rw [if_neg (by omega), e], ?_⟩
      rcases hr with ⟨h1, h2⟩ | ⟨h1, h2, h3⟩
      · refine Or.inl ⟨h1, fun i a b => ?_⟩
        rcases (show i = j ∨ j + 1 ≤ i by omega) with rfl | hi
        · exact hn
        · exact h2 i hi (by omega)
      · refine Or.inr ⟨by omega, by omega, fun i a b => ?_⟩
        rcases (show i = j ∨ j + 1 ≤ i by omega) with rfl | hi
        · exact hn
        · exact h3 i hi b
    · exact ⟨j, by rw [if_pos hn]; rfl, Or.inr ⟨by omega, by omega, fun i a b => by omega⟩⟩

/-- The shifted `val_ptrs`. -/
def valPtrsEnd (lens : List Nat) : List Int :=
  (List.range 17).map fun j =>
    if j < 16 ∧ lens.count (j + 1) ≠ 0 then (off lens (j + 1) : Int) - (2 * usedSpace lens j : Nat)
    else 0

theorem shiftValPtrs_ok {lens : List Nat} (h : LensOk lens) :
    shiftValPtrs (minCodesAt lens 16) (valPtrsAt lens 16) = .ok (valPtrsEnd lens) := by
  obtain ⟨v, e, hv⟩ := Res.forRange_inv (n := 16)
    (f := fun i (valPtrs : List Int) => (do
      let v ← idx valPtrs i
      let m ← idx (minCodesAt lens 16) i
      let v ← subI 32 v (asI 32 m)
      setIdx valPtrs i v : Res (List Int))) (s := valPtrsAt lens 16)
    (fun i v => v = (List.range 17).map fun j =>
      if j < 16 ∧ lens.count (j + 1) ≠ 0 then
        if j < i then (off lens (j + 1) : Int) - (2 * usedSpace lens j : Nat)
        else (off lens (j + 1) : Int)
      else 0)
    (by
      apply map_range_ext
      intro j _
      by_cases hj : j < 16 ∧ lens.count (j + 1) ≠ 0
      · rw [if_pos hj, if_pos hj, if_neg (by omega)]
      · rw [if_neg hj, if_neg hj])
    (by
      rintro i hi v rfl
      have hU := usedSpace_bound h (show i ≤ 16 by omega)
      have hoff := off_le lens (i + 1)
      have hlen := h.len
      rw [idx_of_some (map_range_get _ (by omega)), Res.lift_ok, Res.ok_bind]
      unfold minCodesAt
      rw [idx_of_some (map_range_get _ (by omega)), Res.lift_ok, Res.ok_bind]
      by_cases hn : lens.count (i + 1) = 0
      · rw [if_neg (by omega), if_neg (by omega), asI_small (by omega)]
        unfold subI
        rw [fitI_ok (by decide), Res.lift_ok, Res.ok_bind, setIdx_ok (by simp; omega), Res.lift_ok]
        refine ⟨_, rfl, ?_⟩
        apply map_range_set
        · rw [if_neg (by omega)]; rfl
        · intro j _ hj
          by_cases h2 : j < 16 ∧ lens.count (j + 1) ≠ 0
          · rw [if_pos h2, if_pos h2]
            by_cases h3 : j < i
            · rw [if_pos h3, if_pos (by omega)]
            · rw [if_neg h3, if_neg (by omega)]
          · rw [if_neg h2, if_neg h2]
      · rw [if_pos ⟨by omega, hn⟩, if_neg (by omega), if_pos ⟨by omega, hn⟩,
          asI_small (by omega)]
        unfold subI
        rw [fitI_ok (by unfold InI; omega), Res.lift_ok, Res.ok_bind,
          setIdx_ok (by simp; omega), Res.lift_ok]
        refine ⟨_, rfl, ?_⟩
        apply map_range_set
        · rw [if_pos ⟨by omega, hn⟩, if_pos (by omega)]
        · intro j _ hj
          by_cases h2 : j < 16 ∧ lens.count (j + 1) ≠ 0
          · rw [if_pos h2, if_pos h2]
            by_cases h3 : j < i
            · rw [if_pos h3, if_pos (by omega)]
            · rw [if_neg h3, if_neg (by omega)]
          · rw [if_neg h2, if_neg h2])
  unfold shiftValPtrs
  rw [e, hv]
  refine congrArg Res.ok (map_range_ext fun j _ => ?_)
  by_cases h2 : j < 16 ∧ lens.count (j + 1) ≠ 0
  · rw [if_pos h2, if_pos h2, if_pos (by omega)]
  · rw [if_neg h2, if_neg h2]

/-- The start of the search for the code length. -/
def StartOk (lens : List Nat) (tb maxCode start : Nat) : Prop :=
  maxCode = M lens tb ∧
  ((∃ c, 0 < c ∧ c ≤ 16 ∧ lens.count c ≠ 0) →
    1 ≤ start ∧ start ≤ 17 ∧ M lens (start - 1) = M lens tb) ∧
  ((∀ c, 0 < c → c ≤ 16 → lens.count c = 0) → start = 255)

omit [Build] in
theorem startCode_ok {lens : List Nat} {r : Ranges} (hr : RangesAt lens 16 r)
    {tb : Nat} (htb : tb ≤ 11) (hmin : tb ≠ 0 → asU 8 r.minSize < tb) :
    ∃ m s, startCode (NC lens) (maxCodesAt lens 16) tb (asU 8 r.minSize) r.maxSize = .ok (m, s) ∧
      StartOk lens tb m s := by
  unfold startCode
  by_cases h0 : tb = 0
  · subst h0
    refine ⟨_, _, rfl, (M_zero lens).symm, ?_, ?_⟩
    · rintro ⟨c, c1, c2, c3⟩
      have hle := hr.minLe c c1 c2 c3
      rcases hr.minUsed with h | ⟨h1, h2, h3⟩
      · omega
      · have hu : asU 8 r.minSize = r.minSize := by unfold asU; omega
        rw [hu]
        refine ⟨h1, by omega, ?_⟩
        apply M_unused lens (by omega) (by omega)
        intro j a b
        apply Classical.byContradiction
        intro hn
        have := hr.minLe j (by omega) (by omega) hn
        omega
    · intro hall
      rcases hr.minUsed with h | ⟨h1, h2, h3⟩
      · rw [h]; rfl
      · exact absurd (hall _ (by omega) h2) h3
  · have hm := hmin h0
    have hused : 1 ≤ r.minSize ∧ r.minSize ≤ 16 ∧ lens.count r.minSize ≠ 0 := by
      rcases hr.minUsed with h | h
      · rw [h] at hm
        have : asU 8 4294967295 = 255 := rfl
        omega
      · exact h
    have hu : asU 8 r.minSize = r.minSize := by unfold asU; omega
    rw [hu] at hm
    obtain ⟨i, e, h1, h2, h3⟩ := lastUsed_ok lens (show tb ≤ 16 by omega)
    have hi : 1 ≤ i := by
      apply Classical.byContradiction
      intro hi
      exact absurd (h3 r.minSize (by omega) (by omega)) hused.2.2
    have hni : lens.count i ≠ 0 := by omega
    have hmax := hr.maxLe
    obtain ⟨s, es, hs⟩ := firstUsed_ok lens (tb + 1) (j := tb + 1) (n := r.maxSize - tb)
      (by omega) (by omega)
    have hg : (maxCodesAt lens 16)[i - 1]? = some (M lens i) := by
      unfold maxCodesAt
      rw [map_range_get _ (by omega), show i - 1 + 1 = i by omega, if_pos ⟨by omega, hni⟩]
    rw [if_pos h0, e, Res.ok_bind, if_pos hi, idx_of_some hg, Res.lift_ok, Res.ok_bind, es,
      Res.ok_bind]
    refine ⟨_, _, rfl, (M_unused lens h1 (by omega) h3).symm, ?_, ?_⟩
    · intro _
      rcases hs with ⟨rfl, h⟩ | ⟨a, b, c⟩
      · exact ⟨by omega, by omega, by rw [show tb + 1 - 1 = tb by omega]⟩
      · refine ⟨by omega, by omega, ?_⟩
        apply M_unused lens (by omega) (by omega)
        intro j j1 j2
        exact c j (by omega) (by omega)
    · intro hall
      exact absurd (hall _ (by omega) hused.2.1) hused.2.2

/-- What a prepared model holds. -/
structure TablesOk (lens : List Nat) (m : DataModel) : Prop where
  lensOk : LensOk lens
  codeSizes : m.codeSizes = lens
  totalSyms : m.totalSyms = lens.length
  sorted : SortedFor lens lens.length m.tables.sorted
  maxCodes : m.tables.maxCodes = (maxCodesAt lens 16).set 16 4294967295
  valPtrs : m.tables.valPtrs = (valPtrsEnd lens).set 16 0xFFFFF
  bits : m.tables.tableBits ≤ 11
  fits : usedSpace lens m.tables.tableBits ≤ 2 ^ m.tables.tableBits
  lookup : Covered lens m.tables.tableBits (usedSpace lens m.tables.tableBits) m.tables.lookup
  start : StartOk lens m.tables.tableBits m.tables.tableMaxCode m.tables.decodeStartCodeSize

/-- The number of bits of the lookup table that `init` uses. -/
def usedTableBits (lens : List Nat) (tb : Nat) : Nat :=
  if tb = 0 then 0
  else if ∃ c, c < tb ∧ 0 < c ∧ lens.count c ≠ 0 then tb else 0

omit [Build] in
theorem usedTableBits_eq {lens : List Nat} {r : Ranges} (hr : RangesAt lens 16 r) {tb : Nat}
    (htb : tb ≤ 11) :
    (if tb ≤ asU 8 r.minSize then 0 else tb) = if ∃ c, c < tb ∧ 0 < c ∧ lens.count c ≠ 0 then tb else 0 := by
  by_cases hex : ∃ c, c < tb ∧ 0 < c ∧ lens.count c ≠ 0
  · rw [if_pos hex]
    obtain ⟨c, h1, h2, h3⟩ := hex
    have := hr.minLe c h2 (by omega) h3
    have hu : asU 8 r.minSize = r.minSize := by unfold asU; omega
    rw [if_neg (by omega)]
  · rw [if_neg hex]
    rcases hr.minUsed with h | ⟨h1, h2, h3⟩
    · rw [h, if_pos (by show tb ≤ 255; omega)]
    · have hu : asU 8 r.minSize = r.minSize := by unfold asU; omega
      rw [hu, if_pos]
      apply Nat.le_of_not_lt
      intro hlt
      exact hex ⟨_, hlt, h1, h3⟩

/-- The outcome of `init`. -/
theorem init_eq {lens : List Nat} (h : LensOk lens) {tb : Nat} (htb : tb ≤ 11) :
    (usedSpace lens (usedTableBits lens tb) ≤ 2 ^ usedTableBits lens tb →
      ∃ t, Tables.init {} lens.length lens tb = .ok t ∧
        t.tableBits = usedTableBits lens tb ∧
        TablesOk lens { totalSyms := lens.length, codeSizes := lens, tables := t }) ∧
    (¬ usedSpace lens (usedTableBits lens tb) ≤ 2 ^ usedTableBits lens tb →
      Tables.init {} lens.length lens tb = .fail "") := by
  have hlen := h.len
  have hpos := h.pos
  obtain ⟨r, er, hr⟩ := codeRanges_ok h
  have htot := hr.totalUsed
  have hoff := off_le lens 17
  obtain ⟨p, sorted, es, hs1, hs2⟩ := sortSymbols_ok h
    (sorted := if off lens 17 > 0 then
        List.replicate (if off lens 17 > 0 then sortedSize lens.length (off lens 17) else 0) 0
      else [])
    (by
      by_cases h0 : off lens 17 > 0
      · rw [if_pos h0, if_pos h0]
        have := sortedSize_ge hoff
        simp
        omega
      · rw [if_neg h0]
        simp
        omega)
  have htbe : (if tb ≤ asU 8 r.minSize then 0 else tb) = usedTableBits lens tb := by
    rw [usedTableBits_eq hr htb]
    unfold usedTableBits
    by_cases h0 : tb = 0
    · rw [if_pos h0]
      split <;> omega
    · rw [if_neg h0]
  generalize hT : usedTableBits lens tb = T at *
  have hT11 : T ≤ 11 := by rw [← htbe]; split <;> omega
  have hmin : T ≠ 0 → asU 8 r.minSize < T := by
    intro h0
    rw [← htbe] at h0 ⊢
    by_cases hle : tb ≤ asU 8 r.minSize
    · rw [if_pos hle] at h0; omega
    · rw [if_neg hle]; omega
  have hfill : FillIn lens sorted := ⟨h, hs1⟩
  have hlook : T = 0 ∨ 2 ^ T ≤ (if T ≠ 0 ∧ 2 ^ T > 0 then
      List.replicate (if T ≠ 0 ∧ 2 ^ T > 0 then 2 ^ T else 0) 0 else ([] : List Nat)).length := by
    by_cases h0 : T = 0
    · exact Or.inl h0
    · right
      have hc : T ≠ 0 ∧ 2 ^ T > 0 := ⟨h0, Nat.two_pow_pos T⟩
      rw [if_pos hc, if_pos hc, List.length_replicate]
      exact Nat.le_refl _
  have hstart : Tables.init {} lens.length lens tb = (do
      let lookup ← fillTable (NC lens) lens (minCodesAt lens 16) (maxCodesAt lens 16)
        (valPtrsAt lens 16) sorted T (if T ≠ 0 ∧ 2 ^ T > 0 then
      List.replicate (if T ≠ 0 ∧ 2 ^ T > 0 then 2 ^ T else 0) 0 else ([] : List Nat))
      let valPtrs ← shiftValPtrs (minCodesAt lens 16) (valPtrsAt lens 16)
      let (tableMaxCode, start) ← startCode (NC lens) (maxCodesAt lens 16) T (asU 8 r.minSize)
        r.maxSize
      let maxCodes ← setIdx (maxCodesAt lens 16) 16 4294967295
      let valPtrs ← setIdx valPtrs 16 0xFFFFF
      let tableShift ← subU 32 32 T
      pure { numSyms := lens.length, totalUsedSyms := r.totalUsed, tableBits := T, tableShift,
             tableMaxCode, decodeStartCodeSize := start, minCodeSize := asU 8 r.minSize,
             maxCodeSize := asU 8 r.maxSize, maxCodes, valPtrs,
             curLookupSize := if T ≠ 0 ∧ 2 ^ T > 0 then 2 ^ T else 0, lookup,
             curSortedSize := if off lens 17 > 0 then sortedSize lens.length (off lens 17) else 0,
             sorted }) := by
    unfold Tables.init
    rw [if_neg (by omega), List.take_length, countCodes_ok h, Res.ok_bind, er, Res.ok_bind]
    simp only [htbe, htot, hr.minCodes, hr.maxCodes, hr.valPtrs, hr.positions]
    rw [es, Res.ok_bind]
  constructor
  · intro hU
    obtain ⟨lk, el, hl1, _⟩ := fillTable_ok hfill hT11 hlook hU
    obtain ⟨mc, st, e2, hst⟩ := startCode_ok hr hT11 hmin
    rw [hstart, el, Res.ok_bind, shiftValPtrs_ok h, Res.ok_bind, e2, Res.ok_bind]
    simp only
    rw [setIdx_ok (by simp [maxCodesAt]), Res.lift_ok, Res.ok_bind,
      setIdx_ok (by simp [valPtrsEnd]), Res.lift_ok, Res.ok_bind, subU_ok (by omega), Res.lift_ok,
      Res.ok_bind]
    exact ⟨_, rfl, rfl, h, rfl, rfl, hs1, rfl, rfl, hT11, hU, hl1, hst⟩
  · intro hU
    rw [hstart, fillTable_fail hfill hT11 hlook hU, Res.fail_bind]

/-! ## `prepare_decoder_tables` -/

/-- Bits of the lookup table for a number of symbols: none up to 16 symbols, then one more than
the bits of a symbol number, at most 11. -/
def tableBitsOf (n : Nat) : Nat :=
  if n ≤ 16 then 0 else min 11 (Nat.log2 n + (if 2 ^ Nat.log2 n < n then 2 else 1))

theorem tableBitsFor_ok {n : Nat} (h : n ≤ 8192) : tableBitsFor n = .ok (tableBitsOf n) := by
  unfold tableBitsFor tableBitsOf
  by_cases hn : n ≤ 16
  · rw [if_neg (by omega), if_pos hn]; rfl
  · rw [if_pos (by omega), if_neg hn]
    unfold ceilLog2i
    have hl : Nat.log2 n ≤ 13 := by
      have := (Nat.log2_lt (n := n) (k := 14) (by omega)).mpr (by omega)
      omega
    have hp : (2 : Nat) ^ Nat.log2 n ≤ 2 ^ 13 := Nat.pow_le_pow_right (by omega) hl
    simp only
    rw [if_neg (by omega), shlU_ok (by omega), Out.ok_bind, Nat.shiftLeft_eq, Nat.one_mul,
      Nat.mod_eq_of_lt (by omega)]
    by_cases h2 : 2 ^ Nat.log2 n < n
    · rw [if_pos ⟨by omega, by omega⟩, if_pos h2, addU_ok (by omega), Out.ok_bind,
        addU_ok (by omega), Out.ok_bind]
      refine congrArg Out.ok ?_
      omega
    · rw [if_neg (by omega), if_neg h2, Out.pure_eq, Out.ok_bind, addU_ok (by omega), Out.ok_bind]
      refine congrArg Out.ok ?_
      omega

/-- The bits of the lookup table of a prepared model. -/
def modelBits (lens : List Nat) : Nat := usedTableBits lens (tableBitsOf lens.length)

/-- The code lengths the model accepts: those whose codes of at most the lookup bits fit. -/
def Fits (lens : List Nat) : Prop := usedSpace lens (modelBits lens) ≤ 2 ^ modelBits lens

theorem prepare_ok {lens : List Nat} (h : LensOk lens) (hf : Fits lens) :
    ∃ m, DataModel.prepare { codeSizes := lens } = .ok m ∧ TablesOk lens m ∧
      m.tables.tableBits = modelBits lens := by
  have hlen := h.len
  have hpos := h.pos
  have hb : tableBitsOf lens.length ≤ 11 := by unfold tableBitsOf; split <;> omega
  have hu : asU 32 lens.length = lens.length := by unfold asU; omega
  obtain ⟨t, e, htb, ht⟩ := (init_eq h hb).1 hf
  unfold DataModel.prepare
  simp only [hu]
  rw [if_neg (by omega), tableBitsFor_ok hlen, Res.lift_ok, Res.ok_bind, e, Res.ok_bind]
  exact ⟨_, rfl, ht, htb⟩

theorem prepare_fail {lens : List Nat} (h : LensOk lens) (hf : ¬ Fits lens) :
    DataModel.prepare { codeSizes := lens } = .fail "" := by
  have hlen := h.len
  have hpos := h.pos
  have hb : tableBitsOf lens.length ≤ 11 := by unfold tableBitsOf; split <;> omega
  have hu : asU 32 lens.length = lens.length := by unfold asU; omega
  unfold DataModel.prepare
  simp only [hu]
  rw [if_neg (by omega), tableBitsFor_ok hlen, Res.lift_ok, Res.ok_bind, (init_eq h hb).2 hf,
    Res.fail_bind]

theorem prepare_size {lens : List Nat} (h : lens.length = 0 ∨ 8192 < lens.length)
    (h2 : lens.length < 2 ^ 32) : DataModel.prepare { codeSizes := lens } = .fail "" := by
  have hu : asU 32 lens.length = lens.length := by unfold asU; omega
  unfold DataModel.prepare
  simp only [hu]
  rw [if_pos (by omega)]

end Verif.Proofs.Crn
