import Verif.Proofs.AstcWeightsAny
/-!
Proofs: what a build without overflow checks does on the ASTC blocks that do not fit.
-/
namespace Verif.Proofs.Astc
open Verif Verif.Model Verif.Proofs Verif.Spec.Astc

/-! ## Sizes of grids -/

theorem grid_area (blk : List UInt8) :
    (grid blk).1 * ((grid blk).2 + 1) + 1 ≤ 128 ∧ (dual blk → (grid blk).1 * (grid blk).2 ≤ 60) := by
  unfold dual noDH grid bit
  have h1 : Spec.field blk 5 2 < 4 := field_lt blk 5 2
  have h2 : Spec.field blk 7 2 < 4 := field_lt blk 7 2
  have h3 : Spec.field blk 9 2 < 4 := field_lt blk 9 2
  have h4 : Spec.field blk 7 1 < 2 := field_lt blk 7 1
  generalize Spec.field blk 5 2 = A at *
  generalize Spec.field blk 7 2 = B at *
  generalize Spec.field blk 9 2 = C at *
  generalize Spec.field blk 7 1 = D at *
  have key : ∀ A B C : Fin 4, ∀ D : Fin 2, ((B.1 + 4) * (A.1 + 2 + 1) + 1 ≤ 128 ∧ (B.1 + 4) * (A.1 + 2) ≤ 60) ∧
      ((B.1 + 8) * (A.1 + 2 + 1) + 1 ≤ 128 ∧ (B.1 + 8) * (A.1 + 2) ≤ 60) ∧
      ((A.1 + 2) * (B.1 + 8 + 1) + 1 ≤ 128 ∧ (A.1 + 2) * (B.1 + 8) ≤ 60) ∧
      ((A.1 + 2) * (D.1 + 6 + 1) + 1 ≤ 128 ∧ (A.1 + 2) * (D.1 + 6) ≤ 60) ∧
      ((D.1 + 2) * (A.1 + 2 + 1) + 1 ≤ 128 ∧ (D.1 + 2) * (A.1 + 2) ≤ 60) ∧
      (12 * (A.1 + 2 + 1) + 1 ≤ 128 ∧ 12 * (A.1 + 2) ≤ 60) ∧
      ((A.1 + 2) * (12 + 1) + 1 ≤ 128 ∧ (A.1 + 2) * 12 ≤ 60) ∧
      ((A.1 + 6) * (C.1 + 6 + 1) + 1 ≤ 128) := by decide +kernel
  obtain ⟨k1, k2, k3, k4, k5, k6, k7, k8⟩ := key ⟨A, h1⟩ ⟨B, h2⟩ ⟨C, h3⟩ ⟨D, h4⟩
  simp only at k1 k2 k3 k4 k5 k6 k7 k8 ⊢
  by_cases h0 : Spec.field blk 0 2 ≠ 0
  · simp only [if_pos h0]
    split
    · exact ⟨k1.1, fun _ => k1.2⟩
    · exact ⟨k2.1, fun _ => k2.2⟩
    · exact ⟨k3.1, fun _ => k3.2⟩
    · split
      · exact ⟨k4.1, fun _ => k4.2⟩
      · exact ⟨k5.1, fun _ => k5.2⟩
  · simp only [if_neg h0]
    have h0 : Spec.field blk 0 2 = 0 := by omega
    split
    · exact ⟨k6.1, fun _ => k6.2⟩
    · exact ⟨k7.1, fun _ => k7.2⟩
    · exact ⟨k8, fun h => absurd ⟨h0, rfl⟩ h.2⟩
    · split <;> exact ⟨by decide, fun _ => by decide⟩

theorem weightNum_le120 (blk : List UInt8) : weightNum blk ≤ 126 := by
  obtain ⟨h1, h2⟩ := grid_area blk
  obtain ⟨g, -⟩ := grid_le blk
  unfold weightNum
  by_cases hd : dual blk
  · have := h2 hd
    rw [if_pos hd]; omega
  · rw [if_neg hd]
    rw [Nat.mul_add] at h1
    omega

variable [Build]

/-! ## Reads before the first bit -/

/-- A read at a huge position panics. -/
theorem getbits_far {buf : List UInt8} {pos n : Nat} {v : Int} (hl : buf.length < 2 ^ 60)
    (h : getbits buf pos n = .ok v) : pos < 2 ^ 63 := by
  unfold getbits at h
  obtain ⟨raw, e, -⟩ := Out.bind_eq_ok.mp h
  unfold getbitsRaw at e
  simp only at e
  obtain ⟨t, -, e⟩ := Out.bind_eq_ok.mp e
  obtain ⟨be, -, e⟩ := Out.bind_eq_ok.mp e
  obtain ⟨len, -, e⟩ := Out.bind_eq_ok.mp e
  obtain ⟨src, e, -⟩ := Out.bind_eq_ok.mp e
  unfold slice at e
  by_cases hc : pos / 8 ≤ be ∧ be ≤ buf.length
  · omega
  · rw [if_neg hc] at e; cases e

theorem subU_cases {a b c : Nat} (ha : a < 2 ^ 62) (hb : b < 2 ^ 62) (h : subU 64 a b = .ok c) :
    (b ≤ a ∧ c = a - b) ∨ (a < b ∧ c = 2 ^ 64 + a - b) := by
  unfold subU at h
  by_cases hba : b ≤ a
  · rw [if_pos hba] at h
    exact Or.inl ⟨hba, (Out.ok.inj h).symm⟩
  · rw [if_neg hba] at h
    by_cases hc : Build.overflowChecks = true
    · rw [if_pos hc] at h; cases h
    · rw [if_neg hc] at h
      have := Out.ok.inj h
      omega

/-- A read at a difference is possible only if the difference is not negative. -/
theorem getbits_diff {buf : List UInt8} {a b p n : Nat} {v : Int} (hl : buf.length < 2 ^ 60)
    (ha : a < 2 ^ 62) (hb : b < 2 ^ 62) (h : subU 64 a b = .ok p) (hg : getbits buf p n = .ok v) :
    b ≤ a := by
  have := getbits_far hl hg
  have := subU_cases ha hb h
  omega

theorem cemOr_diff {buf : List UInt8} {a b p i m : Nat} {c c' : List Nat} (hl : buf.length < 2 ^ 60)
    (ha : a < 2 ^ 62) (hb : b < 2 ^ 62) (h : subU 64 a b = .ok p) (hg : astcCemOr buf c i p m = .ok c') :
    b ≤ a := by
  unfold astcCemOr at hg
  obtain ⟨g, eg, -⟩ := Out.bind_eq_ok.mp hg
  exact getbits_diff hl ha hb h eg

theorem cemMulti_inv {buf : List UInt8} {P S wb : Nat} {c : List Nat} (hl : buf.length < 2 ^ 60)
    (hwb : wb < 2 ^ 62) (hP : P = 2 ∨ P = 3 ∨ P = 4) (h : astcCemMulti buf P S wb = .ok c) :
    wb ≤ 126 ∧ (3 ≤ P → wb ≤ 122) ∧ (4 ≤ P → wb ≤ 120) := by
  unfold astcCemMulti at h
  obtain ⟨b3, -, h⟩ := Out.bind_eq_ok.mp h
  obtain ⟨cm, -, h⟩ := Out.bind_eq_ok.mp h
  rcases hP with rfl | rfl | rfl
  · rw [if_pos rfl] at h
    obtain ⟨_, -, h⟩ := Out.bind_eq_ok.mp h
    obtain ⟨_, -, h⟩ := Out.bind_eq_ok.mp h
    obtain ⟨p, ep, h⟩ := Out.bind_eq_ok.mp h
    have := cemOr_diff hl (by omega) hwb ep h
    omega
  · rw [if_neg (by omega), if_pos rfl] at h
    obtain ⟨_, -, h⟩ := Out.bind_eq_ok.mp h
    obtain ⟨_, -, h⟩ := Out.bind_eq_ok.mp h
    obtain ⟨p, ep, h⟩ := Out.bind_eq_ok.mp h
    obtain ⟨_, eg, h⟩ := Out.bind_eq_ok.mp h
    have := cemOr_diff hl (by omega) hwb ep eg
    omega
  · rw [if_neg (by omega), if_neg (by omega), if_pos rfl] at h
    simp only [forRange, Out.ok_bind] at h
    obtain ⟨_, h, -⟩ := Out.bind_eq_ok.mp h
    obtain ⟨_, h, -⟩ := Out.bind_eq_ok.mp h
    obtain ⟨_, h, -⟩ := Out.bind_eq_ok.mp h
    obtain ⟨p, ep, h⟩ := Out.bind_eq_ok.mp h
    have := cemOr_diff hl (by omega) hwb ep h
    omega

omit [Build] in
theorem extra_cases (blk : List UInt8) :
    (extraBits blk = 0 ∧ (parts blk = 1 ∨ cemSel blk = 0)) ∨
    (parts blk ≠ 1 ∧ cemSel blk ≠ 0 ∧ ((parts blk = 2 ∧ extraBits blk = 2) ∨ (parts blk = 3 ∧ extraBits blk = 5) ∨
      (parts blk = 4 ∧ extraBits blk = 8))) := by
  obtain ⟨h1, h4⟩ := parts_bounds blk
  unfold extraBits
  by_cases h : parts blk = 1 ∨ cemSel blk = 0
  · rw [if_pos h]; exact Or.inl ⟨rfl, h⟩
  · rw [if_neg h]; omega

/-- The room below the weights that the endpoint mode bits and the plane selector need. -/
def Below (blk : List UInt8) : Prop :=
  (extraBits blk ≠ 0 → weightBits blk + (if parts blk = 3 then 6 else extraBits blk) ≤ 128) ∧
  (dual blk → weightBits blk + extraBits blk + 2 ≤ 128)

theorem below_cems {buf : List UInt8} (h : Below (buf.take 16)) :
    parts (buf.take 16) ≠ 1 → cemSel (buf.take 16) ≠ 0 → weightBits (buf.take 16) ≤ 126 ∧
      (3 ≤ parts (buf.take 16) → weightBits (buf.take 16) ≤ 122) ∧
      (4 ≤ parts (buf.take 16) → weightBits (buf.take 16) ≤ 120) := by
  intro h1 hS
  obtain ⟨hb, -⟩ := h
  have := extra_cases (buf.take 16)
  rcases (show parts (buf.take 16) = 3 ∨ parts (buf.take 16) ≠ 3 by omega) with h3 | h3
  · rw [if_pos h3] at hb; omega
  · rw [if_neg h3] at hb; omega

omit [Build] in
theorem weightBits_le {blk : List UInt8} (hr : ¬ isReserved blk) : weightBits blk ≤ 2000 := by
  obtain ⟨-, -, hq, hq5, -⟩ := weightTable hr
  have hn := weightNum_le120 blk
  unfold weightBits seqBits Spec.ceilDiv
  have := Nat.mul_le_mul hn hq5
  split
  · omega
  · split <;> omega

/-- The common part of the computation of the parameters. -/
theorem params_start {buf : List UInt8} (hd : 16 ≤ buf.length) (hr : ¬ isReserved (buf.take 16)) :
    decodeBlockParams buf = (do
      let (cem, cemBase, configBits) ← astcCems buf (parts (buf.take 16)) (weightBits (buf.take 16))
      let selector ← (if decide (dual (buf.take 16)) = true then do
          let pos ← (if cemBase ≠ 0 then do
              let t ← subU 64 130 (weightBits (buf.take 16))
              subU 64 t (parts (buf.take 16) * 3)
            else subU 64 126 (weightBits (buf.take 16)))
          let g ← getbits buf pos 2
          pure (asUI 64 g)
        else pure 0)
      let t ← subU 64 128 (if decide (dual (buf.take 16)) = true then configBits + 2 else configBits)
      let remain ← subU 64 t (weightBits (buf.take 16))
      let n ← forRange (parts (buf.take 16)) (fun i n => do
        let c ← idx cem i
        pure (n + (c >>> 1 &&& 6) + 2)) 0
      let cemRange ← astcCemRange n remain 0 19
      pure { width := (grid (buf.take 16)).1, height := (grid (buf.take 16)).2,
             partNum := parts (buf.take 16), dualPlane := decide (dual (buf.take 16)),
             planeSelector := selector, weightRange := rangeIndex (buf.take 16),
             weightNum := weightNum (buf.take 16), cem, cemRange, endpointValueNum := n }) := by
  have F : ∀ p n, p + n ≤ 128 → Spec.field (buf.take 16) p n = Spec.leNat buf / 2 ^ p % 2 ^ n :=
    fun p n h => field_take (by omega)
  obtain ⟨ha, hb, hq, hq5, h16⟩ := weightTable hr
  unfold decodeBlockParams
  rw [byte_eq (by omega), Out.ok_bind, byte_eq (by omega), Out.ok_bind, blockMode_ok _ F]
  have hpart : (Spec.leNat buf / 2 ^ (8 * 1) % 256) >>> 3 &&& 3 = Spec.field (buf.take 16) 11 2 := by
    rw [F 11 2 (by omega), and_3, shr_eq]
    generalize Spec.leNat buf = D
    omega
  have hnum : (if decide (dual (buf.take 16)) = true then (grid (buf.take 16)).1 * (grid (buf.take 16)).2 * 2
      else (grid (buf.take 16)).1 * (grid (buf.take 16)).2) = weightNum (buf.take 16) := by
    unfold weightNum
    by_cases h : dual (buf.take 16) <;> simp [h]
  have hp : Spec.field (buf.take 16) 11 2 + 1 = parts (buf.take 16) := rfl
  simp only [hpart, hnum, hp]
  rw [weightBits_ok (weightNum_le _) hq5 hq ha hb, Out.ok_bind]
  rfl

theorem cems_inv {buf : List UInt8} (hd : 16 ≤ buf.length) (hl : buf.length < 2 ^ 60)
    (hr : ¬ isReserved (buf.take 16)) {x : List Nat × Nat × Nat}
    (h : astcCems buf (parts (buf.take 16)) (weightBits (buf.take 16)) = .ok x) :
    parts (buf.take 16) ≠ 1 → cemSel (buf.take 16) ≠ 0 → weightBits (buf.take 16) ≤ 126 ∧
      (3 ≤ parts (buf.take 16) → weightBits (buf.take 16) ≤ 122) ∧
      (4 ≤ parts (buf.take 16) → weightBits (buf.take 16) ≤ 120) := by
  intro h1 hS
  have F : ∀ p n, p + n ≤ 128 → Spec.field (buf.take 16) p n = Spec.leNat buf / 2 ^ p % 2 ^ n :=
    fun p n h => field_take (by omega)
  obtain ⟨hP1, hP4⟩ := parts_bounds (buf.take 16)
  unfold astcCems at h
  rw [if_neg h1] at h
  rw [sliceFrom_ok (by omega), Out.ok_bind, u16_ok (by rw [List.length_drop]; omega), leNat_drop,
    Out.ok_bind] at h
  have hsel : (Spec.leNat buf / 2 ^ (8 * 2) % 65536) >>> 7 &&& 3 = cemSel (buf.take 16) := by
    unfold cemSel
    rw [F 23 2 (by omega), and_3, shr_eq]
    generalize Spec.leNat buf = D
    omega
  simp only [hsel] at h
  rw [if_neg hS] at h
  obtain ⟨c, ec, -⟩ := Out.bind_eq_ok.mp h
  have := weightBits_le hr
  exact cemMulti_inv hl (by omega) (by omega) ec

/-- In every build, the parameters are computed only if there is room below the weights. -/
theorem params_below {buf : List UInt8} (hd : 16 ≤ buf.length) (hl : buf.length < 2 ^ 60)
    (hr : ¬ isReserved (buf.take 16)) {p : AstcParams} (h : decodeBlockParams buf = .ok p) :
    Below (buf.take 16) := by
  rw [params_start hd hr] at h
  obtain ⟨x, ec, h⟩ := Out.bind_eq_ok.mp h
  have hroom := cems_inv hd hl hr ec
  rw [cems_ok hd rfl hroom] at ec
  cases ec
  simp only at h
  obtain ⟨sel, es, -⟩ := Out.bind_eq_ok.mp h
  have hx := extra_cases (buf.take 16)
  have hwb := weightBits_le hr
  obtain ⟨hP1, hP4⟩ := parts_bounds (buf.take 16)
  refine ⟨fun hne => ?_, fun hdu => ?_⟩
  · rcases (show parts (buf.take 16) = 3 ∨ parts (buf.take 16) ≠ 3 by omega) with h3 | h3
    · rw [if_pos h3]; omega
    · rw [if_neg h3]; omega
  · rw [if_pos (decide_eq_true hdu)] at es
    obtain ⟨pos, ep, es⟩ := Out.bind_eq_ok.mp es
    obtain ⟨g, eg, -⟩ := Out.bind_eq_ok.mp es
    have hfar := getbits_far hl eg
    by_cases h0 : (if parts (buf.take 16) = 1 then 0 else cemSel (buf.take 16)) ≠ 0
    · rw [if_pos h0] at ep
      obtain ⟨t, et, ep⟩ := Out.bind_eq_ok.mp ep
      have h1 : parts (buf.take 16) ≠ 1 := fun h => h0 (if_pos h)
      have hS : cemSel (buf.take 16) ≠ 0 := fun h => h0 (by rw [if_neg h1, h])
      have hr' := hroom h1 hS
      rw [subU_ok (by omega)] at et
      cases et
      have := subU_cases (by omega) (by omega) ep
      omega
    · rw [if_neg h0] at ep
      have := subU_cases (by omega) (by omega) ep
      have : parts (buf.take 16) = 1 ∨ cemSel (buf.take 16) = 0 := by
        by_cases h1 : parts (buf.take 16) = 1
        · exact Or.inl h1
        · rw [if_neg h1] at h0; omega
      omega

/-- Without overflow checks, a block whose configuration and weights do not fit gets 256 levels for its
colour values. -/
theorem params_over (hc : Build.overflowChecks = false) {buf : List UInt8} (hd : 16 ≤ buf.length)
    (hr : ¬ isReserved (buf.take 16))
    (hover : 128 < configBits (buf.take 16) + weightBits (buf.take 16)) (hbel : Below (buf.take 16)) :
    decodeBlockParams buf = .ok
      { width := (grid (buf.take 16)).1, height := (grid (buf.take 16)).2,
        partNum := parts (buf.take 16), dualPlane := decide (dual (buf.take 16)),
        planeSelector := if dual (buf.take 16) then planeSel (buf.take 16) else 0,
        weightRange := rangeIndex (buf.take 16), weightNum := weightNum (buf.take 16),
        cem := cemList (buf.take 16), cemRange := 0,
        endpointValueNum := valueNum (buf.take 16) } := by
  have F : ∀ p n, p + n ≤ 128 → Spec.field (buf.take 16) p n = Spec.leNat buf / 2 ^ p % 2 ^ n :=
    fun p n h => field_take (by omega)
  obtain ⟨hP1, hP4⟩ := parts_bounds (buf.take 16)
  have hx := extra_cases (buf.take 16)
  have hwb := weightBits_le hr
  have hcb : configBits (buf.take 16) ≤ 39 := by
    unfold configBits
    split <;> split <;> omega
  rw [params_start hd hr, cems_ok hd rfl (below_cems hbel), Out.ok_bind]
  simp only
  have hcfg2 : (if decide (dual (buf.take 16)) = true then
      configBits (buf.take 16) - (if dual (buf.take 16) then 2 else 0) + 2
      else configBits (buf.take 16) - (if dual (buf.take 16) then 2 else 0)) = configBits (buf.take 16) := by
    by_cases h : dual (buf.take 16)
    · have : 2 ≤ configBits (buf.take 16) := by unfold configBits; split <;> omega
      simp only [h, decide_true, if_true]
      omega
    · simp [h]
  have hsel : (if decide (dual (buf.take 16)) = true then do
        let pos ← (if (if parts (buf.take 16) = 1 then 0 else cemSel (buf.take 16)) ≠ 0 then do
            let t ← subU 64 130 (weightBits (buf.take 16))
            subU 64 t (parts (buf.take 16) * 3)
          else subU 64 126 (weightBits (buf.take 16)))
        let g ← getbits buf pos 2
        pure (asUI 64 g)
      else pure 0) = .ok (if dual (buf.take 16) then planeSel (buf.take 16) else 0) := by
    by_cases h : dual (buf.take 16)
    · simp only [h, decide_true, if_true]
      have hb2 := hbel.2 h
      have hpos : (if (if parts (buf.take 16) = 1 then 0 else cemSel (buf.take 16)) ≠ 0 then do
            let t ← subU 64 130 (weightBits (buf.take 16))
            subU 64 t (parts (buf.take 16) * 3)
          else subU 64 126 (weightBits (buf.take 16))) =
          .ok (126 - weightBits (buf.take 16) - extraBits (buf.take 16)) := by
        by_cases h1 : parts (buf.take 16) = 1
        · simp only [h1, if_true, ne_eq, not_true_eq_false, if_false]
          rw [subU_ok (by omega)]
          congr 1; omega
        · by_cases hS : cemSel (buf.take 16) = 0
          · simp only [hS, ite_self, ne_eq, not_true_eq_false, if_false]
            rw [subU_ok (by omega)]
            congr 1; omega
          · simp only [h1, hS, if_false, ne_eq, not_false_eq_true, if_true]
            rw [subU_ok (by omega), Out.ok_bind, subU_ok (by omega)]
            congr 1; omega
      rw [hpos, Out.ok_bind, getbits_ok (by omega) (by omega) (by omega) (by omega), Out.ok_bind]
      have hlt : Spec.leNat buf / 2 ^ (126 - weightBits (buf.take 16) - extraBits (buf.take 16)) % 2 ^ 2 < 4 :=
        Nat.mod_lt _ (by omega)
      rw [asUI_nat (by omega), ← F _ 2 (by omega)]
      rfl
    · simp [h]
  have hrem : subU 64 (128 - configBits (buf.take 16)) (weightBits (buf.take 16)) =
      .ok (2 ^ 64 + (128 - configBits (buf.take 16)) - weightBits (buf.take 16)) := by
    unfold subU
    rw [if_neg (by omega), hc, if_neg (by simp)]
    congr 1
    omega
  rw [hsel, Out.ok_bind, hcfg2, subU_ok (by omega), Out.ok_bind, hrem, Out.ok_bind,
    valueNum_ok _ (Nat.le_refl _) hP4, Out.ok_bind]
  rw [show valuesBefore (buf.take 16) (parts (buf.take 16)) = valueNum (buf.take 16) from rfl]
  have hn := valueNum_le (buf.take 16)
  have er : astcCemRange (valueNum (buf.take 16))
      (2 ^ 64 + (128 - configBits (buf.take 16)) - weightBits (buf.take 16)) 0 19 = .ok 0 := by
    rw [astcCemRange, show astcEndpointBits (valueNum (buf.take 16)) 0 = .ok (valueNum (buf.take 16) * 8) from rfl,
      Out.ok_bind, if_pos (by omega)]
    rfl
  rw [er, Out.ok_bind]
  rfl

/-- Whatever the build, a block whose colour values do not fit with one bit each is only decoded if
8 bits for each lie inside the data. -/
theorem values_inside {buf : List UInt8} {q : AstcParams} {es : List (List Int)}
    (h0 : q.cemRange = 0) (h1 : q.partNum = parts (buf.take 16))
    (h2 : q.endpointValueNum = valueNum (buf.take 16)) (ee : decodeEndpoints buf q = .ok es) :
    (if parts (buf.take 16) = 1 then 17 else 29) + 8 * valueNum (buf.take 16) ≤ 8 * buf.length := by
  unfold decodeEndpoints at ee
  obtain ⟨ev, ee, -⟩ := Out.bind_eq_ok.mp ee
  unfold colourValues at ee
  have hv2 := valueNum_ge (buf.take 16)
  have hn := valueNum_le (buf.take 16)
  have hst : (if parts (buf.take 16) = 1 then 17 else 29) ≤ 29 := by split <;> omega
  rw [h0, h1, h2, idx_of_some (show cemTableA[0]? = some 0 from rfl), Out.ok_bind,
    idx_of_some (show cemTableB[0]? = some 8 from rfl), Out.ok_bind] at ee
  obtain ⟨seq, es', -⟩ := Out.bind_eq_ok.mp ee
  unfold decodeIntseq at es'
  rw [if_neg (by omega), if_neg (by omega), if_neg (by omega)] at es'
  have := intseqPlain_inv (by omega) (by omega) (by omega) es'
  omega

/-! ## Weights before the first bit -/

/-- Plain-bit weights are only read if they lie inside the block. -/
theorem plain_inside {buf : List UInt8} {b count : Nat} (hl : buf.length < 2 ^ 60) (hb : b ≤ 8)
    (hcount : count ≤ 200) {out out' : List IntSeqData}
    (h : intseqPlain buf 128 b count true out = .ok out') : count * b ≤ 128 := by
  unfold intseqPlain at h
  simp only [if_true] at h
  have sub : ∀ {x : Int}, -2000 ≤ x → x ≤ 2000 → ∀ {y}, subI 64 x b = .ok y → y = x - b := by
    intro x h1 h2 y h
    have hin : InI 64 (x - (b : Int)) := by unfold InI; omega
    unfold subI at h
    rw [fitI_ok hin] at h
    exact (Out.ok.inj h).symm
  obtain ⟨p0, e0, h⟩ := Out.bind_eq_ok.mp h
  have h0 := sub (x := ((128 : Nat) : Int)) (by omega) (by omega) e0
  obtain ⟨⟨p, o⟩, e, -⟩ := Out.bind_eq_ok.mp h
  have := forRange_ok_inv' e (P := fun i s => s.1 = 128 - b - ((i * b : Nat) : Int) ∧ i * b ≤ 128)
    ⟨by simp only; rw [h0]; omega, by omega⟩ (by
      rintro i hi ⟨p, o⟩ ⟨p', o'⟩ ⟨hp, hib⟩ h
      simp only at hp h ⊢
      obtain ⟨g, eg, h⟩ := Out.bind_eq_ok.mp h
      obtain ⟨_, -, h⟩ := Out.bind_eq_ok.mp h
      obtain ⟨_, -, h⟩ := Out.bind_eq_ok.mp h
      obtain ⟨p2, ep, h⟩ := Out.bind_eq_ok.mp h
      have hfar := getbits_far hl eg
      have h2 := sub (by omega) (by omega) ep
      cases h
      rw [Nat.add_mul, Nat.one_mul]
      have hpos : 0 ≤ p := by
        rcases Int.lt_or_le p 0 with hneg | h
        · exfalso
          have : asUI 64 p = (2 ^ 64 + p).toNat := by
            unfold asUI
            rw [show p % (2 ^ 64 : Int) = 2 ^ 64 + p by omega]
          omega
        · exact h
      exact ⟨by omega, by omega⟩)
  exact this.2

theorem weights_inside {buf : List UInt8} (hl : buf.length < 2 ^ 60)
    (hr : ¬ isReserved (buf.take 16)) {p : AstcParams} (h1 : p.weightRange = rangeIndex (buf.take 16))
    (h2 : p.weightNum = weightNum (buf.take 16)) {wv : List Int} (h : weightValues buf p = .ok wv)
    (hbase : (weightQuant (buf.take 16)).base = 1) : weightBits (buf.take 16) ≤ 128 := by
  obtain ⟨hA, hB, hok, hb5, -⟩ := weightTable hr
  have hn := weightNum_le120 (buf.take 16)
  have hg := grid_le (buf.take 16)
  unfold weightValues at h
  rw [h1, h2, idx_of_some hA, Out.ok_bind, idx_of_some hB, Out.ok_bind, if_pos hbase] at h
  obtain ⟨seq, es, -⟩ := Out.bind_eq_ok.mp h
  unfold decodeIntseq at es
  unfold weightBits seqBits
  rw [hbase, if_neg (by omega), if_neg (by omega)]
  by_cases h0 : weightNum (buf.take 16) = 0
  · rw [h0]; omega
  rw [if_neg h0, if_neg (by omega), if_neg (by omega)] at es
  have := plain_inside hl (by omega) (by omega) es
  omega

theorem weightValues_length {buf : List UInt8} {q : AstcParams} {wv : List Int}
    (h : weightValues buf q = .ok wv) : wv.length = 128 := by
  unfold weightValues at h
  obtain ⟨a, -, h⟩ := Out.bind_eq_ok.mp h
  obtain ⟨b, -, h⟩ := Out.bind_eq_ok.mp h
  obtain ⟨seq, -, h⟩ := Out.bind_eq_ok.mp h
  refine forRange_ok_inv' h (P := fun _ (s : List Int) => s.length = 128) (List.length_replicate) ?_
  intro i hi o o' hP hs
  obtain ⟨s, -, hs⟩ := Out.bind_eq_ok.mp hs
  obtain ⟨x, -, hs⟩ := Out.bind_eq_ok.mp hs
  rw [setIdx_inv hs, List.length_set]
  exact hP

omit [Build] in
/-- For these sizes the last texel lies on the last grid point. -/
theorem gridPos_last {bs n : Nat} (hb : StdSize bs) (h1 : 2 ≤ n) (h2 : n ≤ 12) :
    gridPos bs n (bs - 1) / 16 = n - 1 := by
  have key : ∀ n : Fin 13, 2 ≤ n.1 → ∀ bs ∈ [4, 5, 6, 8, 10, 12], gridPos bs n.1 (bs - 1) / 16 = n.1 - 1 := by
    decide +kernel
  exact key ⟨n, by omega⟩ h1 bs (by
    rcases hb with rfl | rfl | rfl | rfl | rfl | rfl <;> decide)

theorem infillTexel_inside {blk : List UInt8} {wv : List Int} (hwv : wv.length = 128)
    {q : AstcParams} (hw : q.width = (grid blk).1) (hh : q.height = (grid blk).2)
    (hdu : q.dualPlane = true) {bw bh : Nat} (hbw : StdSize bw) (hbh : StdSize bh)
    {st st' : Nat × List (List Int)}
    (h : infillTexel wv q ((1024 + bw / 2) / (bw - 1)) ((1024 + bh / 2) / (bh - 1)) (bh - 1) (bw - 1) st =
      .ok st') : (grid blk).1 * ((grid blk).2 + 1) < 64 := by
  obtain ⟨g1, g2, g3, g4⟩ := grid_le blk
  have bw2 : 2 ≤ bw ∧ bw ≤ 72 := by unfold StdSize at hbw; omega
  have bh2 : 2 ≤ bh ∧ bh ≤ 72 := by unfold StdSize at hbh; omega
  obtain ⟨p1, p2, p3⟩ := gridPos_lt bw2.1 bw2.2 g1 g2 (show bw - 1 < bw by omega)
  obtain ⟨q1, q2, q3⟩ := gridPos_lt bh2.1 bh2.2 g3 g4 (show bh - 1 < bh by omega)
  have l1 := gridPos_last hbw g1 g2
  have l2 := gridPos_last hbh g3 g4
  obtain ⟨i, weights⟩ := st
  unfold infillTexel at h
  simp only at h
  rw [hw, hh, hdu, subU_ok (by omega), Out.ok_bind, subU_ok (by omega), Out.ok_bind] at h
  have hx : (1024 + bw / 2) / (bw - 1) * (bw - 1) * ((grid blk).1 - 1) ≤ 1060 * 11 :=
    Nat.mul_le_mul p2 (by omega)
  have hy : (1024 + bh / 2) / (bh - 1) * (bh - 1) * ((grid blk).2 - 1) ≤ 1060 * 11 :=
    Nat.mul_le_mul q2 (by omega)
  rw [mulU_ok (by omega), Out.ok_bind, mulU_ok (by omega), Out.ok_bind, addU_ok (by omega), Out.ok_bind,
    mulU_ok (by omega), Out.ok_bind, mulU_ok (by omega), Out.ok_bind, addU_ok (by omega), Out.ok_bind] at h
  have eg : ((1024 + bw / 2) / (bw - 1) * (bw - 1) * ((grid blk).1 - 1) + 32) >>> 6 =
    gridPos bw (grid blk).1 (bw - 1) := shr_eq _ 6
  have eh : ((1024 + bh / 2) / (bh - 1) * (bh - 1) * ((grid blk).2 - 1) + 32) >>> 6 =
    gridPos bh (grid blk).2 (bh - 1) := shr_eq _ 6
  rw [eg, eh] at h
  generalize gridPos bw (grid blk).1 (bw - 1) = gs at *
  generalize gridPos bh (grid blk).2 (bh - 1) = gt at *
  have hv2 : ((grid blk).2 - 1) * (grid blk).1 ≤ 11 * 12 := Nat.mul_le_mul (by omega) g2
  rw [shr_eq gs, shr_eq gt, show (2 : Nat) ^ 4 = 16 from rfl, l1, l2,
    mulU_ok (by omega), Out.ok_bind, addU_ok (by omega), Out.ok_bind] at h
  obtain ⟨_, -, h⟩ := Out.bind_eq_ok.mp h
  obtain ⟨_, -, h⟩ := Out.bind_eq_ok.mp h
  obtain ⟨_, -, h⟩ := Out.bind_eq_ok.mp h
  obtain ⟨_, -, h⟩ := Out.bind_eq_ok.mp h
  obtain ⟨_, -, h⟩ := Out.bind_eq_ok.mp h
  obtain ⟨ws, h, -⟩ := Out.bind_eq_ok.mp h
  rw [if_pos rfl] at h
  obtain ⟨s1, -, h⟩ := Out.bind_eq_ok.mp (show (forRange 1 _ _ >>= _) = _ from h)
  obtain ⟨r, h, -⟩ := Out.bind_eq_ok.mp h
  unfold infillWeight at h
  obtain ⟨_, -, h⟩ := Out.bind_eq_ok.mp h
  obtain ⟨_, -, h⟩ := Out.bind_eq_ok.mp h
  obtain ⟨_, -, h⟩ := Out.bind_eq_ok.mp h
  obtain ⟨x, e, -⟩ := Out.bind_eq_ok.mp h
  have hlt := (List.getElem?_eq_some_iff.mp (idx_inv e)).1
  have : ((grid blk).2 - 1) * (grid blk).1 + (grid blk).1 = (grid blk).1 * (grid blk).2 := by
    rw [← Nat.succ_mul, show ((grid blk).2 - 1).succ = (grid blk).2 by omega, Nat.mul_comm]
  rw [Nat.mul_add]
  omega

/-- Two planes of a large grid are never interpolated. -/
theorem grid_inside {buf : List UInt8} {q : AstcParams}
    (hw : q.width = (grid (buf.take 16)).1) (hh : q.height = (grid (buf.take 16)).2)
    (hdu : q.dualPlane = true) {bw bh : Nat} (hbw : StdSize bw) (hbh : StdSize bh)
    {ws : List (List Int)} (h : decodeWeights buf bw bh q = .ok ws) :
    (grid (buf.take 16)).1 * ((grid (buf.take 16)).2 + 1) < 64 := by
  have bw2 : 2 ≤ bw ∧ bw ≤ 72 := by unfold StdSize at hbw; omega
  have bh2 : 2 ≤ bh ∧ bh ≤ 72 := by unfold StdSize at hbh; omega
  unfold decodeWeights at h
  obtain ⟨wv, ewv, h⟩ := Out.bind_eq_ok.mp h
  rw [addU_ok (by omega), Out.ok_bind, subU_ok (by omega), Out.ok_bind,
    divU_ok (by omega), Out.ok_bind, addU_ok (by omega), Out.ok_bind, subU_ok (by omega), Out.ok_bind,
    divU_ok (by omega), Out.ok_bind] at h
  obtain ⟨st, e, -⟩ := Out.bind_eq_ok.mp h
  have last : ∀ {σ : Type} {n : Nat} {f : Nat → σ → Out σ} {s s' : σ}, 0 < n → forRange n f s = .ok s' →
      ∃ t, f (n - 1) t = .ok s' := by
    intro σ n f s s' hn h
    cases n with
    | zero => omega
    | succ n =>
      obtain ⟨t, -, e⟩ := Out.bind_eq_ok.mp h
      exact ⟨t, e⟩
  obtain ⟨t, e⟩ := last (by omega) e
  obtain ⟨t, e⟩ := last (by omega) e
  exact infillTexel_inside (weightValues_length ewv) hw hh hdu hbw hbh e

/-! ## Weights that do not fit -/

theorem getbits64_total (hc : Build.overflowChecks = false) {buf : List UInt8} (hd : 16 ≤ buf.length)
    {bit : Int} (h1 : -100000 ≤ bit) (h2 : bit < 128) {n : Nat} (hn : n ≤ 64) :
    ∃ v, getbits64 buf bit n = .ok v := by
  have shl : ∀ a k, ∃ v, shlU 64 a k = .ok v := by
    intro a k
    unfold shlU
    rw [hc]
    split
    · exact ⟨_, rfl⟩
    · exact ⟨_, rfl⟩
  have shr : ∀ a k, ∃ v, shrU 64 a k = .ok v := by
    intro a k
    unfold shrU
    rw [hc]
    split
    · exact ⟨_, rfl⟩
    · exact ⟨_, rfl⟩
  have sub : ∀ a k, ∃ v, subU 64 a k = .ok v := by
    intro a k
    unfold subU
    rw [hc]
    split
    · exact ⟨_, rfl⟩
    · exact ⟨_, rfl⟩
  have subi : ∀ a k, ∃ v, subI 64 a k = .ok v := by
    intro a k
    unfold subI fitI
    rw [hc]
    split
    · exact ⟨_, rfl⟩
    · exact ⟨_, rfl⟩
  have add : ∀ a k, ∃ v, addU 64 a k = .ok v := by
    intro a k
    unfold addU fitU
    rw [hc]
    split
    · exact ⟨_, rfl⟩
    · exact ⟨_, rfl⟩
  have sl : ∀ a b, a ≤ b → b ≤ 16 → ∃ v, slice buf a b = .ok v := by
    intro a b h1 h2
    unfold slice
    rw [if_pos ⟨h1, by omega⟩]
    exact ⟨_, rfl⟩
  unfold getbits64
  obtain ⟨mask, em⟩ : ∃ mask, (if n = 64 then pure 0xffffffffffffffff else do
      let one ← shlU 64 1 n
      subU 64 one 1 : Out Nat) = .ok mask := by
    by_cases h : n = 64
    · rw [if_pos h]; exact ⟨_, rfl⟩
    · rw [if_neg h]
      obtain ⟨v, e⟩ := shl 1 n
      rw [e, Out.ok_bind]
      exact sub _ _
  rw [em, Out.ok_bind]
  by_cases hn0 : n = 0
  · rw [if_pos hn0]; exact ⟨_, rfl⟩
  rw [if_neg hn0]
  by_cases h64 : bit ≥ 64
  · rw [if_pos h64]
    obtain ⟨a, e⟩ := sl 8 16 (by omega) (by omega)
    rw [e, Out.ok_bind]
    obtain ⟨b, e⟩ := subi bit 64
    rw [e, Out.ok_bind]
    obtain ⟨c, e⟩ := shr (fromLE (bytesOf a)) b.toNat
    rw [e, Out.ok_bind]
    exact ⟨_, rfl⟩
  rw [if_neg h64]
  obtain ⟨lo, elo⟩ := sl 0 8 (by omega) (by omega)
  by_cases h0 : bit ≤ 0
  · rw [if_pos h0, elo, Out.ok_bind]
    obtain ⟨c, e⟩ := shl (fromLE (bytesOf lo)) ((2 ^ 64 - asUI 64 bit) % 2 ^ 64)
    rw [e, Out.ok_bind]
    exact ⟨_, rfl⟩
  rw [if_neg h0]
  obtain ⟨e', ee⟩ := add (asUI 64 bit) n
  rw [ee, Out.ok_bind]
  obtain ⟨v, ev⟩ := shr (fromLE (bytesOf lo)) bit.toNat
  split
  · rw [elo, Out.ok_bind, ev, Out.ok_bind]
    exact ⟨_, rfl⟩
  · rw [elo, Out.ok_bind, ev, Out.ok_bind]
    obtain ⟨a, e⟩ := sl 8 16 (by omega) (by omega)
    rw [e, Out.ok_bind]
    obtain ⟨b, e⟩ := subi 64 bit
    rw [e, Out.ok_bind]
    obtain ⟨c, e⟩ := shl (fromLE (bytesOf a)) b.toNat
    rw [e, Out.ok_bind]
    exact ⟨_, rfl⟩

theorem word_total (hc : Build.overflowChecks = false) {buf : List UInt8} (hd : 16 ≤ buf.length)
    {p : Int} (h1 : -90000 ≤ p) (h2 : p ≤ 128) {n : Nat} (hn1 : 1 ≤ n) (hn : n ≤ 64) :
    ∃ v, intseqWord buf p n true = .ok v := by
  unfold intseqWord
  rw [if_pos rfl]
  have e : subI 64 p (n : Int) = .ok (p - n) := by
    have : InI 64 (p - (n : Int)) := by unfold InI; omega
    unfold subI
    rw [fitI_ok this]
  rw [e, Out.ok_bind]
  obtain ⟨v, ev⟩ := getbits64_total hc hd (bit := p - n) (by omega) (by omega) hn
  rw [ev, Out.ok_bind]
  exact ⟨_, bitReverseU64_ok hn1 hn⟩

/-- Unpacking one word never fails. -/
theorem unpack_total {per : Nat} {shifts : List Nat} {table : List (List Nat)} {mask d x b count n : Nat}
    {out : List IntSeqData} (hs : ∀ j, j < per → ∃ m, shifts[j]? = some m ∧ m + b * j < 64)
    (ht : ∀ j, j < per → ∃ row v, table[j]? = some row ∧ row[x]? = some v) (hc : count ≤ out.length) :
    ∃ n' out', intseqUnpack per shifts table mask d x b count n out = .ok (n', out') ∧
      out'.length = out.length := by
  unfold intseqUnpack
  obtain ⟨⟨n', o⟩, e, h⟩ := forRange_inv (n := per) (s := (n, out))
    (f := fun j (s : Nat × List IntSeqData) => do
      let (n, out) := s
      if n < count then do
        let m ← idx shifts j
        let v ← shrU 64 d (m + b * j)
        let row ← idx table j
        let nb ← idx row x
        let out ← setIdx out n ⟨v &&& mask, nb⟩
        pure (n + 1, out)
      else pure (n, out))
    (fun _ s => s.2.length = out.length) rfl (by
      rintro j hj ⟨k, o⟩ hP
      simp only at hP ⊢
      by_cases hk : k < count
      · rw [if_pos hk]
        obtain ⟨m, e1, hm⟩ := hs j hj
        obtain ⟨row, v, e2, e3⟩ := ht j hj
        rw [idx_of_some e1, Out.ok_bind, shrU_ok hm, Out.ok_bind, idx_of_some e2, Out.ok_bind,
          idx_of_some e3, Out.ok_bind, setIdx_ok (by omega), Out.ok_bind]
        exact ⟨_, rfl, by simp only [List.length_set]; exact hP⟩
      · rw [if_neg hk]
        exact ⟨_, rfl, hP⟩)
  exact ⟨n', o, e, h⟩

/-- A packed sequence is always read, from whatever position. -/
theorem packed_total (hc : Build.overflowChecks = false) {buf : List UInt8} (hd : 16 ≤ buf.length)
    {per extra : Nat} {shifts : List Nat} {table : List (List Nat)} {index : Nat → Nat → Out Nat}
    {b count X : Nat} (hb : b ≤ 8) (hper : per = 5 ∨ per = 3) (hsize : extra + per * b ≤ 64) (hex : 1 ≤ extra)
    (hcount : count ≤ 200) (hindex : ∀ d, ∃ x, index d b = .ok x ∧ x < X)
    (hs : ∀ j, j < per → ∃ m, shifts[j]? = some m ∧ m + b * j < 64)
    (ht : ∀ j, j < per → ∀ x, x < X → ∃ row v, table[j]? = some row ∧ row[x]? = some v)
    {out : List IntSeqData} (hout : count ≤ out.length) :
    ∃ out', intseqPacked per extra shifts table index buf 128 b count true out = .ok out' ∧
      out'.length = out.length := by
  unfold intseqPacked
  have hp : 2 ^ b ≤ 2 ^ 8 := Nat.pow_le_pow_right (by omega) hb
  have hp0 := Nat.two_pow_pos b
  rw [shlU_ok (by omega), Out.ok_bind, Nat.one_shiftLeft, Nat.mod_eq_of_lt (by omega), subU_ok (by omega),
    Out.ok_bind]
  have hlast : (count + (per - 1)) % per + 1 ≤ per ∧ 1 ≤ (count + (per - 1)) % per + 1 := by
    have := Nat.mod_lt (count + (per - 1)) (show per > 0 by omega)
    omega
  have hbcle : (count + per - 1) / per ≤ count := by
    rcases hper with rfl | rfl <;> omega
  have hsz : 1 ≤ (((extra + per * b) * ((count + (per - 1)) % per + 1)) + per - 1) / per ∧
      (((extra + per * b) * ((count + (per - 1)) % per + 1)) + per - 1) / per ≤ 64 := by
    have hS1 : 1 ≤ extra + per * b := by omega
    generalize extra + per * b = S at *
    generalize (count + (per - 1)) % per + 1 = last at *
    have m1 := Nat.mul_le_mul_left S hlast.1
    have m2 := Nat.mul_le_mul_left S hlast.2
    generalize S * last = y at *
    rcases hper with rfl | rfl <;> omega
  have hper0 : per ≠ 0 := by omega
  rw [divCeil_ok hper0, Out.ok_bind]
  simp only
  rw [divCeil_ok hper0, Out.ok_bind]
  generalize (((extra + per * b) * ((count + (per - 1)) % per + 1)) + per - 1) / per = L at *
  generalize (count + per - 1) / per = B at *
  obtain ⟨⟨n', p', o⟩, e, -, h⟩ := forRange_inv (n := B) (s := (0, ((128 : Nat) : Int), out))
    (f := fun i (s : Nat × Int × List IntSeqData) => do
      let d ← intseqWord buf s.2.1 (if i < B - 1 then extra + per * b else L) true
      let x ← index d b
      let u ← intseqUnpack per shifts table (2 ^ b - 1) d x b count s.1 s.2.2
      let p ← (if True then subI 64 s.2.1 (extra + per * b : Nat)
        else addI 64 s.2.1 (extra + per * b : Nat))
      pure (u.1, p, u.2))
    (fun i s => (s.2.1 ≤ 128 ∧ 128 - 64 * (i : Int) ≤ s.2.1) ∧ s.2.2.length = out.length)
    ⟨⟨by simp, by simp⟩, rfl⟩ (by
      rintro i hi ⟨n, p, o⟩ ⟨⟨hp1, hp2⟩, hlen⟩
      simp only at hp1 hp2 hlen ⊢
      obtain ⟨d, ed⟩ := word_total hc hd (p := p) (n := if i < B - 1 then extra + per * b else L)
        (by omega) hp1 (by split <;> omega) (by split <;> omega)
      rw [ed, Out.ok_bind]
      obtain ⟨x, ex, hx⟩ := hindex d
      rw [ex, Out.ok_bind]
      obtain ⟨n2, o2, eu, hu⟩ := unpack_total (mask := 2 ^ b - 1) (d := d) (count := count) (n := n) (out := o) hs
        (fun j hj => ht j hj x hx) (by omega)
      rw [eu, Out.ok_bind]
      simp only [if_true]
      have es : subI 64 p ((extra + per * b : Nat) : Int) = .ok (p - ((extra + per * b : Nat) : Int)) := by
        have : InI 64 (p - ((extra + per * b : Nat) : Int)) := by unfold InI; omega
        unfold subI
        rw [fitI_ok this]
      rw [es, Out.ok_bind]
      exact ⟨_, rfl, ⟨by simp only; omega, by simp only; omega⟩, by simp only; omega⟩)
  rw [e, Out.ok_bind]
  exact ⟨o, rfl, h⟩

theorem tritsIndex_total (d : Nat) {b : Nat} (hb : b ≤ 5) : ∃ x, tritsIndex d b = .ok x ∧ x < 256 := by
  unfold tritsIndex
  rw [shrU_ok (by omega), Out.ok_bind, shrU_ok (by omega), Out.ok_bind, shrU_ok (by omega), Out.ok_bind,
    shrU_ok (by omega), Out.ok_bind, shrU_ok (by omega), Out.ok_bind]
  refine ⟨_, rfl, ?_⟩
  have m : ∀ y k : Nat, k < 256 → y &&& k < 2 ^ 8 := fun y k h => Nat.lt_of_le_of_lt Nat.and_le_right h
  exact Nat.or_lt_two_pow (Nat.or_lt_two_pow (Nat.or_lt_two_pow (Nat.or_lt_two_pow (m _ 3 (by omega))
    (m _ 0xc (by omega))) (m _ 0x10 (by omega))) (m _ 0x60 (by omega))) (m _ 0x80 (by omega))

theorem quintsIndex_total (d : Nat) {b : Nat} (hb : b ≤ 5) : ∃ x, quintsIndex d b = .ok x ∧ x < 128 := by
  unfold quintsIndex
  rw [shrU_ok (by omega), Out.ok_bind, shrU_ok (by omega), Out.ok_bind, shrU_ok (by omega), Out.ok_bind]
  refine ⟨_, rfl, ?_⟩
  have m : ∀ y k : Nat, k < 128 → y &&& k < 2 ^ 7 := fun y k h => Nat.lt_of_le_of_lt Nat.and_le_right h
  exact Nat.or_lt_two_pow (Nat.or_lt_two_pow (m _ 7 (by omega)) (m _ 0x18 (by omega))) (m _ 0x60 (by omega))

omit [Build] in
theorem tritsRows {j x : Nat} (hj : j < 5) (hx : x < 256) :
    ∃ row v, tritsTable[j]? = some row ∧ row[x]? = some v := by
  have key : ∀ j : Fin 5, ∀ row, tritsTable[j.1]? = some row → row.length = 256 := by
    have k : ∀ j : Fin 5, (tritsTable.getD j.1 []).length = 256 := by decide +kernel
    intro j row h
    have := k j
    rw [List.getD_eq_getElem?_getD, h] at this
    exact this
  have hl : tritsTable.length = 5 := by decide +kernel
  have e := List.getElem?_eq_getElem (l := tritsTable) (i := j) (by omega)
  exact ⟨_, _, e, List.getElem?_eq_getElem (by rw [key ⟨j, hj⟩ _ e]; exact hx)⟩

omit [Build] in
theorem quintsRows {j x : Nat} (hj : j < 3) (hx : x < 128) :
    ∃ row v, quintsTable[j]? = some row ∧ row[x]? = some v := by
  have key : ∀ j : Fin 3, ∀ row, quintsTable[j.1]? = some row → row.length = 128 := by
    have k : ∀ j : Fin 3, (quintsTable.getD j.1 []).length = 128 := by decide +kernel
    intro j row h
    have := k j
    rw [List.getD_eq_getElem?_getD, h] at this
    exact this
  have hl : quintsTable.length = 3 := by decide +kernel
  have e := List.getElem?_eq_getElem (l := quintsTable) (i := j) (by omega)
  exact ⟨_, _, e, List.getElem?_eq_getElem (by rw [key ⟨j, hj⟩ _ e]; exact hx)⟩

/-- Without overflow checks, weights with trits or quints are always read. -/
theorem weightValues_total (hc : Build.overflowChecks = false) {buf : List UInt8} (hd : 16 ≤ buf.length)
    (hr : ¬ isReserved (buf.take 16))
    (hw : (weightQuant (buf.take 16)).base = 1 → weightBits (buf.take 16) ≤ 128)
    {p : AstcParams} (h1 : p.weightRange = rangeIndex (buf.take 16))
    (h2 : p.weightNum = weightNum (buf.take 16)) : ∃ wv, weightValues buf p = .ok wv := by
  by_cases hfit : weightBits (buf.take 16) ≤ 128
  · obtain ⟨wv, e, -⟩ := weightValues_ok hd hr hfit h1 h2
    exact ⟨wv, e⟩
  have hbase : (weightQuant (buf.take 16)).base ≠ 1 := fun h => hfit (hw h)
  obtain ⟨k, hk, hq⟩ := weightQuant_mem hr
  obtain ⟨hA, hB, hok, hb5, -⟩ := weightTable hr
  have hn := weightNum_le120 (buf.take 16)
  have hn0 : weightNum (buf.take 16) ≠ 0 := by
    intro h
    apply hfit
    unfold weightBits seqBits Spec.ceilDiv
    rw [h]
    split
    · omega
    · split <;> omega
  unfold weightValues
  rw [h1, h2, idx_of_some hA, Out.ok_bind, idx_of_some hB, Out.ok_bind, if_neg hbase]
  generalize hQ : weightQuant (buf.take 16) = Q at *
  have hseq : ∃ seq, decodeIntseq buf 128 Q.base Q.bits (weightNum (buf.take 16)) true
      (List.replicate 128 ⟨0, 0⟩) = .ok seq ∧ seq.length = 128 ∧ SeqIn Q.bits Q.base seq := by
    unfold decodeIntseq
    rw [if_neg hn0]
    have h0 : ∀ m, 0 < m → SeqIn Q.bits m (List.replicate 128 ⟨0, 0⟩) := by
      intro m hm s hs
      rw [(List.mem_replicate.mp hs).2]
      exact ⟨Nat.two_pow_pos _, hm⟩
    rcases (show Q.base = 3 ∨ Q.base = 5 by unfold QuantOk at hok; omega) with h | h
    · rw [if_pos h, h]
      obtain ⟨o, e, hl⟩ := packed_total hc hd (per := 5) (extra := 8) (shifts := mtTable) (table := tritsTable)
        (index := tritsIndex) (X := 256) (b := Q.bits) (count := weightNum (buf.take 16)) (by omega) (by omega)
        (by omega) (by omega) (by omega) (fun d => tritsIndex_total d hb5)
        (by
          intro j hj
          have hjb := Nat.mul_le_mul hb5 (show j ≤ 4 by omega)
          have key : ∀ j : Fin 5, ∃ m, mtTable[j.1]? = some m ∧ m ≤ 7 := by
            have k : ∀ j : Fin 5, mtTable[j.1]? = some (mtTable.getD j.1 0) ∧ mtTable.getD j.1 0 ≤ 7 := by decide
            exact fun j => ⟨_, k j⟩
          obtain ⟨m, e, hm⟩ := key ⟨j, hj⟩
          exact ⟨m, e, by omega⟩)
        (fun j hj x hx => tritsRows hj hx) (out := List.replicate 128 ⟨0, 0⟩) (by simp; omega)
      exact ⟨o, e, by rw [hl, List.length_replicate],
        packed_in (by omega) (by decide +kernel) (h0 3 (by omega)) e⟩
    · rw [if_neg (by omega), if_pos h, h]
      obtain ⟨o, e, hl⟩ := packed_total hc hd (per := 3) (extra := 7) (shifts := mqTable) (table := quintsTable)
        (index := quintsIndex) (X := 128) (b := Q.bits) (count := weightNum (buf.take 16)) (by omega) (by omega)
        (by omega) (by omega) (by omega) (fun d => quintsIndex_total d hb5)
        (by
          intro j hj
          have hjb := Nat.mul_le_mul hb5 (show j ≤ 2 by omega)
          have key : ∀ j : Fin 3, ∃ m, mqTable[j.1]? = some m ∧ m ≤ 7 := by
            have k : ∀ j : Fin 3, mqTable[j.1]? = some (mqTable.getD j.1 0) ∧ mqTable.getD j.1 0 ≤ 7 := by decide
            exact fun j => ⟨_, k j⟩
          obtain ⟨m, e, hm⟩ := key ⟨j, hj⟩
          exact ⟨m, e, by omega⟩)
        (fun j hj x hx => quintsRows hj hx) (out := List.replicate 128 ⟨0, 0⟩) (by simp; omega)
      exact ⟨o, e, by rw [hl, List.length_replicate],
        packed_in (by omega) (by decide +kernel) (h0 5 (by omega)) e⟩
  obtain ⟨seq, es, hsl, hin⟩ := hseq
  rw [es, Out.ok_bind]
  obtain ⟨l, el, -⟩ := forRange_inv (n := weightNum (buf.take 16)) (s := List.replicate 128 (0 : Int))
    (f := fun i wv => do
      let s ← idx seq i
      let x ← unquantWeight Q.base Q.bits s
      setIdx wv i x)
    (fun _ l => l.length = 128) List.length_replicate (by
      intro i hi l hl
      obtain ⟨g1, g2⟩ := hin seq[i] (List.getElem_mem (by omega))
      rw [idx_of_some (List.getElem?_eq_getElem (by omega)), Out.ok_bind]
      have hu := (unquantWeight_ok hk hq g1 g2).1
      rw [if_neg hbase] at hu
      rw [show seq[i] = ⟨seq[i].bits, seq[i].nonbits⟩ from rfl, hu, Out.ok_bind, setIdx_ok (by omega)]
      exact ⟨_, rfl, by rw [List.length_set]; exact hl⟩)
  exact ⟨l, el⟩

/-! ## Interpolation of any weights -/

theorem infillTexel_total {blk : List UInt8} {wv : List Int} (hwv : wv.length = 128)
    (hin : ∀ w ∈ wv, 0 ≤ w ∧ w ≤ 64)
    (hroom : (grid blk).1 * ((grid blk).2 + 1) * (if dual blk then 2 else 1) +
      (if dual blk then 2 else 1) ≤ 128)
    {q : AstcParams} (hw : q.width = (grid blk).1) (hh : q.height = (grid blk).2)
    (hdu : q.dualPlane = decide (dual blk)) {bw bh s t : Nat} (hbw : 2 ≤ bw) (hbw' : bw ≤ 72)
    (hbh : 2 ≤ bh) (hbh' : bh ≤ 72) (hs : s < bw) (ht : t < bh) {i : Nat} {weights : List (List Int)}
    (hi : i < weights.length) (hrows : ∀ row ∈ weights, row.length = 2) :
    ∃ weights', infillTexel wv q ((1024 + bw / 2) / (bw - 1)) ((1024 + bh / 2) / (bh - 1)) t s (i, weights) =
      .ok (i + 1, weights') ∧ weights'.length = weights.length ∧ ∀ row ∈ weights', row.length = 2 := by
  obtain ⟨W, hW, hle⟩ : ∃ W : Nat → Nat, (∀ i, i < 128 → wv[i]? = some (W i : Int)) ∧ ∀ i, W i ≤ 64 := by
    refine ⟨fun i => (wv.getD i 0).toNat, fun i hi => ?_, fun i => ?_⟩
    · have e := List.getElem?_eq_getElem (l := wv) (i := i) (by omega)
      have h := hin wv[i] (List.getElem_mem (by omega))
      show wv[i]? = some (((wv.getD i 0).toNat : Nat) : Int)
      rw [List.getD_eq_getElem?_getD, e, Option.getD_some]
      congr 1; omega
    · show (wv.getD i 0).toNat ≤ 64
      rw [List.getD_eq_getElem?_getD]
      cases e : wv[i]? with
      | none => simp
      | some w =>
        have := hin w (List.mem_of_getElem? e)
        rw [Option.getD_some]; omega
  obtain ⟨g1, g2, g3, g4⟩ := grid_le blk
  obtain ⟨p1, p2, p3⟩ := gridPos_lt hbw hbw' g1 g2 hs
  obtain ⟨q1, q2, q3⟩ := gridPos_lt hbh hbh' g3 g4 ht
  unfold infillTexel
  simp only
  rw [hw, hh, hdu, subU_ok (by omega), Out.ok_bind, subU_ok (by omega), Out.ok_bind]
  have hx : (1024 + bw / 2) / (bw - 1) * s * ((grid blk).1 - 1) ≤ 1060 * 11 :=
    Nat.mul_le_mul p2 (by omega)
  have hy : (1024 + bh / 2) / (bh - 1) * t * ((grid blk).2 - 1) ≤ 1060 * 11 :=
    Nat.mul_le_mul q2 (by omega)
  rw [mulU_ok (by omega), Out.ok_bind, mulU_ok (by omega), Out.ok_bind, addU_ok (by omega), Out.ok_bind,
    mulU_ok (by omega), Out.ok_bind, mulU_ok (by omega), Out.ok_bind, addU_ok (by omega), Out.ok_bind]
  have eg : ((1024 + bw / 2) / (bw - 1) * s * ((grid blk).1 - 1) + 32) >>> 6 = gridPos bw (grid blk).1 s :=
    shr_eq _ 6
  have eh : ((1024 + bh / 2) / (bh - 1) * t * ((grid blk).2 - 1) + 32) >>> 6 = gridPos bh (grid blk).2 t :=
    shr_eq _ 6
  rw [eg, eh]
  have hf := infill_factors (Nat.mod_lt (gridPos bw (grid blk).1 s) (show 0 < 16 by omega))
    (Nat.mod_lt (gridPos bh (grid blk).2 t) (show 0 < 16 by omega))
  generalize gridPos bw (grid blk).1 s = gs at *
  generalize gridPos bh (grid blk).2 t = gt at *
  have hv : gt / 16 * (grid blk).1 ≤ ((grid blk).2 - 1) * (grid blk).1 := Nat.mul_le_mul_right _ q1
  have hv2 : ((grid blk).2 - 1) * (grid blk).1 ≤ 11 * 12 := Nat.mul_le_mul (by omega) g2
  have hm1 : gs &&& 0xf = gs % 16 := and_mask gs 4
  have hm2 : gt &&& 0xf = gt % 16 := and_mask gt 4
  rw [hm1, hm2, shr_eq, shr_eq, shr_eq, show (2 : Nat) ^ 4 = 16 from rfl,
    mulU_ok (by omega), Out.ok_bind, addU_ok (by omega), Out.ok_bind]
  generalize hw11 : (gs % 16 * (gt % 16) + 8) / 16 = w11 at *
  rw [asI_nat (by omega), subI_nat (by omega) (by omega), Out.ok_bind, subI_nat (by omega) (by omega),
    Out.ok_bind, show (16 : Int) = ((16 : Nat) : Int) from rfl, subI_nat (by omega) (by omega), Out.ok_bind]
  rw [subI32_ok (by omega) (by omega), Out.ok_bind, addI32_ok (by omega) (by omega), Out.ok_bind]
  rw [show ((16 - gs % 16 : Nat) : Int) - ((gt % 16 : Nat) : Int) + (w11 : Int) =
    ((16 + w11 - gs % 16 - gt % 16 : Nat) : Int) by omega]
  generalize hV : gs / 16 + gt / 16 * (grid blk).1 = v at *
  have hvr : v + (grid blk).1 + 1 ≤ (grid blk).1 * ((grid blk).2 + 1) := by
    have : ((grid blk).2 - 1) * (grid blk).1 + (grid blk).1 = (grid blk).1 * (grid blk).2 := by
      rw [← Nat.succ_mul, show ((grid blk).2 - 1).succ = (grid blk).2 by omega, Nat.mul_comm]
    rw [Nat.mul_succ]
    omega
  have hfs : (16 + w11 - gs % 16 - gt % 16) + (gs % 16 - w11) + (gt % 16 - w11) + w11 = 16 := by omega
  obtain ⟨ws, ew, hl, hr2⟩ := forRange_inv (n := if decide (dual blk) = true then 2 else 1) (s := weights)
    (f := fun p weights => do
      let r ← infillWeight wv (if decide (dual blk) = true then 2 else 1) (grid blk).1 v p
        ((16 + w11 - gs % 16 - gt % 16 : Nat) : Int) ((gs % 16 - w11 : Nat) : Int) ((gt % 16 - w11 : Nat) : Int)
        (w11 : Int)
      let row ← idx weights i
      let row ← setIdx row p r
      setIdx weights i row)
    (fun _ ws => ws.length = weights.length ∧ ∀ row ∈ ws, row.length = 2) ⟨rfl, hrows⟩ (by
      rintro p hp ws ⟨hl, hr2⟩
      have hidx : (v + (grid blk).1 + 1) * (if decide (dual blk) = true then 2 else 1) + p < 128 := by
        by_cases hdd : dual blk
        · simp only [hdd, if_true, decide_true] at *
          omega
        · simp only [hdd, if_false, decide_false, Bool.false_eq_true] at *
          omega
      have hp2 : p < 2 := by
        revert hp
        split <;> omega
      have hmem : ws[i] ∈ ws := List.getElem_mem (by omega)
      have hrl := hr2 _ hmem
      rw [infillWeight_ok hW hle hfs hidx, Out.ok_bind, idx_of_some (List.getElem?_eq_getElem (by omega)),
        Out.ok_bind, setIdx_ok (by omega), Out.ok_bind, setIdx_ok (by omega)]
      refine ⟨_, rfl, by rw [List.length_set]; exact hl, ?_⟩
      exact set_all hr2 (by rw [List.length_set]; exact hrl) _)
  rw [ew, Out.ok_bind]
  exact ⟨ws, rfl, hl, hr2⟩

/-- Without overflow checks, the weights of a block in which the reads of plain-bit weights and of grid
neighbours stay inside are some numbers up to 64. -/
theorem decodeWeights_total (hc : Build.overflowChecks = false) {buf : List UInt8} (hd : 16 ≤ buf.length)
    (hr : ¬ isReserved (buf.take 16))
    (hplain : (weightQuant (buf.take 16)).base = 1 → weightBits (buf.take 16) ≤ 128)
    (hroom : (grid (buf.take 16)).1 * ((grid (buf.take 16)).2 + 1) * (if dual (buf.take 16) then 2 else 1) +
      (if dual (buf.take 16) then 2 else 1) ≤ 128)
    {q : AstcParams} (h1 : q.weightRange = rangeIndex (buf.take 16))
    (h2 : q.weightNum = weightNum (buf.take 16)) (hw : q.width = (grid (buf.take 16)).1)
    (hh : q.height = (grid (buf.take 16)).2)
    (hdu : q.dualPlane = decide (dual (buf.take 16))) {bw bh : Nat} (hbw : 2 ≤ bw) (hbh : 2 ≤ bh)
    (hb : bw * bh ≤ 144) :
    ∃ ws, decodeWeights buf bw bh q = .ok ws ∧ ∀ i, i < bw * bh →
      ∃ a b : Nat, ws[i]? = some [(a : Int), (b : Int)] ∧ a ≤ 64 ∧ b ≤ 64 := by
  have hbw' : bw ≤ 72 := by
    have := Nat.mul_le_mul_left bw hbh
    omega
  have hbh' : bh ≤ 72 := by
    have := Nat.mul_le_mul_right bh hbw
    omega
  obtain ⟨wv, e⟩ := weightValues_total hc hd hr hplain h1 h2
  have hws : ∃ ws, decodeWeights buf bw bh q = .ok ws ∧ ws.length = 144 ∧ ∀ row ∈ ws, row.length = 2 := by
    unfold decodeWeights
    rw [e, Out.ok_bind, addU_ok (by omega), Out.ok_bind, subU_ok (by omega), Out.ok_bind,
      divU_ok (by omega), Out.ok_bind, addU_ok (by omega), Out.ok_bind, subU_ok (by omega), Out.ok_bind,
      divU_ok (by omega), Out.ok_bind]
    obtain ⟨⟨k, l⟩, el, -, hl, hr2⟩ := forRange_inv (n := bh)
      (s := ((0 : Nat), List.replicate 144 [(0 : Int), 0]))
      (f := fun t st => forRange bw (fun s st => infillTexel wv q ((1024 + bw / 2) / (bw - 1))
        ((1024 + bh / 2) / (bh - 1)) t s st) st)
      (fun k st => st.1 = k * bw ∧ st.2.length = 144 ∧ ∀ row ∈ st.2, row.length = 2)
      ⟨by simp, by simp, fun row h => by rw [(List.mem_replicate.mp h).2]; rfl⟩
      (by
        rintro t ht ⟨k, l⟩ ⟨hk, hl, hr2⟩
        simp only at hk hl hr2
        have hm := Nat.mul_le_mul_right bw (show t + 1 ≤ bh by omega)
        rw [Nat.add_mul, Nat.one_mul, Nat.mul_comm bh] at hm
        obtain ⟨st', e', h'⟩ := forRange_inv (n := bw) (s := (k, l))
          (f := fun s st => infillTexel wv q ((1024 + bw / 2) / (bw - 1)) ((1024 + bh / 2) / (bh - 1)) t s st)
          (fun j st => st.1 = t * bw + j ∧ st.2.length = 144 ∧ ∀ row ∈ st.2, row.length = 2)
          ⟨hk, hl, hr2⟩ (by
            rintro s hs ⟨k, l⟩ ⟨hk, hl, hr2⟩
            simp only at hk hl hr2
            obtain ⟨l', e, hl', hr'⟩ := infillTexel_total (weightValues_length e) (weightValues_in e) hroom hw hh
              hdu hbw hbw' hbh hbh' hs ht (i := k) (weights := l) (by omega) hr2
            exact ⟨_, e, by simp only; omega, by simp only; omega, hr'⟩)
        refine ⟨st', e', ?_, h'.2⟩
        rw [h'.1, Nat.add_mul, Nat.one_mul])
    rw [el, Out.ok_bind]
    exact ⟨l, rfl, hl, hr2⟩
  obtain ⟨ws, ew, hl, hr2⟩ := hws
  refine ⟨ws, ew, fun i hi => ?_⟩
  have hin := decodeWeights_in ew
  have hmem : ws[i] ∈ ws := List.getElem_mem (by omega)
  have h2 := hr2 _ hmem
  have hval := hin _ hmem
  rw [List.getElem?_eq_getElem (by omega)]
  match hrow : ws[i], h2, hval with
  | [a, b], _, hval =>
    have ha := hval a (by simp)
    have hb := hval b (by simp)
    refine ⟨a.toNat, b.toNat, ?_, by omega, by omega⟩
    rw [show ((a.toNat : Nat) : Int) = a by omega, show ((b.toNat : Nat) : Int) = b by omega]

/-! ## Texels from any weights -/

/-- A component of a texel, for any endpoints and any weights. -/
def componentAny (E : Nat → List Nat) (W : Nat → Nat → Nat) (blk : List UInt8) (bw bh i ch : Nat) : Nat :=
  let p := partitionAt blk bw bh (i % bw) (i / bw)
  let e := E p
  let w := W i (if dual blk ∧ ch = planeSel blk then 1 else 0)
  if isHdr (cem blk p) ch then hdr (e.getD ch 0) (e.getD (ch + 4) 0) w
  else ldr (e.getD ch 0) (e.getD (ch + 4) 0) w

theorem texel_components_any {blk : List UInt8} {E : Nat → List Nat} (hE : EndsOk blk E)
    {W : Nat → Nat → Nat} (hW : ∀ i p, W i p ≤ 64) (bw bh i : Nat) {row : List Int}
    (hrow : row = [(W i 0 : Int), (W i 1 : Int)]) {ch : Nat} (hch : ch < 4) :
    texelChannel (if ch = 3 then funcTableA else funcTableC) (cem blk (partitionAt blk bw bh (i % bw) (i / bw)))
      (ints (E (partitionAt blk bw bh (i % bw) (i / bw)))) row
      (if dual blk ∧ ch = planeSel blk then 1 else 0) ch = .ok (componentAny E W blk bw bh i ch) := by
  have hm := cem_lt16 blk (partitionAt blk bw bh (i % bw) (i / bw))
  obtain ⟨a, b, c, d, e, f, g, h, hl, h0, h1, h2, h3, h4, h5, h6, h7⟩ :=
    hE _ (partitionAt_lt blk bw bh (i % bw) (i / bw))
  have tC := tableC ⟨_, hm⟩
  have tA := tableA ⟨_, hm⟩
  simp only at tC tA
  obtain ⟨tC, t1, t2⟩ := tC
  unfold componentAny
  simp only
  rw [hl]
  generalize cem blk (partitionAt blk bw bh (i % bw) (i / bw)) = m at *
  have hw : row[if dual blk ∧ ch = planeSel blk then 1 else 0]? =
      some ((W i (if dual blk ∧ ch = planeSel blk then 1 else 0) : Nat) : Int) := by
    by_cases hd : dual blk ∧ ch = planeSel blk
    · simp only [if_pos hd]
      rw [hrow]; rfl
    · simp only [if_neg hd]
      rw [hrow]; rfl
  have hw64 := hW i (if dual blk ∧ ch = planeSel blk then 1 else 0)
  rcases (show ch = 0 ∨ ch = 1 ∨ ch = 2 ∨ ch = 3 by omega) with rfl | rfl | rfl | rfl
  · exact texelChannel_ok tC rfl rfl hw hw64 h0 h4
  · rw [t1]; exact texelChannel_ok tC rfl rfl hw hw64 h1 h5
  · rw [t2]; exact texelChannel_ok tC rfl rfl hw hw64 h2 h6
  · exact texelChannel_ok tA rfl rfl hw hw64 h3 h7

/-- Without overflow checks: the texels of a block whose configuration and weights do not fit. -/
theorem decodeAstcTexels_over (hc : Build.overflowChecks = false) {buf : List UInt8} (hd : 16 ≤ buf.length)
    (hr : ¬ isReserved (buf.take 16))
    (hover : 128 < configBits (buf.take 16) + weightBits (buf.take 16)) (hbel : Below (buf.take 16))
    (hlen : (if parts (buf.take 16) = 1 then 17 else 29) + 8 * valueNum (buf.take 16) ≤ 8 * buf.length)
    (hplain : (weightQuant (buf.take 16)).base = 1 → weightBits (buf.take 16) ≤ 128)
    (harea : dual (buf.take 16) → (grid (buf.take 16)).1 * ((grid (buf.take 16)).2 + 1) < 64)
    {bw bh : Nat} (hbw : 2 ≤ bw) (hbh : 2 ≤ bh) (hb : bw * bh ≤ 144) :
    ∃ c : Nat → UInt32, ∀ out : List UInt32, bw * bh ≤ out.length →
      ∃ o, decodeAstcTexels buf bw bh out = .ok o ∧ o.length = out.length ∧
        (∀ i, i < bw * bh → o[i]? = some (c i)) ∧ ∀ i, bw * bh ≤ i → o[i]? = out[i]? := by
  obtain ⟨hP1, hP4⟩ := parts_bounds (buf.take 16)
  obtain ⟨ev, V, ev', hl, hV, hv⟩ := colourValues_plain (buf := buf) (r := 0) (b := 8) rfl rfl (by omega)
    (by omega) (p := {
        width := (grid (buf.take 16)).1, height := (grid (buf.take 16)).2,
        partNum := parts (buf.take 16), dualPlane := decide (dual (buf.take 16)),
        planeSelector := if dual (buf.take 16) then planeSel (buf.take 16) else 0,
        weightRange := rangeIndex (buf.take 16), weightNum := weightNum (buf.take 16),
        cem := cemList (buf.take 16), cemRange := 0,
        endpointValueNum := valueNum (buf.take 16) }) rfl rfl rfl
  obtain ⟨es, ee, hes⟩ := decodeEndpoints_of hV rfl rfl ev' hl hv
  have hE' : ∃ E : Nat → List Nat, EndsOk (buf.take 16) E ∧
      ∀ k, k < parts (buf.take 16) → es[k]? = some (ints (E k)) :=
    ⟨_, fun k _ => endpoints_bound true (cem_lt16 _ _) (fun i => hV _), hes⟩
  clear hes
  obtain ⟨E, hE, hes⟩ := hE'
  have hroom : (grid (buf.take 16)).1 * ((grid (buf.take 16)).2 + 1) * (if dual (buf.take 16) then 2 else 1) +
      (if dual (buf.take 16) then 2 else 1) ≤ 128 := by
    by_cases hdu : dual (buf.take 16)
    · have := harea hdu
      simp only [hdu, if_true]
      omega
    · have := (grid_area (buf.take 16)).1
      simp only [hdu, if_false]
      omega
  obtain ⟨ws, ew, hws⟩ := decodeWeights_total hc hd hr hplain hroom (q := {
        width := (grid (buf.take 16)).1, height := (grid (buf.take 16)).2,
        partNum := parts (buf.take 16), dualPlane := decide (dual (buf.take 16)),
        planeSelector := if dual (buf.take 16) then planeSel (buf.take 16) else 0,
        weightRange := rangeIndex (buf.take 16), weightNum := weightNum (buf.take 16),
        cem := cemList (buf.take 16), cemRange := 0,
        endpointValueNum := valueNum (buf.take 16) }) rfl rfl rfl rfl rfl hbw hbh hb
  obtain ⟨W, hW, hW64⟩ : ∃ W : Nat → Nat → Nat, (∀ i, i < bw * bh → ws[i]? = some [(W i 0 : Int), (W i 1 : Int)]) ∧
      ∀ i p, W i p ≤ 64 := by
    have hex : ∀ i, ∃ f : Nat → Nat, (i < bw * bh → ws[i]? = some [(f 0 : Int), (f 1 : Int)]) ∧ ∀ p, f p ≤ 64 := by
      intro i
      by_cases hi : i < bw * bh
      · obtain ⟨a, b, e, ha, hb⟩ := hws i hi
        refine ⟨fun p => if p = 0 then a else b, fun _ => by simpa using e, fun p => ?_⟩
        show (if p = 0 then a else b) ≤ 64
        split <;> omega
      · exact ⟨fun _ => 0, fun h => absurd h hi, fun _ => Nat.zero_le 64⟩
    exact ⟨fun i => Classical.choose (hex i), fun i => (Classical.choose_spec (hex i)).1,
      fun i => (Classical.choose_spec (hex i)).2⟩
  refine ⟨fun i => Spec.px (componentAny E W (buf.take 16) bw bh i 0) (componentAny E W (buf.take 16) bw bh i 1)
    (componentAny E W (buf.take 16) bw bh i 2) (componentAny E W (buf.take 16) bw bh i 3), fun out ho => ?_⟩
  unfold decodeAstcTexels
  rw [params_over hc hd hr hover hbel, Out.ok_bind, ee, Out.ok_bind, ew, Out.ok_bind]
  simp only
  have hpart : ∃ ps, (if parts (buf.take 16) > 1 then selectPartition buf bw bh (parts (buf.take 16))
      else pure (List.replicate 144 0)) = .ok ps ∧
      (parts (buf.take 16) > 1 → ∀ i, i < bw * bh →
        ps[i]? = some (partitionAt (buf.take 16) bw bh (i % bw) (i / bw))) := by
    by_cases h : parts (buf.take 16) > 1
    · obtain ⟨ps, e, hp⟩ := selectPartition_ok hd hb (show parts (buf.take 16) ≠ 1 by omega)
      exact ⟨ps, by rw [if_pos h, e], fun _ => hp⟩
    · exact ⟨_, if_neg h, fun h' => absurd h' h⟩
  obtain ⟨part, epart, hpart⟩ := hpart
  rw [epart, Out.ok_bind]
  unfold astcApplicateColor
  have hsel : planeSel (buf.take 16) < 4 := field_lt _ _ 2
  obtain ⟨ps, eps, hps⟩ := planes_ok (d := decide (dual (buf.take 16)))
    (k := if dual (buf.take 16) then planeSel (buf.take 16) else 0) (by split <;> omega)
  simp only
  rw [eps, Out.ok_bind, mulU_ok (by omega), Out.ok_bind]
  have hps' : ∀ ch, ch < 4 → ps[ch]? =
      some (if dual (buf.take 16) ∧ ch = planeSel (buf.take 16) then 1 else 0) := by
    intro ch hch
    rw [hps ch hch]
    by_cases h : dual (buf.take 16)
    · simp only [h, if_true, decide_true, true_and]
    · simp only [h, decide_false, false_and, Bool.false_eq_true]
  obtain ⟨o, e, hl, h1, h2⟩ := pixelLoop' (n := bw * bh) (f := fun i out => do
    let p ← (if parts (buf.take 16) > 1 then idx part i else pure 0)
    let cem ← idx (cemList (buf.take 16)) p
    let e ← idx es p
    let row ← idx ws i
    let p0 ← idx ps 0
    let p1 ← idx ps 1
    let p2 ← idx ps 2
    let p3 ← idx ps 3
    let r ← texelChannel funcTableC cem e row p0 0
    let g ← texelChannel funcTableC cem e row p1 1
    let b ← texelChannel funcTableC cem e row p2 2
    let a ← texelChannel funcTableA cem e row p3 3
    setIdx out i (color r g b a))
    (fun i _ => Spec.px (componentAny E W (buf.take 16) bw bh i 0)
      (componentAny E W (buf.take 16) bw bh i 1)
      (componentAny E W (buf.take 16) bw bh i 2)
      (componentAny E W (buf.take 16) bw bh i 3)) out ho
    (by
      intro i hi o p hlen hp
      have hpi : (if parts (buf.take 16) > 1 then idx part i else pure 0 : Out Nat) =
          .ok (partitionAt (buf.take 16) bw bh (i % bw) (i / bw)) := by
        by_cases h : parts (buf.take 16) > 1
        · rw [if_pos h, idx_of_some (hpart h i hi)]
        · rw [if_neg h]
          unfold partitionAt
          rw [if_pos (by omega)]; rfl
      have hlt := partitionAt_lt (buf.take 16) bw bh (i % bw) (i / bw)
      have C := fun {ch} => texel_components_any hE hW64 bw bh i (row := _) rfl (ch := ch)
      have c0 := C (ch := 0) (by omega)
      have c1 := C (ch := 1) (by omega)
      have c2 := C (ch := 2) (by omega)
      have c3 := C (ch := 3) (by omega)
      rw [if_neg (by omega)] at c0 c1 c2
      rw [if_pos rfl] at c3
      rw [hpi, Out.ok_bind, idx_of_some (cemList_get hlt (by omega)), Out.ok_bind,
        idx_of_some (hes _ hlt), Out.ok_bind, idx_of_some (hW i hi), Out.ok_bind,
        idx_of_some (hps' 0 (by omega)), Out.ok_bind, idx_of_some (hps' 1 (by omega)), Out.ok_bind,
        idx_of_some (hps' 2 (by omega)), Out.ok_bind, idx_of_some (hps' 3 (by omega)), Out.ok_bind,
        c0, Out.ok_bind, c1, Out.ok_bind, c2, Out.ok_bind, c3, Out.ok_bind, setIdx_ok (by omega), color_eq])
  refine ⟨o, e, hl, ?_, h2⟩
  intro i hi
  rw [h1 i hi, List.getElem?_eq_getElem (by omega)]
  rfl

/-! ## Blocks and images -/

theorem f16_total (hc : Build.overflowChecks = false) {buf : List UInt8} {k : Nat} (hd : 16 ≤ buf.length)
    (hk : k + 2 ≤ 16) : ∃ v, f16ptrToU8 (buf.drop k) = .ok v := by
  by_cases h : Spec.field (buf.take 16) (8 * k) 16 = 0xfc00
  · exact ⟨255, by rw [f16_neg_inf hd hk h, if_neg (by rw [hc]; exact Bool.false_ne_true)]⟩
  · exact ⟨_, f16_ok hd hk h⟩

theorem voidColour_total (hc : Build.overflowChecks = false) {buf : List UInt8} (hd : 16 ≤ buf.length) :
    ∃ c, Model.voidColour buf = .ok c := by
  by_cases h9 : bit (buf.take 16) 9 = 1
  · unfold Model.voidColour
    obtain ⟨a, ea⟩ := f16_total hc hd (k := 8) (by omega)
    obtain ⟨b, eb⟩ := f16_total hc hd (k := 10) (by omega)
    obtain ⟨c, ec⟩ := f16_total hc hd (k := 12) (by omega)
    obtain ⟨d, ed⟩ := f16_total hc hd (k := 14) (by omega)
    rw [byte_eq (by omega), Out.ok_bind, if_pos ((void_bit9 hd).mpr h9),
      sliceFrom_ok (by omega), Out.ok_bind, ea, Out.ok_bind,
      sliceFrom_ok (by omega), Out.ok_bind, eb, Out.ok_bind,
      sliceFrom_ok (by omega), Out.ok_bind, ec, Out.ok_bind,
      sliceFrom_ok (by omega), Out.ok_bind, ed, Out.ok_bind]
    exact ⟨_, rfl⟩
  · exact ⟨_, voidColour_ok hd (fun h => absurd h h9)⟩

/-- Without overflow checks, a block that is not one of `PanicsUnchecked` decodes to texels that do not
depend on the old output. -/
theorem decodeAstcBlock_release_total (hc : Build.overflowChecks = false) {buf : List UInt8}
    (hd : 16 ≤ buf.length) (hp : ¬ PanicsUnchecked (buf.take 16) buf.length) {bw bh : Nat}
    (hbw : 2 ≤ bw) (hbh : 2 ≤ bh) (hb : bw * bh ≤ 144) :
    ∃ c : Nat → UInt32, ∀ out : List UInt32, bw * bh ≤ out.length →
      ∃ o, decodeAstcBlock buf bw bh out = .ok o ∧ o.length = out.length ∧
        (∀ i, i < bw * bh → o[i]? = some (c i)) ∧ ∀ i, bw * bh ≤ i → o[i]? = out[i]? := by
  by_cases hv : isVoid (buf.take 16)
  · obtain ⟨c, ec⟩ := voidColour_total hc hd
    refine ⟨fun _ => c, fun out ho => ?_⟩
    unfold decodeAstcBlock
    rw [byte_eq (by omega), Out.ok_bind, byte_eq (by omega), Out.ok_bind, if_pos ((void_iff hd).mpr hv),
      ec, Out.ok_bind, mulU_ok (by omega), Out.ok_bind]
    exact fillRange_ok ho c
  by_cases hr : isReserved (buf.take 16)
  · refine ⟨_, fun out ho => decodeAstcBlock_ok hd ?_ hbw hbh hb out ho⟩
    unfold Fits
    rw [if_neg hv]
    exact Or.inl hr
  have hp := fun h => hp ⟨hv, hr, h⟩
  have hA : dual (buf.take 16) → (grid (buf.take 16)).1 * ((grid (buf.take 16)).2 + 1) < 64 :=
    fun h => Nat.lt_of_not_le fun h' => hp (Or.inl ⟨h, h'⟩)
  have hB : (weightQuant (buf.take 16)).base = 1 → weightBits (buf.take 16) ≤ 128 :=
    fun h => Nat.le_of_not_lt fun h' => hp (Or.inr (Or.inl ⟨h, h'⟩))
  have hbel : Below (buf.take 16) :=
    ⟨fun h => Nat.le_of_not_lt fun h' => hp (Or.inr (Or.inr (Or.inl ⟨h, h'⟩))),
      fun h => Nat.le_of_not_lt fun h' => hp (Or.inr (Or.inr (Or.inr (Or.inl ⟨h, h'⟩))))⟩
  have hE : ¬ (128 < configBits (buf.take 16) + weightBits (buf.take 16) + valueNum (buf.take 16) ∧
      8 * buf.length < (if parts (buf.take 16) = 1 then 17 else 29) + 8 * valueNum (buf.take 16)) :=
    fun h => hp (Or.inr (Or.inr (Or.inr (Or.inr h))))
  have hT : ∃ c : Nat → UInt32, ∀ out : List UInt32, bw * bh ≤ out.length →
      ∃ o, decodeAstcTexels buf bw bh out = .ok o ∧ o.length = out.length ∧
        (∀ i, i < bw * bh → o[i]? = some (c i)) ∧ ∀ i, bw * bh ≤ i → o[i]? = out[i]? := by
    by_cases hover : 128 < configBits (buf.take 16) + weightBits (buf.take 16)
    · exact decodeAstcTexels_over hc hd hr hover hbel (by omega) hB hA hbw hbh hb
    · exact decodeAstcTexels_loose hd hr (by omega) (by omega) hbw hbh hb
  obtain ⟨c, hT⟩ := hT
  refine ⟨c, fun out ho => ?_⟩
  have hred : decodeAstcBlock buf bw bh out = decodeAstcTexels buf bw bh out := by
    unfold decodeAstcBlock
    rw [byte_eq (by omega), Out.ok_bind, byte_eq (by omega), Out.ok_bind,
      if_neg (fun h => hv ((void_iff hd).mp h)), if_neg (fun h => hr ((reserved_iff hd).mp h))]
  rw [hred]
  exact hT out ho

/-- Without overflow checks, the blocks of `PanicsUnchecked` panic, for the block sizes of the standard. -/
theorem decodeAstcBlock_release_panic (hc : Build.overflowChecks = false) {buf : List UInt8}
    (hd : 16 ≤ buf.length) (hl : buf.length < 2 ^ 60) (hp : PanicsUnchecked (buf.take 16) buf.length)
    {bw bh : Nat} (hbw : StdSize bw) (hbh : StdSize bh) (out : List UInt32) :
    decodeAstcBlock buf bw bh out = .panic := by
  obtain ⟨hv, hr, hp⟩ := hp
  have hred : decodeAstcBlock buf bw bh out = decodeAstcTexels buf bw bh out := by
    unfold decodeAstcBlock
    rw [byte_eq (by omega), Out.ok_bind, byte_eq (by omega), Out.ok_bind,
      if_neg (fun h => hv ((void_iff hd).mp h)), if_neg (fun h => hr ((reserved_iff hd).mp h))]
  rw [hred]
  cases h : decodeAstcTexels buf bw bh out with
  | panic => rfl
  | ok o =>
    exfalso
    unfold decodeAstcTexels at h
    obtain ⟨p, ep, h⟩ := Out.bind_eq_ok.mp h
    obtain ⟨es, ee, h⟩ := Out.bind_eq_ok.mp h
    obtain ⟨ws, ew, -⟩ := Out.bind_eq_ok.mp h
    have hbel := params_below hd hl hr ep
    have hp0 : ∃ r, p = {
        width := (grid (buf.take 16)).1, height := (grid (buf.take 16)).2,
        partNum := parts (buf.take 16), dualPlane := decide (dual (buf.take 16)),
        planeSelector := if dual (buf.take 16) then planeSel (buf.take 16) else 0,
        weightRange := rangeIndex (buf.take 16), weightNum := weightNum (buf.take 16),
        cem := cemList (buf.take 16), cemRange := r,
        endpointValueNum := valueNum (buf.take 16) } ∧
        (128 < configBits (buf.take 16) + weightBits (buf.take 16) + valueNum (buf.take 16) → r = 0) := by
      by_cases hover : 128 < configBits (buf.take 16) + weightBits (buf.take 16)
      · rw [params_over hc hd hr hover hbel] at ep
        exact ⟨0, (Out.ok.inj ep).symm, fun _ => rfl⟩
      by_cases hfit : configBits (buf.take 16) + weightBits (buf.take 16) +
          seqBits ⟨3, 1⟩ (valueNum (buf.take 16)) ≤ 128
      · obtain ⟨r, er, -⟩ := range_ok hfit
        rw [params_range hd hr (by omega) er] at ep
        refine ⟨r, (Out.ok.inj ep).symm, fun h => ?_⟩
        have hlt : valueNum (buf.take 16) ≤ seqBits ⟨3, 1⟩ (valueNum (buf.take 16)) := by
          unfold seqBits; simp only [Nat.mul_one]; omega
        omega
      · have er := range_rest (n := valueNum (buf.take 16))
          (remain := 128 - configBits (buf.take 16) - weightBits (buf.take 16)) (by omega)
        rw [params_range hd hr (by omega) er] at ep
        refine ⟨_, (Out.ok.inj ep).symm, fun h => ?_⟩
        rw [if_neg (by omega), if_neg (by omega)]
    obtain ⟨r, rfl, hr0⟩ := hp0
    rcases hp with ⟨hdu, hA⟩ | ⟨hb1, hB⟩ | ⟨hx, hC⟩ | ⟨hdu, hD⟩ | ⟨h1, hE⟩
    · have := grid_inside rfl rfl (by simp [hdu]) hbw hbh ew
      omega
    · unfold decodeWeights at ew
      obtain ⟨wv, ewv, -⟩ := Out.bind_eq_ok.mp ew
      have := weights_inside hl hr rfl rfl ewv hb1
      omega
    · have := hbel.1 hx
      omega
    · have := hbel.2 hdu
      omega
    · have := values_inside (hr0 h1) rfl rfl ee
      omega

theorem decodeAstc_release_panic_iff (hc : Build.overflowChecks = false) {data : List UInt8}
    {w h bw bh : Nat} {image : List UInt32} (hbw : StdSize bw) (hbh : StdSize bh)
    (hl : data.length < 2 ^ 60)
    (hs : Spec.SizesOk bw bh 16 w h image) (hdata : Spec.bytesNeeded bw bh 16 w h ≤ data.length)
    (himg : w * h ≤ image.length) :
    decodeAstc data w h bw bh image = .panic ↔
      ∃ k, k < Spec.numBlocks bw bh w h ∧
        PanicsUnchecked (Spec.blockBytes 16 data k) (data.length - 16 * k) := by
  have h1 : 2 ≤ bw ∧ bw ≤ 12 := by unfold StdSize at hbw; omega
  have h2 : 2 ≤ bh ∧ bh ≤ 12 := by unfold StdSize at hbh; omega
  have hb : bw * bh ≤ 144 := Nat.mul_le_mul h1.2 h2.2
  exact decodeAstc_panic_iff_of PanicsUnchecked h1.1 h2.1 hb hs hdata himg
    (fun k hd hp out _ => decodeAstcBlock_release_panic hc hd (by rw [List.length_drop]; omega) hp hbw hbh out)
    (fun _ hd hp => decodeAstcBlock_release_total hc hd hp h1.1 h2.1 hb)

end Verif.Proofs.Astc
