import Verif.Proofs.AstcColour
import Verif.Proofs.AstcWeights
import Verif.Proofs.AstcPartition
import Verif.Proofs.AstcFloat
import Verif.Proofs.Tiles
/-!
Proofs: one ASTC block.
-/
namespace Verif.Proofs.Astc
open Verif Verif.Model Verif.Proofs Verif.Spec.Astc
variable [Build]

/-! ## Texels -/

omit [Build] in
theorem tableC : ∀ m : Fin 16, funcTableC[m.1]? = some (isHdr m 0) ∧
    isHdr m 1 = isHdr m 0 ∧ isHdr m 2 = isHdr m 0 := by decide +kernel

omit [Build] in
theorem tableA : ∀ m : Fin 16, funcTableA[m.1]? = some (isHdr m 3) := by decide +kernel

theorem texelChannel_ok {table : List Bool} {m ch plane : Nat} {e : List Nat} {row : List Int}
    {b : Bool} {v0 v1 w : Nat} (ht : table[m]? = some b) (h0 : e[ch]? = some v0)
    (h1 : e[ch + 4]? = some v1) (hw : row[plane]? = some (w : Int)) (hw64 : w ≤ 64)
    (hv0 : v0 ≤ if b then 4095 else 255) (hv1 : v1 ≤ if b then 4095 else 255) :
    texelChannel table m (ints e) row plane ch =
      .ok (if b then hdr v0 v1 w else ldr v0 v1 w) := by
  unfold texelChannel
  have hi : ∀ {i v : Nat}, e[i]? = some v → (ints e)[i]? = some (v : Int) := by
    intro i v h
    unfold ints
    rw [List.getElem?_map, h]; rfl
  rw [idx_of_some ht, Out.ok_bind, idx_of_some (hi h0), Out.ok_bind, idx_of_some (hi h1), Out.ok_bind,
    idx_of_some hw, Out.ok_bind]
  unfold selectFor
  cases b
  · simp only [Bool.false_eq_true, if_false] at hv0 hv1 ⊢
    exact selectColor_ok hv0 hv1 hw64
  · simp only [if_true] at hv0 hv1 ⊢
    exact selectColorHdr_ok hv0 hv1 hw64

omit [Build] in
theorem partitionAt_lt (blk : List UInt8) (bw bh s t : Nat) : partitionAt blk bw bh s t < parts blk := by
  unfold partitionAt
  obtain ⟨h1, h4⟩ := parts_bounds blk
  by_cases h : parts blk = 1
  · rw [if_pos h]; omega
  · rw [if_neg h]; exact selectPartition_lt (by omega)

omit [Build] in
theorem valueNum_ge (blk : List UInt8) : 2 ≤ valueNum blk := by
  obtain ⟨h1, -⟩ := parts_bounds blk
  have h := valuesBefore_mono blk h1
  have h2 : valuesBefore blk 1 = 0 + cemValues (cem blk 0) := rfl
  have h3 : 2 ≤ cemValues (cem blk 0) := by unfold cemValues; omega
  unfold valueNum
  omega

/-- A component of a texel, for any endpoints of the partitions. -/
def componentOf (E : Nat → List Nat) (blk : List UInt8) (bw bh s t ch : Nat) : Nat :=
  let p := partitionAt blk bw bh s t
  let e := E p
  let plane := if dual blk ∧ ch = planeSel blk then 1 else 0
  let w := texelWeight blk bw bh s t plane
  if isHdr (cem blk p) ch then hdr (e.getD ch 0) (e.getD (ch + 4) 0) w
  else ldr (e.getD ch 0) (e.getD (ch + 4) 0) w

/-- The endpoints of all partitions are in range. -/
def EndsOk (blk : List UInt8) (E : Nat → List Nat) : Prop :=
  ∀ k, k < parts blk → PairOk (if isHdr (cem blk k) 0 then 4095 else 255)
    (if isHdr (cem blk k) 3 then 4095 else 255) (E k)

/-- The four components of one texel. -/
theorem texel_components {blk : List UInt8} {E : Nat → List Nat} (hres : ¬ isReserved blk)
    (hE : EndsOk blk E) (bw bh s t : Nat) {row : List Int}
    (hrow : row = [(texelWeight blk bw bh s t 0 : Int),
      if dual blk then (texelWeight blk bw bh s t 1 : Int) else 0]) {ch : Nat} (hch : ch < 4) :
    texelChannel (if ch = 3 then funcTableA else funcTableC) (cem blk (partitionAt blk bw bh s t))
      (ints (E (partitionAt blk bw bh s t))) row
      (if dual blk ∧ ch = planeSel blk then 1 else 0) ch = .ok (componentOf E blk bw bh s t ch) := by
  have hm := cem_lt16 blk (partitionAt blk bw bh s t)
  obtain ⟨a, b, c, d, e, f, g, h, hl, h0, h1, h2, h3, h4, h5, h6, h7⟩ :=
    hE _ (partitionAt_lt blk bw bh s t)
  have hw0 := texelWeight_le hres bw bh s t 0
  have hw1 := texelWeight_le hres bw bh s t 1
  have tC := tableC ⟨_, hm⟩
  have tA := tableA ⟨_, hm⟩
  simp only at tC tA
  obtain ⟨tC, t1, t2⟩ := tC
  unfold componentOf
  simp only
  rw [hl]
  generalize cem blk (partitionAt blk bw bh s t) = m at *
  have hw : row[if dual blk ∧ ch = planeSel blk then 1 else 0]? =
      some ((texelWeight blk bw bh s t (if dual blk ∧ ch = planeSel blk then 1 else 0) : Nat) : Int) := by
    by_cases hd : dual blk ∧ ch = planeSel blk
    · simp only [if_pos hd]
      rw [hrow, if_pos hd.1]; rfl
    · simp only [if_neg hd]
      rw [hrow]; rfl
  have hw64 : texelWeight blk bw bh s t (if dual blk ∧ ch = planeSel blk then 1 else 0) ≤ 64 :=
    texelWeight_le hres _ _ _ _ _
  rcases (show ch = 0 ∨ ch = 1 ∨ ch = 2 ∨ ch = 3 by omega) with rfl | rfl | rfl | rfl
  · exact texelChannel_ok tC rfl rfl hw hw64 h0 h4
  · rw [t1]; exact texelChannel_ok tC rfl rfl hw hw64 h1 h5
  · rw [t2]; exact texelChannel_ok tC rfl rfl hw hw64 h2 h6
  · exact texelChannel_ok tA rfl rfl hw hw64 h3 h7

omit [Build] in
theorem planes_ok {d : Bool} {k : Nat} (hk : k < 4) :
    ∃ ps : List Nat, (if d then setIdx [0, 0, 0, 0] k 1 else pure [0, 0, 0, 0] : Out (List Nat)) = .ok ps ∧
      ∀ ch, ch < 4 → ps[ch]? = some (if d = true ∧ ch = k then 1 else 0) := by
  cases d
  · refine ⟨[0, 0, 0, 0], rfl, fun ch hch => ?_⟩
    rcases (show ch = 0 ∨ ch = 1 ∨ ch = 2 ∨ ch = 3 by omega) with rfl | rfl | rfl | rfl <;> rfl
  · refine ⟨[0, 0, 0, 0].set k 1, by rw [if_pos rfl, setIdx_ok (by simpa using hk)], fun ch hch => ?_⟩
    have key : ∀ k : Fin 4, ∀ ch : Fin 4, ([0, 0, 0, 0].set k.1 1)[ch.1]? =
      some (if true = true ∧ ch.1 = k.1 then 1 else 0) := by decide
    exact key ⟨k, hk⟩ ⟨ch, hch⟩

/-- The texels, once the endpoints are known. -/
theorem decodeAstcTexels_of {buf : List UInt8} (hd : 16 ≤ buf.length) (hr : ¬ isReserved (buf.take 16))
    (hroom : configBits (buf.take 16) + weightBits (buf.take 16) ≤ 128) {r : Nat}
    (er : astcCemRange (valueNum (buf.take 16))
      (128 - configBits (buf.take 16) - weightBits (buf.take 16)) 0 19 = .ok r)
    {E : Nat → List Nat} (hE : EndsOk (buf.take 16) E) {es : List (List Int)}
    (ee : decodeEndpoints buf {
        width := (grid (buf.take 16)).1, height := (grid (buf.take 16)).2,
        partNum := parts (buf.take 16), dualPlane := decide (dual (buf.take 16)),
        planeSelector := if dual (buf.take 16) then planeSel (buf.take 16) else 0,
        weightRange := rangeIndex (buf.take 16), weightNum := weightNum (buf.take 16),
        cem := cemList (buf.take 16), cemRange := r,
        endpointValueNum := valueNum (buf.take 16) } = .ok es)
    (hes : ∀ k, k < parts (buf.take 16) → es[k]? = some (ints (E k)))
    {bw bh : Nat} (hbw : 2 ≤ bw) (hbh : 2 ≤ bh)
    (hb : bw * bh ≤ 144) (out : List UInt32) (ho : bw * bh ≤ out.length) :
    ∃ o, decodeAstcTexels buf bw bh out = .ok o ∧ o.length = out.length ∧
      (∀ i, i < bw * bh → o[i]? = some (
        let c := componentOf E (buf.take 16) bw bh (i % bw) (i / bw)
        Spec.px (c 0) (c 1) (c 2) (c 3))) ∧
      ∀ i, bw * bh ≤ i → o[i]? = out[i]? := by
  unfold decodeAstcTexels
  obtain ⟨hP1, hP4⟩ := parts_bounds (buf.take 16)
  rw [params_range hd hr hroom er, Out.ok_bind, ee, Out.ok_bind]
  obtain ⟨-, hroom'⟩ := weight_room hr hroom
  obtain ⟨ws, ew, -, hws⟩ := decodeWeights_ok hd hr (by omega) hroom' (q := {
        width := (grid (buf.take 16)).1, height := (grid (buf.take 16)).2,
        partNum := parts (buf.take 16), dualPlane := decide (dual (buf.take 16)),
        planeSelector := if dual (buf.take 16) then planeSel (buf.take 16) else 0,
        weightRange := rangeIndex (buf.take 16), weightNum := weightNum (buf.take 16),
        cem := cemList (buf.take 16), cemRange := r,
        endpointValueNum := valueNum (buf.take 16) }) rfl rfl rfl rfl rfl hbw hbh hb
  rw [ew, Out.ok_bind]
  simp only
  have hpart : ∃ ps, (if parts (buf.take 16) > 1 then selectPartition buf bw bh (parts (buf.take 16))
      else pure (List.replicate 144 0)) = .ok ps ∧
      (parts (buf.take 16) > 1 → ∀ i, i < bw * bh →
        ps[i]? = some (partitionAt (buf.take 16) bw bh (i % bw) (i / bw))) := by
    by_cases h : parts (buf.take 16) > 1
    · obtain ⟨ps, e, hp⟩ := selectPartition_ok hd hb (show parts (buf.take 16) ≠ 1 by omega)
      exact ⟨ps, by rw [if_pos h, e], fun _ => hp⟩
    · exact ⟨_, if_neg h, fun h' => absurd h' h⟩
  obtain ⟨part, epart, hpart⟩ := hpart
  rw [epart, Out.ok_bind]
  unfold astcApplicateColor
  have hsel : planeSel (buf.take 16) < 4 := field_lt _ _ 2
  obtain ⟨ps, eps, hps⟩ := planes_ok (d := decide (dual (buf.take 16)))
    (k := if dual (buf.take 16) then planeSel (buf.take 16) else 0) (by split <;> omega)
  simp only
  rw [eps, Out.ok_bind, mulU_ok (by omega), Out.ok_bind]
  have hps' : ∀ ch, ch < 4 → ps[ch]? =
      some (if dual (buf.take 16) ∧ ch = planeSel (buf.take 16) then 1 else 0) := by
    intro ch hch
    rw [hps ch hch]
    by_cases h : dual (buf.take 16)
    · simp only [h, if_true, decide_true, true_and]
    · simp only [h, decide_false, false_and, Bool.false_eq_true]
  obtain ⟨o, e, hl, h1, h2⟩ := pixelLoop' (n := bw * bh) (f := fun i out => do
    let p ← (if parts (buf.take 16) > 1 then idx part i else pure 0)
    let cem ← idx (cemList (buf.take 16)) p
    let e ← idx es p
    let row ← idx ws i
    let p0 ← idx ps 0
    let p1 ← idx ps 1
    let p2 ← idx ps 2
    let p3 ← idx ps 3
    let r ← texelChannel funcTableC cem e row p0 0
    let g ← texelChannel funcTableC cem e row p1 1
    let b ← texelChannel funcTableC cem e row p2 2
    let a ← texelChannel funcTableA cem e row p3 3
    setIdx out i (color r g b a))
    (fun i _ => Spec.px (componentOf E (buf.take 16) bw bh (i % bw) (i / bw) 0)
      (componentOf E (buf.take 16) bw bh (i % bw) (i / bw) 1)
      (componentOf E (buf.take 16) bw bh (i % bw) (i / bw) 2)
      (componentOf E (buf.take 16) bw bh (i % bw) (i / bw) 3)) out ho
    (by
      intro i hi o p hlen hp
      have hpi : (if parts (buf.take 16) > 1 then idx part i else pure 0 : Out Nat) =
          .ok (partitionAt (buf.take 16) bw bh (i % bw) (i / bw)) := by
        by_cases h : parts (buf.take 16) > 1
        · rw [if_pos h, idx_of_some (hpart h i hi)]
        · rw [if_neg h]
          unfold partitionAt
          rw [if_pos (by omega)]; rfl
      have hlt := partitionAt_lt (buf.take 16) bw bh (i % bw) (i / bw)
      have C := fun {ch} => texel_components hr hE bw bh (i % bw) (i / bw) (row := _) rfl (ch := ch)
      have c0 := C (ch := 0) (by omega)
      have c1 := C (ch := 1) (by omega)
      have c2 := C (ch := 2) (by omega)
      have c3 := C (ch := 3) (by omega)
      rw [if_neg (by omega)] at c0 c1 c2
      rw [if_pos rfl] at c3
      rw [hpi, Out.ok_bind, idx_of_some (cemList_get hlt (by omega)), Out.ok_bind,
        idx_of_some (hes _ hlt), Out.ok_bind, idx_of_some (hws i hi), Out.ok_bind,
        idx_of_some (hps' 0 (by omega)), Out.ok_bind, idx_of_some (hps' 1 (by omega)), Out.ok_bind,
        idx_of_some (hps' 2 (by omega)), Out.ok_bind, idx_of_some (hps' 3 (by omega)), Out.ok_bind,
        c0, Out.ok_bind, c1, Out.ok_bind, c2, Out.ok_bind, c3, Out.ok_bind, setIdx_ok (by omega), color_eq])
  refine ⟨o, e, hl, ?_, h2⟩
  intro i hi
  rw [h1 i hi, List.getElem?_eq_getElem (by omega)]
  rfl

/-- A block with texels that fits decodes to the standard's texels (with the crate's rule for HDR
direct endpoints). -/
theorem decodeAstcTexels_ok {buf : List UInt8} (hd : 16 ≤ buf.length) (hr : ¬ isReserved (buf.take 16))
    (hfit : configBits (buf.take 16) + weightBits (buf.take 16) +
      seqBits ⟨3, 1⟩ (valueNum (buf.take 16)) ≤ 128) {bw bh : Nat} (hbw : 2 ≤ bw) (hbh : 2 ≤ bh)
    (hb : bw * bh ≤ 144) (out : List UInt32) (ho : bw * bh ≤ out.length) :
    ∃ o, decodeAstcTexels buf bw bh out = .ok o ∧ o.length = out.length ∧
      (∀ i, i < bw * bh → o[i]? = some (
        let c := component true (buf.take 16) bw bh (i % bw) (i / bw)
        Spec.px (c 0) (c 1) (c 2) (c 3))) ∧
      ∀ i, bw * bh ≤ i → o[i]? = out[i]? := by
  obtain ⟨r, er, hr17, hq⟩ := range_ok hfit
  obtain ⟨es, ee, hes⟩ := decodeEndpoints_ok hd hr17 hq hfit (p := {
        width := (grid (buf.take 16)).1, height := (grid (buf.take 16)).2,
        partNum := parts (buf.take 16), dualPlane := decide (dual (buf.take 16)),
        planeSelector := if dual (buf.take 16) then planeSel (buf.take 16) else 0,
        weightRange := rangeIndex (buf.take 16), weightNum := weightNum (buf.take 16),
        cem := cemList (buf.take 16), cemRange := r,
        endpointValueNum := valueNum (buf.take 16) }) rfl rfl rfl rfl
  exact decodeAstcTexels_of hd hr (by omega) er
    (fun k _ => endpoints_bound true (cem_lt16 _ _) (fun i => colourValue_lt hr17 hq _))
    ee hes hbw hbh hb out ho

/-! ## Void-extent and reserved blocks -/

omit [Build] in
theorem void_iff {buf : List UInt8} (hd : 16 ≤ buf.length) :
    (Spec.leNat buf / 2 ^ (8 * 0) % 256 = 0xfc ∧ (Spec.leNat buf / 2 ^ (8 * 1) % 256) &&& 1 = 1) ↔
      isVoid (buf.take 16) := by
  unfold isVoid
  rw [field_take (by omega)]
  rw [and_1]
  omega

omit [Build] in
theorem reserved_iff {buf : List UInt8} (hd : 16 ≤ buf.length) :
    (((Spec.leNat buf / 2 ^ (8 * 0) % 256) &&& 0xc3 = 0xc0 ∧
      (Spec.leNat buf / 2 ^ (8 * 1) % 256) &&& 1 = 1) ∨
      (Spec.leNat buf / 2 ^ (8 * 0) % 256) &&& 0xf = 0) ↔ isReserved (buf.take 16) := by
  unfold isReserved
  rw [field_take (by omega), field_take (by omega), field_take (by omega), and_1]
  have h1 : ∀ v : Fin 256, (v.1 &&& 0xc3 = 0xc0 ↔ v.1 / 64 = 3 ∧ v.1 % 4 = 0) ∧
      (v.1 &&& 0xf = 0 ↔ v.1 % 16 = 0) := by decide +kernel
  obtain ⟨a, b⟩ := h1 ⟨Spec.leNat buf / 2 ^ (8 * 0) % 256, Nat.mod_lt _ (by omega)⟩
  simp only at a b
  rw [a, b]
  omega

theorem f16_ok {buf : List UInt8} {k : Nat} (hd : 16 ≤ buf.length) (hk : k + 2 ≤ 16)
    (h : Spec.field (buf.take 16) (8 * k) 16 ≠ 0xfc00) :
    f16ptrToU8 (buf.drop k) = .ok (Spec.halfToByte (Spec.field (buf.take 16) (8 * k) 16)) := by
  unfold f16ptrToU8
  rw [u16_ok (by rw [List.length_drop]; omega), Out.ok_bind]
  rw [field_take (by omega)] at h ⊢
  have e : Spec.leNat (buf.drop k) % 65536 = Spec.leNat buf / 2 ^ (8 * k) % 2 ^ 16 := by
    rw [leNat_drop]
  rw [e]
  have hlt : Spec.leNat buf / 2 ^ (8 * k) % 2 ^ 16 < 65536 := Nat.mod_lt _ (by omega)
  generalize Spec.leNat buf / 2 ^ (8 * k) % 2 ^ 16 = v at *
  obtain ⟨b, eb, hb⟩ := fp16ToFp32_ok hlt
  rw [eb, Out.ok_bind]
  exact astcF32ToU8_half hb (by omega)

theorem f16_neg_inf {buf : List UInt8} {k : Nat} (hd : 16 ≤ buf.length) (hk : k + 2 ≤ 16)
    (h : Spec.field (buf.take 16) (8 * k) 16 = 0xfc00) :
    f16ptrToU8 (buf.drop k) = if Build.overflowChecks then .panic else .ok 255 := by
  unfold f16ptrToU8
  rw [u16_ok (by rw [List.length_drop]; omega), Out.ok_bind]
  rw [field_take (by omega)] at h
  have e : Spec.leNat (buf.drop k) % 65536 = Spec.leNat buf / 2 ^ (8 * k) % 2 ^ 16 := by
    rw [leNat_drop]
  rw [e]
  have hlt : Spec.leNat buf / 2 ^ (8 * k) % 2 ^ 16 < 65536 := Nat.mod_lt _ (by omega)
  generalize Spec.leNat buf / 2 ^ (8 * k) % 2 ^ 16 = v at *
  obtain ⟨b, eb, hb⟩ := fp16ToFp32_ok hlt
  rw [eb, Out.ok_bind]
  exact astcF32ToU8_neg_inf hb (by omega)

omit [Build] in
theorem void_bit9 {buf : List UInt8} (hd : 16 ≤ buf.length) :
    ((Spec.leNat buf / 2 ^ (8 * 1) % 256) &&& 2 ≠ 0) ↔ bit (buf.take 16) 9 = 1 := by
  unfold bit
  rw [field_take (by omega)]
  have h1 : ∀ v : Fin 256, (v.1 &&& 2 ≠ 0 ↔ v.1 / 2 % 2 = 1) := by decide +kernel
  have a := h1 ⟨Spec.leNat buf / 2 ^ (8 * 1) % 256, Nat.mod_lt _ (by omega)⟩
  simp only at a
  rw [a]
  omega

theorem voidColour_ok {buf : List UInt8} (hd : 16 ≤ buf.length)
    (h : bit (buf.take 16) 9 = 1 → ∀ i, i < 4 → Spec.field (buf.take 16) (64 + 16 * i) 16 ≠ 0xfc00) :
    Model.voidColour buf = .ok (Spec.Astc.voidColour (buf.take 16)) := by
  unfold Model.voidColour Spec.Astc.voidColour
  rw [byte_eq (by omega), Out.ok_bind]
  by_cases h9 : bit (buf.take 16) 9 = 1
  · rw [if_pos ((void_bit9 hd).mpr h9)]
    simp only [if_pos h9]
    have h := h h9
    rw [sliceFrom_ok (by omega), Out.ok_bind, f16_ok hd (by omega) (h 0 (by omega)), Out.ok_bind,
      sliceFrom_ok (by omega), Out.ok_bind, f16_ok hd (by omega) (h 1 (by omega)), Out.ok_bind,
      sliceFrom_ok (by omega), Out.ok_bind, f16_ok hd (by omega) (h 2 (by omega)), Out.ok_bind,
      sliceFrom_ok (by omega), Out.ok_bind, f16_ok hd (by omega) (h 3 (by omega)), Out.ok_bind,
      color_eq]
    rfl
  · rw [if_neg (fun h' => h9 ((void_bit9 hd).mp h'))]
    simp only [if_neg h9]
    rw [byte_eq (by omega), Out.ok_bind, byte_eq (by omega), Out.ok_bind, byte_eq (by omega), Out.ok_bind,
      byte_eq (by omega), Out.ok_bind, color_eq]
    rw [field_take (by omega), field_take (by omega), field_take (by omega), field_take (by omega)]
    have e : ∀ p, Spec.leNat buf / 2 ^ p % 2 ^ 16 / 256 = Spec.leNat buf / 2 ^ (p + 8) % 256 := by
      intro p
      rw [Nat.pow_add, ← Nat.div_div_eq_div_mul]
      omega
    rw [e, e, e, e]
    rfl

omit [Build] in
theorem fillRange_ok {out : List UInt32} {n : Nat} (h : n ≤ out.length) (c : UInt32) :
    ∃ o, fillRange out 0 n c = .ok o ∧ o.length = out.length ∧ (∀ i, i < n → o[i]? = some c) ∧
      ∀ i, n ≤ i → o[i]? = out[i]? := by
  refine ⟨List.replicate n c ++ out.drop n, ?_, ?_, ?_, ?_⟩
  · unfold fillRange
    rw [if_pos ⟨by omega, h⟩]
    rfl
  · rw [List.length_append, List.length_replicate, List.length_drop]; omega
  · intro i hi
    rw [List.getElem?_append_left (by rw [List.length_replicate]; exact hi), List.getElem?_replicate,
      if_pos hi]
  · intro i hi
    rw [List.getElem?_append_right (by rw [List.length_replicate]; exact hi), List.length_replicate,
      List.getElem?_drop]
    congr 1
    omega

/-- A block that fits: its texels are those of the standard (with the crate's rule for HDR direct
endpoints), and the rest of the output is kept. -/
theorem decodeAstcBlock_ok {buf : List UInt8} (hd : 16 ≤ buf.length) (hf : Fits (buf.take 16))
    {bw bh : Nat} (hbw : 2 ≤ bw) (hbh : 2 ≤ bh) (hb : bw * bh ≤ 144) (out : List UInt32)
    (ho : bw * bh ≤ out.length) :
    ∃ o, decodeAstcBlock buf bw bh out = .ok o ∧ o.length = out.length ∧
      (∀ i, i < bw * bh → o[i]? = some (texel true bw bh (buf.take 16) i)) ∧
      ∀ i, bw * bh ≤ i → o[i]? = out[i]? := by
  unfold decodeAstcBlock
  rw [byte_eq (by omega), Out.ok_bind, byte_eq (by omega), Out.ok_bind]
  unfold Fits at hf
  by_cases hv : isVoid (buf.take 16)
  · rw [if_pos ((void_iff hd).mpr hv)]
    rw [if_pos hv] at hf
    rw [voidColour_ok hd hf, Out.ok_bind, mulU_ok (by omega), Out.ok_bind]
    obtain ⟨o, e, hl, h1, h2⟩ := fillRange_ok ho (Spec.Astc.voidColour (buf.take 16))
    refine ⟨o, e, hl, fun i hi => ?_, h2⟩
    rw [h1 i hi, texel, if_pos hv]
  rw [if_neg (fun h => hv ((void_iff hd).mp h))]
  rw [if_neg hv] at hf
  by_cases hr : isReserved (buf.take 16)
  · rw [if_pos ((reserved_iff hd).mpr hr), mulU_ok (by omega), Out.ok_bind]
    obtain ⟨o, e, hl, h1, h2⟩ := fillRange_ok ho (color 255 0 255 255)
    refine ⟨o, e, hl, fun i hi => ?_, h2⟩
    rw [h1 i hi, texel, if_neg hv, if_pos hr, color_eq]
    rfl
  rw [if_neg (fun h => hr ((reserved_iff hd).mp h))]
  obtain ⟨o, e, hl, h1, h2⟩ := decodeAstcTexels_ok hd hr (hf.resolve_left hr) hbw hbh hb out ho
  refine ⟨o, e, hl, fun i hi => ?_, h2⟩
  rw [h1 i hi, texel, if_neg hv, if_neg hr]

end Verif.Proofs.Astc
