import Verif.Proofs.AstcHdr
import Verif.Proofs.Tiles

/-! # Colour values and endpoints of ASTC blocks -/

namespace Verif.Proofs.Astc

open Verif Verif.Model Verif.Proofs
open Verif.Spec.Astc (bitsAt clamp Quant seqBits colourQuants colourQuant colourValue colourStream
  configBits weightBits valueNum valuesBefore parts cem cemValues endpoints isHdr ise isReserved dual
  planeSel weightNum blockEndpoints extraBits grid)

/-! ## Bounds -/

/-- A pair of endpoints with colour components up to `hc` and alpha components up to `ha`. -/
def PairOk (hc ha : Nat) (l : List Nat) : Prop :=
  ∃ a b c d e f g h, l = [a, b, c, d, e, f, g, h] ∧ a ≤ hc ∧ b ≤ hc ∧ c ≤ hc ∧ d ≤ ha ∧ e ≤ hc ∧
    f ≤ hc ∧ g ≤ hc ∧ h ≤ ha

theorem pairOk {hc ha a b c d e f g h : Nat} (h0 : a ≤ hc) (h1 : b ≤ hc) (h2 : c ≤ hc) (h3 : d ≤ ha)
    (h4 : e ≤ hc) (h5 : f ≤ hc) (h6 : g ≤ hc) (h7 : h ≤ ha) : PairOk hc ha [a, b, c, d, e, f, g, h] :=
  ⟨a, b, c, d, e, f, g, h, rfl, h0, h1, h2, h3, h4, h5, h6, h7⟩

theorem clamp_le (hi : Nat) (x : Int) : clamp hi x ≤ hi := by
  unfold clamp
  omega

theorem direct_bound {v0 v1 v2 v3 v4 v5 a1 a2 : Nat} (h0 : v0 < 256) (h1 : v1 < 256) (h2 : v2 < 256)
    (h3 : v3 < 256) (h4 : v4 < 256) (h5 : v5 < 256) (h6 : a1 < 256) (h7 : a2 < 256) :
    PairOk 255 255 (Spec.Astc.direct v0 v1 v2 v3 v4 v5 a1 a2) := by
  unfold Spec.Astc.direct
  split <;> apply pairOk <;> omega

theorem baseOffset_bound (b0 b1 b2 : Nat) (o0 o1 o2 : Int) (a1 : Nat) (a2 : Int) :
    PairOk 255 255 (Spec.Astc.baseOffset b0 b1 b2 o0 o1 o2 a1 a2) := by
  unfold Spec.Astc.baseOffset
  split <;> apply pairOk <;> apply clamp_le

theorem hdrScale_bound (v0 v1 v2 v3 : Nat) : PairOk 4095 4095 (Spec.Astc.hdrScale v0 v1 v2 v3) := by
  unfold Spec.Astc.hdrScale
  exact pairOk (clamp_le _ _) (clamp_le _ _) (clamp_le _ _) (by omega) (clamp_le _ _) (clamp_le _ _)
    (clamp_le _ _) (by omega)

theorem hdrDirect_bound {asIs : Bool} {v0 v1 v2 v3 v4 v5 a1 a2 ha : Nat} (h0 : v0 < 256)
    (h1 : v1 < 256) (h2 : v2 < 256) (h3 : v3 < 256) (h6 : a1 ≤ ha) (h7 : a2 ≤ ha) :
    PairOk 4095 ha (Spec.Astc.hdrDirect asIs v0 v1 v2 v3 v4 v5 a1 a2) := by
  unfold Spec.Astc.hdrDirect
  simp only
  split
  · apply pairOk <;> omega
  · exact pairOk (clamp_le _ _) (clamp_le _ _) (clamp_le _ _) h6 (clamp_le _ _) (clamp_le _ _)
      (clamp_le _ _) h7

theorem hdrAlpha_bound {v6 v7 : Nat} (h6 : v6 < 256) (h7 : v7 < 256) :
    (Spec.Astc.hdrAlpha v6 v7).1 < 4096 ∧ (Spec.Astc.hdrAlpha v6 v7).2 < 4096 :=
  (@hdrAlpha_ok Build.release v6 v7 h6 h7).2

theorem hdrLuma_bound {v0 v1 : Nat} (h0 : v0 < 256) (h1 : v1 < 256) :
    PairOk 4095 4095 (let (y0, y1) := if v0 ≤ v1 then (v0 * 16, v1 * 16) else (v1 * 16 + 8, v0 * 16 - 8)
      [y0, y0, y0, 0x780, y1, y1, y1, 0x780]) := by
  by_cases h : v0 ≤ v1
  · rw [if_pos h]; apply pairOk <;> omega
  · rw [if_neg h]; apply pairOk <;> omega

theorem hdrLumaDelta_bound {v0 v1 : Nat} (h1 : v1 < 256) :
    PairOk 4095 4095 (let (y0, d) := if 128 ≤ v0 then (v1 / 32 * 512 + v0 % 128 * 4, v1 % 32 * 4)
        else (v1 / 16 * 256 + v0 % 128 * 2, v1 % 16 * 2)
      let y1 := min 0xfff (y0 + d)
      [y0, y0, y0, 0x780, y1, y1, y1, 0x780]) := by
  by_cases h : 128 ≤ v0
  · rw [if_pos h]; apply pairOk <;> omega
  · rw [if_neg h]; apply pairOk <;> omega

theorem scale_bound {v0 v1 v2 v3 a1 a2 : Nat} (h0 : v0 < 256) (h1 : v1 < 256) (h2 : v2 < 256)
    (h3 : v3 < 256) (h4 : a1 < 256) (h5 : a2 < 256) :
    PairOk 255 255 [v0 * v3 / 256, v1 * v3 / 256, v2 * v3 / 256, a1, v0, v1, v2, a2] := by
  have m0 : v0 * v3 ≤ 255 * 255 := Nat.mul_le_mul (by omega) (by omega)
  have m1 : v1 * v3 ≤ 255 * 255 := Nat.mul_le_mul (by omega) (by omega)
  have m2 : v2 * v3 ≤ 255 * 255 := Nat.mul_le_mul (by omega) (by omega)
  apply pairOk <;> omega

/-- The bounds of the endpoint components: 255 for LDR components, 4095 for HDR components. -/
theorem endpoints_bound (asIs : Bool) {m : Nat} (hm : m < 16) {v : Nat → Nat} (hv : ∀ i, v i < 256) :
    PairOk (if isHdr m 0 then 4095 else 255) (if isHdr m 3 then 4095 else 255) (endpoints asIs m v) := by
  have h0 := hv 0
  have h1 := hv 1
  have h2 := hv 2
  have h3 := hv 3
  have h4 := hv 4
  have h5 := hv 5
  have h6 := hv 6
  have h7 := hv 7
  rcases (show m = 0 ∨ m = 1 ∨ m = 2 ∨ m = 3 ∨ m = 4 ∨ m = 5 ∨ m = 6 ∨ m = 7 ∨ m = 8 ∨ m = 9 ∨ m = 10 ∨
       m = 11 ∨ m = 12 ∨ m = 13 ∨ m = 14 ∨ m = 15 by omega) with
    rfl | rfl | rfl | rfl | rfl | rfl | rfl | rfl | rfl | rfl | rfl | rfl | rfl | rfl | rfl | rfl
  · apply pairOk <;> simp [isHdr] <;> omega
  · apply pairOk <;> simp [isHdr] <;> omega
  · exact hdrLuma_bound h0 h1
  · exact hdrLumaDelta_bound h1
  · apply pairOk <;> simp [isHdr] <;> omega
  · have b1 := baseOf_lt h1 h0
    have b3 := baseOf_lt h3 h2
    exact pairOk (by simp [isHdr]; omega) (by simp [isHdr]; omega) (by simp [isHdr]; omega)
      (by simp [isHdr]; omega) (clamp_le _ _) (clamp_le _ _) (clamp_le _ _) (clamp_le _ _)
  · exact scale_bound h0 h1 h2 h3 (by omega) (by omega)
  · exact hdrScale_bound _ _ _ _
  · exact direct_bound h0 h1 h2 h3 h4 h5 (by omega) (by omega)
  · exact baseOffset_bound _ _ _ _ _ _ _ _
  · exact scale_bound h0 h1 h2 h3 h4 h5
  · exact hdrDirect_bound h0 h1 h2 h3 (by simp [isHdr]) (by simp [isHdr])
  · exact direct_bound h0 h1 h2 h3 h4 h5 h6 h7
  · exact baseOffset_bound _ _ _ _ _ _ _ _
  · exact hdrDirect_bound h0 h1 h2 h3 (by simp [isHdr]; omega) (by simp [isHdr]; omega)
  · have ha := hdrAlpha_bound h6 h7
    exact hdrDirect_bound h0 h1 h2 h3 (Nat.le_of_lt_succ ha.1) (Nat.le_of_lt_succ ha.2)

variable [Build]

/-! ## Endpoints of one partition -/

theorem decodeEndpoint_ok {m : Nat} (hm : m < 16) {v : Nat → Nat} (hv : ∀ i, v i < 256)
    {l : List Int} (hl : ∀ i, i < cemValues m → l[i]? = some (v i : Int)) :
    decodeEndpoint m l = .ok (ints (endpoints true m v)) := by
  have h0 := hv 0
  have h1 := hv 1
  have h2 := hv 2
  have h3 := hv 3
  have h4 := hv 4
  have h5 := hv 5
  have h6 := hv 6
  have h7 := hv 7
  unfold decodeEndpoint
  unfold cemValues at hl
  rw [idx_of_some (hl 0 (by omega)), Out.ok_bind, idx_of_some (hl 1 (by omega)), Out.ok_bind]
  by_cases hA : m < 4
  · rcases (show m = 0 ∨ m = 1 ∨ m = 2 ∨ m = 3 by omega) with rfl | rfl | rfl | rfl
    · rfl
    · exact lumaDelta_ok h0 h1
    · exact hdrLuma_ok h0 h1
    · exact hdrLumaDelta_ok h0 h1
  rw [if_neg (by omega), if_neg (by omega), if_neg (by omega), if_neg (by omega),
    idx_of_some (hl 2 (by omega)), Out.ok_bind, idx_of_some (hl 3 (by omega)), Out.ok_bind]
  by_cases hB : m < 8
  · rcases (show m = 4 ∨ m = 5 ∨ m = 6 ∨ m = 7 by omega) with rfl | rfl | rfl | rfl
    · rfl
    · exact lumaAlphaDelta_ok h0 h1 h2 h3
    · exact scale_ok (a1 := 255) (a2 := 255) h0 h1 h2 h3
    · exact hdr7_ok (hl 0 (by omega)) (hl 1 (by omega)) (hl 2 (by omega)) (hl 3 (by omega)) h0 h1 h2 h3
  rw [if_neg (by omega), if_neg (by omega), if_neg (by omega), if_neg (by omega),
    idx_of_some (hl 4 (by omega)), Out.ok_bind, idx_of_some (hl 5 (by omega)), Out.ok_bind]
  by_cases hC : m < 12
  · rcases (show m = 8 ∨ m = 9 ∨ m = 10 ∨ m = 11 by omega) with rfl | rfl | rfl | rfl
    · exact direct_ok (a1 := 255) (a2 := 255) h0 h1 h2 h3 h4 h5
    · exact rgbDelta_ok h0 h1 h2 h3 h4 h5
    · exact scale_ok h0 h1 h2 h3
    · exact hdr11_ok (a1 := 0x780) (a2 := 0x780) (hl 0 (by omega)) (hl 1 (by omega)) (hl 2 (by omega))
        (hl 3 (by omega)) (hl 4 (by omega)) (hl 5 (by omega)) h0 h1 h2 h3 h4 h5 (by omega) (by omega)
  rw [if_neg (by omega), if_neg (by omega), if_neg (by omega), if_neg (by omega),
    idx_of_some (hl 6 (by omega)), Out.ok_bind, idx_of_some (hl 7 (by omega)), Out.ok_bind]
  rcases (show m = 12 ∨ m = 13 ∨ m = 14 ∨ m = 15 by omega) with rfl | rfl | rfl | rfl
  · exact direct_ok h0 h1 h2 h3 h4 h5
  · exact rgbaDelta_ok h0 h1 h2 h3 h4 h5 h6 h7
  · exact hdr11_ok (hl 0 (by omega)) (hl 1 (by omega)) (hl 2 (by omega))
      (hl 3 (by omega)) (hl 4 (by omega)) (hl 5 (by omega)) h0 h1 h2 h3 h4 h5 (by omega) (by omega)
  · obtain ⟨ha, hb1, hb2⟩ := hdrAlpha_ok h6 h7
    rw [if_neg (by omega), if_neg (by omega), if_neg (by omega), if_pos rfl, ha, Out.ok_bind]
    exact hdr11_ok (hl 0 (by omega)) (hl 1 (by omega)) (hl 2 (by omega))
      (hl 3 (by omega)) (hl 4 (by omega)) (hl 5 (by omega)) h0 h1 h2 h3 h4 h5 hb1 hb2

/-! ## Colour values -/

omit [Build] in
theorem colourQuant_mem (blk : List UInt8) (hfit : configBits blk + weightBits blk +
    seqBits ⟨3, 1⟩ (valueNum blk) ≤ 128) :
    configBits blk + weightBits blk + seqBits (colourQuant blk) (valueNum blk) ≤ 128 := by
  unfold colourQuant
  cases h : (colourQuants.find? fun q =>
    decide (seqBits q (valueNum blk) ≤ 128 - configBits blk - weightBits blk)) with
  | none => exact hfit
  | some q =>
    have := List.find?_some h
    simp only [decide_eq_true_eq] at this
    simp only [Option.getD_some]
    omega

omit [Build] in
theorem quant_base {q : Quant} (h : QuantOk q) : q.base = 1 ∨ q.base = 3 ∨ q.base = 5 := by
  unfold QuantOk at h
  omega

theorem colourValue_lt {blk : List UInt8} {r : Nat} (hr : r < 17)
    (hq : colourQuants[r]? = some (colourQuant blk)) (i : Nat) : colourValue blk i < 256 := by
  obtain ⟨q, hq', hok, _⟩ := cemTables hr
  rw [hq] at hq'
  cases hq'
  obtain ⟨h1, h2⟩ := ise_lt (colourQuant blk) (colourStream blk) i (quant_base hok)
  exact (unquantColour_ok hr hq h1 h2).2

omit [Build] in
theorem valuesBefore_le (blk : List UInt8) (k : Nat) : valuesBefore blk k ≤ 8 * k := by
  induction k with
  | zero => exact Nat.le_refl _
  | succ k ih =>
    have := cem_lt16 blk k
    show valuesBefore blk k + cemValues (cem blk k) ≤ _
    unfold cemValues
    omega

omit [Build] in
theorem valuesBefore_mono (blk : List UInt8) {j k : Nat} (h : j ≤ k) :
    valuesBefore blk j ≤ valuesBefore blk k := by
  induction k with
  | zero => rw [Nat.le_zero.mp h]; exact Nat.le_refl _
  | succ k ih =>
    rcases Nat.lt_or_ge k j with h' | h'
    · rw [show j = k + 1 by omega]; exact Nat.le_refl _
    · exact Nat.le_trans (ih h') (Nat.le_add_right _ _)

theorem colourValues_ok {buf : List UInt8} (hd : 16 ≤ buf.length) {r : Nat} (hr : r < 17)
    (hq : colourQuants[r]? = some (colourQuant (buf.take 16)))
    (hfit : configBits (buf.take 16) + weightBits (buf.take 16) +
      seqBits ⟨3, 1⟩ (valueNum (buf.take 16)) ≤ 128)
    {p : AstcParams} (h1 : p.cemRange = r) (h2 : p.partNum = parts (buf.take 16))
    (h3 : p.endpointValueNum = valueNum (buf.take 16)) :
    ∃ ev, colourValues buf p = .ok ev ∧ ev.length = 32 ∧
      ∀ i, i < valueNum (buf.take 16) → ev[i]? = some (colourValue (buf.take 16) i : Int) := by
  unfold colourValues
  rw [h1, h2, h3]
  obtain ⟨q, hq', hok, hA, hB⟩ := cemTables hr
  rw [hq] at hq'
  cases hq'
  rw [idx_of_some hA, Out.ok_bind, idx_of_some hB, Out.ok_bind]
  have hle := colourQuant_mem _ hfit
  have hn : valueNum (buf.take 16) ≤ 32 := by
    have := valuesBefore_le (buf.take 16) (parts (buf.take 16))
    have := (parts_bounds (buf.take 16)).2
    unfold valueNum
    omega
  have hcfg : (if parts (buf.take 16) = 1 then 17 else 29) ≤ configBits (buf.take 16) := by
    unfold configBits
    omega
  obtain ⟨seq, e1, e2, e3, -⟩ := decodeIntseq_ok hok rfl hd
    (start := if parts (buf.take 16) = 1 then 17 else 29) (count := valueNum (buf.take 16))
    (reverse := false) (by simp only [Bool.false_eq_true, if_false]; omega)
    (out := List.replicate 32 ⟨0, 0⟩) (by simp; omega)
  simp only [Bool.false_eq_true, if_false] at e1
  rw [e1, Out.ok_bind]
  obtain ⟨l, el, hl, hv, -⟩ := setLoop (α := Int) (n := valueNum (buf.take 16))
    (f := fun i ev => do
      let s ← idx seq i
      let x ← unquantColour (if (colourQuant (buf.take 16)).base = 1 then 0
        else (colourQuant (buf.take 16)).base) (colourQuant (buf.take 16)).bits s
      setIdx ev i x)
    (fun _ l => l) (fun i => i) (fun i => (colourValue (buf.take 16) i : Int)) (List.replicate 32 0)
    (by intro i hi; simp; omega) (fun i j _ _ h => h)
    (by
      intro i hi l hl
      rw [List.length_replicate] at hl
      obtain ⟨a1, a2⟩ := ise_lt (colourQuant (buf.take 16)) (colourStream (buf.take 16)) i (quant_base hok)
      have e3' := e3 i hi
      rw [idx_of_some e3', Out.ok_bind]
      have hst : streamOf (buf.take 16) (if parts (buf.take 16) = 1 then 17 else 29)
          (seqBits (colourQuant (buf.take 16)) (valueNum (buf.take 16))) false =
          colourStream (buf.take 16) := by
        simp [streamOf, colourStream]
      rw [hst, (unquantColour_ok hr hq a1 a2).1, Out.ok_bind, setIdx_ok (by omega)]
      rfl)
  exact ⟨l, el, by rw [hl, List.length_replicate], hv⟩

/-- The endpoints, once the colour values are known. -/
theorem decodeEndpoints_of {buf : List UInt8} {V : Nat → Nat} (hV : ∀ i, V i < 256)
    {p : AstcParams} (h2 : p.partNum = parts (buf.take 16)) (h4 : p.cem = cemList (buf.take 16))
    {ev : List Int} (e : colourValues buf p = .ok ev) (hl : ev.length = 32)
    (hv : ∀ i, i < valueNum (buf.take 16) → ev[i]? = some (V i : Int)) :
    ∃ es, decodeEndpoints buf p = .ok es ∧
      ∀ k, k < parts (buf.take 16) → es[k]? = some (ints (endpoints true (cem (buf.take 16) k)
        fun j => V (valuesBefore (buf.take 16) k + j))) := by
  unfold decodeEndpoints
  rw [e, Out.ok_bind, h2, h4]
  obtain ⟨hP1, hP4⟩ := parts_bounds (buf.take 16)
  obtain ⟨l, el, hll, hlv, -⟩ := setLoop (n := parts (buf.take 16))
    (f := fun i (s : List Int × List (List Int)) => do
      let (v, endpoints) := s
      let cem ← idx (cemList (buf.take 16)) i
      let e ← decodeEndpoint cem v
      let endpoints ← setIdx endpoints i e
      let v ← sliceFrom v ((cem / 4 + 1) * 2)
      pure (v, endpoints))
    (fun k l => (ev.drop (valuesBefore (buf.take 16) k), l)) (fun i => i)
    (fun k => ints (endpoints true (cem (buf.take 16) k) fun j => V (valuesBefore (buf.take 16) k + j))) (List.replicate 4 (List.replicate 8 0))
    (by intro i hi; simp; omega) (fun i j _ _ h => h)
    (by
      intro i hi l hl4
      rw [List.length_replicate] at hl4
      have hstep : valuesBefore (buf.take 16) (i + 1) =
        valuesBefore (buf.take 16) i + cemValues (cem (buf.take 16) i) := rfl
      have hle : valuesBefore (buf.take 16) (i + 1) ≤ valueNum (buf.take 16) :=
        valuesBefore_mono _ (show i + 1 ≤ parts (buf.take 16) by omega)
      have hn := valuesBefore_le (buf.take 16) (i + 1)
      simp only
      rw [idx_of_some (cemList_get hi (by omega)), Out.ok_bind,
        decodeEndpoint_ok (cem_lt16 _ _)
          (v := fun j => V (valuesBefore (buf.take 16) i + j))
          (fun j => hV _)
          (by
            intro j hj
            rw [List.getElem?_drop]
            exact hv _ (by omega)), Out.ok_bind,
        setIdx_ok (by omega), Out.ok_bind]
      have hsl : (cem (buf.take 16) i / 4 + 1) * 2 = cemValues (cem (buf.take 16) i) := by
        unfold cemValues; omega
      rw [hsl, sliceFrom_ok (by rw [List.length_drop]; omega), Out.ok_bind, List.drop_drop, hstep]
      rfl)
  rw [show (ev, List.replicate 4 (List.replicate 8 (0 : Int))) =
    (ev.drop (valuesBefore (buf.take 16) 0), List.replicate 4 (List.replicate 8 (0 : Int))) from rfl]
  rw [el, Out.ok_bind]
  exact ⟨l, rfl, hlv⟩

theorem decodeEndpoints_ok {buf : List UInt8} (hd : 16 ≤ buf.length) {r : Nat} (hr : r < 17)
    (hq : colourQuants[r]? = some (colourQuant (buf.take 16)))
    (hfit : configBits (buf.take 16) + weightBits (buf.take 16) +
      seqBits ⟨3, 1⟩ (valueNum (buf.take 16)) ≤ 128)
    {p : AstcParams} (h1 : p.cemRange = r) (h2 : p.partNum = parts (buf.take 16))
    (h3 : p.endpointValueNum = valueNum (buf.take 16)) (h4 : p.cem = cemList (buf.take 16)) :
    ∃ es, decodeEndpoints buf p = .ok es ∧
      ∀ k, k < parts (buf.take 16) → es[k]? = some (ints (blockEndpoints true (buf.take 16) k)) := by
  obtain ⟨ev, e, hl, hv⟩ := colourValues_ok hd hr hq hfit h1 h2 h3
  exact decodeEndpoints_of (fun i => colourValue_lt hr hq i) h2 h4 e hl hv

end Verif.Proofs.Astc
