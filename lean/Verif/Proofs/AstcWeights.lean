import Verif.Proofs.AstcParams
import Verif.Proofs.Tiles

/-! # Weights of ASTC blocks -/

namespace Verif.Proofs.Astc

open Verif Verif.Model Verif.Proofs
open Verif.Spec.Astc (Quant seqBits configBits weightBits valueNum parts ise isReserved dual weightNum
  weightQuant weightStream gridWeight gridPos texelWeight rangeCode noDH bit grid extraBits)

/-! ## Unquantisation -/

def weightQuants : List Quant :=
  [⟨1, 1⟩, ⟨3, 0⟩, ⟨1, 2⟩, ⟨5, 0⟩, ⟨3, 1⟩, ⟨1, 3⟩, ⟨5, 1⟩, ⟨3, 2⟩, ⟨1, 4⟩, ⟨5, 2⟩, ⟨3, 3⟩, ⟨1, 5⟩]

theorem weightQuant_mem {blk : List UInt8} (h : ¬ isReserved blk) :
    ∃ i, i < 12 ∧ weightQuants[i]? = some (weightQuant blk) := by
  obtain ⟨h1, h2⟩ := rangeCode_ge h
  unfold weightQuant
  simp only
  generalize rangeCode blk = r at *
  by_cases hb : bit blk 9 = 1 ∧ ¬ noDH blk
  · simp only [if_pos hb]
    refine ⟨r + 4, by omega, ?_⟩
    have key : ∀ r : Fin 6, weightQuants[r.val + 2 + 4]? =
      some ([(⟨5, 1⟩ : Quant), ⟨3, 2⟩, ⟨1, 4⟩, ⟨5, 2⟩, ⟨3, 3⟩, ⟨1, 5⟩].getD (r.val + 2 - 2) ⟨1, 0⟩) := by
      decide
    have := key ⟨r - 2, by omega⟩
    simp only [show r - 2 + 2 = r by omega] at this
    exact this
  · simp only [if_neg hb]
    refine ⟨r - 2, by omega, ?_⟩
    have key : ∀ r : Fin 6, weightQuants[r.val]? =
      some ([(⟨1, 1⟩ : Quant), ⟨3, 0⟩, ⟨1, 2⟩, ⟨5, 0⟩, ⟨3, 1⟩, ⟨1, 3⟩].getD r.val ⟨1, 0⟩) := by
      decide
    exact key ⟨r - 2, by omega⟩

theorem seqBits_ge {blk : List UInt8} (h : ¬ isReserved blk) (n : Nat) :
    n ≤ seqBits (weightQuant blk) n := by
  obtain ⟨i, hi, hq⟩ := weightQuant_mem h
  have key : ∀ i : Fin 12, ((weightQuants[i.val]?).getD ⟨0, 0⟩).base = 3 ∨
      ((weightQuants[i.val]?).getD ⟨0, 0⟩).base = 5 ∨ 1 ≤ ((weightQuants[i.val]?).getD ⟨0, 0⟩).bits := by
    decide
  have := key ⟨i, hi⟩
  simp only [hq, Option.getD_some] at this
  unfold seqBits Spec.ceilDiv
  rcases this with h | h | h
  · rw [if_pos h]; omega
  · rw [if_neg (by omega), if_pos h]; omega
  · have := Nat.le_mul_of_pos_right n h
    omega

/-- If the configuration and the weights fit, the interpolation stays inside the weight array. -/
theorem weight_room {blk : List UInt8} (h : ¬ isReserved blk)
    (hroom : configBits blk + weightBits blk ≤ 128) :
    weightNum blk ≤ 111 ∧
    (grid blk).1 * ((grid blk).2 + 1) * (if dual blk then 2 else 1) + (if dual blk then 2 else 1) ≤ 128 := by
  obtain ⟨g1, g2, g3, g4⟩ := grid_le blk
  have hge : weightNum blk ≤ weightBits blk := seqBits_ge h _
  have hcfg : 17 + (if dual blk then 2 else 0) ≤ configBits blk := by
    unfold configBits
    split <;> split <;> omega
  unfold weightNum at *
  generalize (grid blk).1 = n at *
  generalize (grid blk).2 = m at *
  have key : ∀ n m : Fin 13, (n.val * m.val ≤ 111 → n.val * (m.val + 1) * 1 + 1 ≤ 128) ∧
      (n.val * m.val * 2 ≤ 109 → n.val * (m.val + 1) * 2 + 2 ≤ 128) := by decide +kernel
  obtain ⟨k1, k2⟩ := key ⟨n, by omega⟩ ⟨m, by omega⟩
  simp only at k1 k2
  by_cases hd : dual blk
  · simp only [if_pos hd] at *
    exact ⟨by omega, k2 (by omega)⟩
  · simp only [if_neg hd] at *
    exact ⟨by omega, k1 (by omega)⟩

variable [Build]

theorem unquantWeight_ok {i : Nat} (hi : i < 12) {q : Quant} (hq : weightQuants[i]? = some q)
    {x y : Nat} (hx : x < 2 ^ q.bits) (hy : y < q.base) :
    unquantWeight (if q.base = 1 then 0 else q.base) q.bits ⟨x, y⟩ =
      .ok ((Spec.Astc.unquantWeight q (x, y) : Nat) : Int) ∧ Spec.Astc.unquantWeight q (x, y) ≤ 64 := by
  have key : ∀ ck : Bool, ∀ i : Fin 12, ∀ x : Fin 32,
      x.val < 2 ^ ((weightQuants[i.val]?).getD ⟨0, 0⟩).bits →
      ∀ y : Fin 5, y.val < ((weightQuants[i.val]?).getD ⟨0, 0⟩).base →
      @unquantWeight ⟨ck⟩ (if ((weightQuants[i.val]?).getD ⟨0, 0⟩).base = 1 then 0
        else ((weightQuants[i.val]?).getD ⟨0, 0⟩).base) ((weightQuants[i.val]?).getD ⟨0, 0⟩).bits
        ⟨x.val, y.val⟩ =
        .ok ((Spec.Astc.unquantWeight ((weightQuants[i.val]?).getD ⟨0, 0⟩) (x.val, y.val) : Nat) : Int) ∧
      Spec.Astc.unquantWeight ((weightQuants[i.val]?).getD ⟨0, 0⟩) (x.val, y.val) ≤ 64 := by
    decide +kernel
  have hb : ∀ i : Fin 12, 2 ^ ((weightQuants[i.val]?).getD ⟨0, 0⟩).bits ≤ 32 ∧
      ((weightQuants[i.val]?).getD ⟨0, 0⟩).base ≤ 5 := by decide +kernel
  have hb' := hb ⟨i, hi⟩
  simp only [hq, Option.getD_some] at hb'
  have := key Build.overflowChecks ⟨i, hi⟩ ⟨x, by omega⟩
  simp only [hq, Option.getD_some] at this
  exact this hx ⟨y, by omega⟩ hy

omit [Build] in
theorem gridWeight_le {blk : List UInt8} (h : ¬ isReserved blk) (i : Nat) : gridWeight blk i ≤ 64 := by
  unfold gridWeight
  split
  · obtain ⟨k, hk, hq⟩ := weightQuant_mem h
    obtain ⟨-, -, hok, -, -⟩ := weightTable h
    obtain ⟨a1, a2⟩ := ise_lt (weightQuant blk) (weightStream blk) i
      (by unfold QuantOk at hok; omega)
    exact (@unquantWeight_ok Build.release k hk _ hq _ _ a1 a2).2
  · omega

/-! ## The weight grid -/

theorem weightValues_ok {buf : List UInt8} (hd : 16 ≤ buf.length) (hr : ¬ isReserved (buf.take 16))
    (hbits : weightBits (buf.take 16) ≤ 128)
    {p : AstcParams} (h1 : p.weightRange = rangeIndex (buf.take 16))
    (h2 : p.weightNum = weightNum (buf.take 16)) :
    ∃ wv, weightValues buf p = .ok wv ∧ wv.length = 128 ∧
      ∀ i, i < 128 → wv[i]? = some (gridWeight (buf.take 16) i : Int) := by
  unfold weightValues
  rw [h1, h2]
  obtain ⟨k, hk, hq⟩ := weightQuant_mem hr
  obtain ⟨hA, hB, hok, -, -⟩ := weightTable hr
  have hge : weightNum (buf.take 16) ≤ weightBits (buf.take 16) := seqBits_ge hr _
  rw [idx_of_some hA, Out.ok_bind, idx_of_some hB, Out.ok_bind]
  obtain ⟨seq, e1, e2, e3, -⟩ := decodeIntseq_ok hok rfl hd
    (start := 0) (count := weightNum (buf.take 16))
    (reverse := true) (by simp only [if_true]; exact hbits)
    (out := List.replicate 128 ⟨0, 0⟩) (by simp; omega)
  simp only [if_true] at e1
  rw [e1, Out.ok_bind]
  obtain ⟨l, el, hl, hv, hrest⟩ := setLoop (α := Int) (n := weightNum (buf.take 16))
    (f := fun i wv => do
      let s ← idx seq i
      let x ← unquantWeight (if (weightQuant (buf.take 16)).base = 1 then 0
        else (weightQuant (buf.take 16)).base) (weightQuant (buf.take 16)).bits s
      setIdx wv i x)
    (fun _ l => l) (fun i => i) (fun i => (gridWeight (buf.take 16) i : Int)) (List.replicate 128 0)
    (by intro i hi; simp; omega) (fun i j _ _ h => h)
    (by
      intro i hi l hl
      rw [List.length_replicate] at hl
      obtain ⟨a1, a2⟩ := ise_lt (weightQuant (buf.take 16)) (weightStream (buf.take 16)) i
        (by unfold QuantOk at hok; omega)
      have e3' := e3 i hi
      rw [idx_of_some e3', Out.ok_bind]
      have hst : streamOf (buf.take 16) 0
          (seqBits (weightQuant (buf.take 16)) (weightNum (buf.take 16))) true =
          weightStream (buf.take 16) := by
        simp [streamOf, weightStream, weightBits]
      rw [hst, (unquantWeight_ok hk hq a1 a2).1, Out.ok_bind, setIdx_ok (by omega)]
      unfold gridWeight
      rw [if_pos hi])
  refine ⟨l, el, by rw [hl, List.length_replicate], fun i hi => ?_⟩
  by_cases h : i < weightNum (buf.take 16)
  · exact hv i h
  · rw [hrest i (by intro j hj; omega), List.getElem?_replicate_of_lt hi]
    unfold gridWeight
    rw [if_neg h]
    rfl

/-! ## Interpolation -/

omit [Build] in
/-- The factors of the interpolation. -/
theorem infill_factors {fs ft : Nat} (h1 : fs < 16) (h2 : ft < 16) :
    (fs * ft + 8) / 16 ≤ fs ∧ (fs * ft + 8) / 16 ≤ ft ∧ fs + ft ≤ 16 + (fs * ft + 8) / 16 := by
  have key : ∀ fs ft : Fin 16, (fs.val * ft.val + 8) / 16 ≤ fs.val ∧
    (fs.val * ft.val + 8) / 16 ≤ ft.val ∧ fs.val + ft.val ≤ 16 + (fs.val * ft.val + 8) / 16 := by
    decide +kernel
  exact key ⟨fs, h1⟩ ⟨ft, h2⟩

omit [Build] in
theorem infill_sum_le {a b c d f00 f01 f10 f11 : Nat} (ha : a ≤ 64) (hb : b ≤ 64) (hc : c ≤ 64)
    (hd : d ≤ 64) (hf : f00 + f01 + f10 + f11 = 16) :
    a * f00 + b * f01 + c * f10 + d * f11 ≤ 1024 := by
  have h1 := Nat.mul_le_mul_right f00 ha
  have h2 := Nat.mul_le_mul_right f01 hb
  have h3 := Nat.mul_le_mul_right f10 hc
  have h4 := Nat.mul_le_mul_right f11 hd
  omega

omit [Build] in
theorem texelWeight_le {blk : List UInt8} (h : ¬ isReserved blk) (bw bh s t plane : Nat) :
    texelWeight blk bw bh s t plane ≤ 64 := by
  unfold texelWeight
  simp only
  have hf := infill_factors (Nat.mod_lt (gridPos bw (grid blk).1 s) (show 0 < 16 by omega))
    (Nat.mod_lt (gridPos bh (grid blk).2 t) (show 0 < 16 by omega))
  generalize gridPos bw (grid blk).1 s = gs at *
  generalize gridPos bh (grid blk).2 t = gt at *
  have := infill_sum_le
    (gridWeight_le h ((gs / 16 + 0 + (gt / 16 + 0) * (grid blk).1) * (if dual blk then 2 else 1) + plane))
    (gridWeight_le h ((gs / 16 + 1 + (gt / 16 + 0) * (grid blk).1) * (if dual blk then 2 else 1) + plane))
    (gridWeight_le h ((gs / 16 + 0 + (gt / 16 + 1) * (grid blk).1) * (if dual blk then 2 else 1) + plane))
    (gridWeight_le h ((gs / 16 + 1 + (gt / 16 + 1) * (grid blk).1) * (if dual blk then 2 else 1) + plane))
    (show (16 + (gs % 16 * (gt % 16) + 8) / 16 - gs % 16 - gt % 16) + (gs % 16 - (gs % 16 * (gt % 16) + 8) / 16)
      + (gt % 16 - (gs % 16 * (gt % 16) + 8) / 16) + (gs % 16 * (gt % 16) + 8) / 16 = 16 by omega)
  omega

theorem infillWeight_ok {wv : List Int} {W : Nat → Nat} (hW : ∀ i, i < 128 → wv[i]? = some (W i : Int))
    (hle : ∀ i, W i ≤ 64) {pn width v p f00 f01 f10 f11 : Nat}
    (hf : f00 + f01 + f10 + f11 = 16) (hv : (v + width + 1) * pn + p < 128) :
    infillWeight wv pn width v p f00 f01 f10 f11 = .ok
      (((W (v * pn + p) * f00 + W ((v + 1) * pn + p) * f01 + W ((v + width) * pn + p) * f10 +
        W ((v + width + 1) * pn + p) * f11 + 8) / 16 : Nat) : Int) := by
  have m1 : v * pn ≤ (v + width + 1) * pn := Nat.mul_le_mul_right _ (by omega)
  have m2 : (v + 1) * pn ≤ (v + width + 1) * pn := Nat.mul_le_mul_right _ (by omega)
  have m3 : (v + width) * pn ≤ (v + width + 1) * pn := Nat.mul_le_mul_right _ (by omega)
  have hs := infill_sum_le (hle (v * pn + p)) (hle ((v + 1) * pn + p)) (hle ((v + width) * pn + p))
    (hle ((v + width + 1) * pn + p)) hf
  unfold infillWeight
  rw [idx_of_some (hW _ (by omega)), Out.ok_bind, idx_of_some (hW _ (by omega)), Out.ok_bind,
    idx_of_some (hW _ (by omega)), Out.ok_bind, idx_of_some (hW _ hv), Out.ok_bind,
    mulI_nat (by omega), Out.ok_bind, mulI_nat (by omega), Out.ok_bind, mulI_nat (by omega), Out.ok_bind,
    mulI_nat (by omega), Out.ok_bind, addI_nat (by omega), Out.ok_bind, addI_nat (by omega), Out.ok_bind,
    addI_nat (by omega), Out.ok_bind, show (8 : Int) = ((8 : Nat) : Int) from rfl,
    addI_nat (by omega), Out.ok_bind, shr32_nat]
  rfl

omit [Build] in
/-- The grid position of a texel lies in the grid. -/
theorem gridPos_lt {bs n s : Nat} (h1 : 2 ≤ bs) (h2 : bs ≤ 72) (hn : 2 ≤ n) (hn' : n ≤ 12)
    (hs : s < bs) : gridPos bs n s / 16 ≤ n - 1 ∧ (1024 + bs / 2) / (bs - 1) * s ≤ 1060 ∧
      (1024 + bs / 2) / (bs - 1) ≤ 1060 := by
  have hd : (1024 + bs / 2) / (bs - 1) * (bs - 1) ≤ 1024 + bs / 2 := Nat.div_mul_le_self _ _
  have hm : (1024 + bs / 2) / (bs - 1) * s ≤ (1024 + bs / 2) / (bs - 1) * (bs - 1) :=
    Nat.mul_le_mul_left _ (by omega)
  have hd' : (1024 + bs / 2) / (bs - 1) ≤ 1024 + bs / 2 := Nat.div_le_self _ _
  unfold gridPos
  generalize (1024 + bs / 2) / (bs - 1) * s = x at *
  have hx : x * (n - 1) ≤ 1060 * (n - 1) := Nat.mul_le_mul_right _ (by omega)
  refine ⟨?_, by omega, by omega⟩
  generalize x * (n - 1) = y at *
  omega

omit [Build] in
theorem row_set {weights : List (List Int)} {i : Nat} (hi : i < weights.length) :
    ∃ row, weights[i]? = some row := ⟨weights[i], List.getElem?_eq_getElem hi⟩

theorem infillTexel_ok {blk : List UInt8} (hr : ¬ isReserved blk) {wv : List Int}
    (hW : ∀ i, i < 128 → wv[i]? = some (gridWeight blk i : Int))
    (hroom : (grid blk).1 * ((grid blk).2 + 1) * (if dual blk then 2 else 1) +
      (if dual blk then 2 else 1) ≤ 128)
    {q : AstcParams} (hw : q.width = (grid blk).1) (hh : q.height = (grid blk).2)
    (hdu : q.dualPlane = decide (dual blk)) {bw bh s t : Nat} (hbw : 2 ≤ bw) (hbw' : bw ≤ 72)
    (hbh : 2 ≤ bh) (hbh' : bh ≤ 72) (hs : s < bw) (ht : t < bh) {i : Nat} {weights : List (List Int)}
    (hi : i < weights.length) {a b : Int} (hrow : weights[i]? = some [a, b]) :
    infillTexel wv q ((1024 + bw / 2) / (bw - 1)) ((1024 + bh / 2) / (bh - 1)) t s (i, weights) =
      .ok (i + 1, weights.set i [(texelWeight blk bw bh s t 0 : Int),
        if dual blk then (texelWeight blk bw bh s t 1 : Int) else b]) := by
  obtain ⟨g1, g2, g3, g4⟩ := grid_le blk
  obtain ⟨p1, p2, p3⟩ := gridPos_lt hbw hbw' g1 g2 hs
  obtain ⟨q1, q2, q3⟩ := gridPos_lt hbh hbh' g3 g4 ht
  have tw : ∀ plane, texelWeight blk bw bh s t plane =
      (let n := (grid blk).1
       let gs := gridPos bw n s
       let gt := gridPos bh (grid blk).2 t
       let v := gs / 16 + gt / 16 * n
       let pn := if dual blk then 2 else 1
       let w11 := (gs % 16 * (gt % 16) + 8) / 16
       (gridWeight blk (v * pn + plane) * (16 + w11 - gs % 16 - gt % 16) +
        gridWeight blk ((v + 1) * pn + plane) * (gs % 16 - w11) +
        gridWeight blk ((v + n) * pn + plane) * (gt % 16 - w11) +
        gridWeight blk ((v + n + 1) * pn + plane) * w11 + 8) / 16) := by
    intro plane
    unfold texelWeight
    simp only
    generalize gridPos bw (grid blk).1 s = gs
    generalize gridPos bh (grid blk).2 t = gt
    have e1 : gs / 16 + 0 + (gt / 16 + 0) * (grid blk).1 = gs / 16 + gt / 16 * (grid blk).1 := by simp
    have e2 : gs / 16 + 1 + (gt / 16 + 0) * (grid blk).1 = gs / 16 + gt / 16 * (grid blk).1 + 1 := by
      simp; omega
    have e3 : gs / 16 + 0 + (gt / 16 + 1) * (grid blk).1 =
        gs / 16 + gt / 16 * (grid blk).1 + (grid blk).1 := by
      rw [Nat.succ_mul]; omega
    have e4 : gs / 16 + 1 + (gt / 16 + 1) * (grid blk).1 =
        gs / 16 + gt / 16 * (grid blk).1 + (grid blk).1 + 1 := by
      rw [Nat.succ_mul]; omega
    rw [e1, e2, e3, e4]
  unfold infillTexel
  simp only
  rw [hw, hh, hdu, subU_ok (by omega), Out.ok_bind, subU_ok (by omega), Out.ok_bind]
  have hx : (1024 + bw / 2) / (bw - 1) * s * ((grid blk).1 - 1) ≤ 1060 * 11 :=
    Nat.mul_le_mul p2 (by omega)
  have hy : (1024 + bh / 2) / (bh - 1) * t * ((grid blk).2 - 1) ≤ 1060 * 11 :=
    Nat.mul_le_mul q2 (by omega)
  rw [mulU_ok (by omega), Out.ok_bind, mulU_ok (by omega), Out.ok_bind, addU_ok (by omega), Out.ok_bind,
    mulU_ok (by omega), Out.ok_bind, mulU_ok (by omega), Out.ok_bind, addU_ok (by omega), Out.ok_bind]
  have eg : ((1024 + bw / 2) / (bw - 1) * s * ((grid blk).1 - 1) + 32) >>> 6 = gridPos bw (grid blk).1 s :=
    shr_eq _ 6
  have eh : ((1024 + bh / 2) / (bh - 1) * t * ((grid blk).2 - 1) + 32) >>> 6 = gridPos bh (grid blk).2 t :=
    shr_eq _ 6
  rw [eg, eh]
  have hf := infill_factors (Nat.mod_lt (gridPos bw (grid blk).1 s) (show 0 < 16 by omega))
    (Nat.mod_lt (gridPos bh (grid blk).2 t) (show 0 < 16 by omega))
  simp only at tw
  generalize gridPos bw (grid blk).1 s = gs at *
  generalize gridPos bh (grid blk).2 t = gt at *
  have hv : gt / 16 * (grid blk).1 ≤ ((grid blk).2 - 1) * (grid blk).1 := Nat.mul_le_mul_right _ q1
  have hv2 : ((grid blk).2 - 1) * (grid blk).1 ≤ 11 * 12 := Nat.mul_le_mul (by omega) g2
  have hm1 : gs &&& 0xf = gs % 16 := and_mask gs 4
  have hm2 : gt &&& 0xf = gt % 16 := and_mask gt 4
  rw [hm1, hm2, shr_eq, shr_eq, shr_eq, show (2 : Nat) ^ 4 = 16 from rfl,
    mulU_ok (by omega), Out.ok_bind, addU_ok (by omega), Out.ok_bind]
  generalize hw11 : (gs % 16 * (gt % 16) + 8) / 16 = w11 at *
  rw [asI_nat (by omega), subI_nat (by omega) (by omega), Out.ok_bind, subI_nat (by omega) (by omega),
    Out.ok_bind, show (16 : Int) = ((16 : Nat) : Int) from rfl, subI_nat (by omega) (by omega), Out.ok_bind]
  rw [subI32_ok (by omega) (by omega), Out.ok_bind, addI32_ok (by omega) (by omega), Out.ok_bind]
  rw [show ((16 - gs % 16 : Nat) : Int) - ((gt % 16 : Nat) : Int) + (w11 : Int) =
    ((16 + w11 - gs % 16 - gt % 16 : Nat) : Int) by omega]
  generalize hV : gs / 16 + gt / 16 * (grid blk).1 = v at *
  have hvr : v + (grid blk).1 + 1 ≤ (grid blk).1 * ((grid blk).2 + 1) := by
    have : ((grid blk).2 - 1) * (grid blk).1 + (grid blk).1 = (grid blk).1 * (grid blk).2 := by
      rw [← Nat.succ_mul, show ((grid blk).2 - 1).succ = (grid blk).2 by omega, Nat.mul_comm]
    rw [Nat.mul_succ]
    omega
  have hfs : (16 + w11 - gs % 16 - gt % 16) + (gs % 16 - w11) + (gt % 16 - w11) + w11 = 16 := by omega
  by_cases hdd : dual blk
  · simp only [hdd, if_true, decide_true] at *
    have hidx : ∀ p, p < 2 → (v + (grid blk).1 + 1) * 2 + p < 128 := by
      intro p hp
      have := Nat.mul_le_mul_right 2 hvr
      omega
    simp only [forRange]
    rw [Out.ok_bind, infillWeight_ok hW (gridWeight_le hr) hfs (hidx 0 (by omega)), Out.ok_bind,
      idx_of_some hrow, Out.ok_bind, setIdx_ok (by simp), Out.ok_bind, setIdx_ok hi, Out.ok_bind,
      infillWeight_ok hW (gridWeight_le hr) hfs (hidx 1 (by omega)), Out.ok_bind,
      idx_of_some (List.getElem?_set_self hi), Out.ok_bind, setIdx_ok (by simp), Out.ok_bind,
      setIdx_ok (by simp; exact hi), Out.ok_bind, List.set_set, ← tw 0, ← tw 1]
    rfl
  · simp only [hdd, if_false, decide_false, Bool.false_eq_true] at *
    simp only [forRange]
    rw [Out.ok_bind, infillWeight_ok hW (gridWeight_le hr) hfs (by omega), Out.ok_bind,
      idx_of_some hrow, Out.ok_bind, setIdx_ok (by simp), Out.ok_bind, setIdx_ok hi, Out.ok_bind, ← tw 0]
    rfl

/-- The weights of all texels of a block. -/
theorem decodeWeights_ok {buf : List UInt8} (hd : 16 ≤ buf.length) (hr : ¬ isReserved (buf.take 16))
    (hbits : weightBits (buf.take 16) ≤ 128)
    (hroom : (grid (buf.take 16)).1 * ((grid (buf.take 16)).2 + 1) * (if dual (buf.take 16) then 2 else 1) +
      (if dual (buf.take 16) then 2 else 1) ≤ 128)
    {q : AstcParams} (h1 : q.weightRange = rangeIndex (buf.take 16))
    (h2 : q.weightNum = weightNum (buf.take 16)) (hw : q.width = (grid (buf.take 16)).1)
    (hh : q.height = (grid (buf.take 16)).2)
    (hdu : q.dualPlane = decide (dual (buf.take 16))) {bw bh : Nat} (hbw : 2 ≤ bw) (hbh : 2 ≤ bh)
    (hb : bw * bh ≤ 144) :
    ∃ ws, decodeWeights buf bw bh q = .ok ws ∧ ws.length = 144 ∧ ∀ i, i < bw * bh →
      ws[i]? = some [(texelWeight (buf.take 16) bw bh (i % bw) (i / bw) 0 : Int),
        if dual (buf.take 16) then (texelWeight (buf.take 16) bw bh (i % bw) (i / bw) 1 : Int) else 0] := by
  have hbw' : bw ≤ 72 := by
    have := Nat.mul_le_mul_left bw hbh
    omega
  have hbh' : bh ≤ 72 := by
    have := Nat.mul_le_mul_right bh hbw
    omega
  unfold decodeWeights
  obtain ⟨wv, e, -, hW⟩ := weightValues_ok hd hr hbits h1 h2
  rw [e, Out.ok_bind, addU_ok (by omega), Out.ok_bind, subU_ok (by omega), Out.ok_bind,
    divU_ok (by omega), Out.ok_bind, addU_ok (by omega), Out.ok_bind, subU_ok (by omega), Out.ok_bind,
    divU_ok (by omega), Out.ok_bind]
  have hg : forRange bh (fun t st => forRange bw (fun s st => infillTexel wv q
        ((1024 + bw / 2) / (bw - 1)) ((1024 + bh / 2) / (bh - 1)) t s st) st)
        ((0 : Nat), List.replicate 144 [(0 : Int), 0]) =
      forRange (bh * bw) (fun i st => infillTexel wv q
        ((1024 + bw / 2) / (bw - 1)) ((1024 + bh / 2) / (bh - 1)) (i / bw) (i % bw) st)
        ((0 : Nat), List.replicate 144 [(0 : Int), 0]) := by
    rw [← forRange_nested]
    apply forRange_congr
    intro t ht st
    apply forRange_congr
    intro s hs st
    have e1 : (t * bw + s) / bw = t := by
      rw [Nat.mul_comm, Nat.mul_add_div (by omega), Nat.div_eq_of_lt hs, Nat.add_zero]
    have e2 : (t * bw + s) % bw = s := by
      rw [Nat.mul_comm, Nat.mul_add_mod, Nat.mod_eq_of_lt hs]
    simp only [e1, e2]
  rw [hg]
  obtain ⟨⟨k, l⟩, el, hk, hl, hv, -⟩ := forRange_inv (n := bh * bw)
    (s := ((0 : Nat), List.replicate 144 [(0 : Int), 0]))
    (f := fun i st => infillTexel wv q ((1024 + bw / 2) / (bw - 1)) ((1024 + bh / 2) / (bh - 1))
      (i / bw) (i % bw) st)
    (fun k st => st.1 = k ∧ st.2.length = 144 ∧ (∀ i, i < k → st.2[i]? =
      some [(texelWeight (buf.take 16) bw bh (i % bw) (i / bw) 0 : Int),
        if dual (buf.take 16) then (texelWeight (buf.take 16) bw bh (i % bw) (i / bw) 1 : Int) else 0]) ∧
      ∀ i, k ≤ i → i < 144 → st.2[i]? = some [(0 : Int), 0])
    ⟨rfl, by simp, fun _ h => absurd h (Nat.not_lt_zero _), fun i _ hi => List.getElem?_replicate_of_lt hi⟩
    (by
      rintro i hi ⟨k, l⟩ ⟨rfl, hl, h1, h2⟩
      simp only at hl h1 h2 hi
      have hb2 : bh * bw = bw * bh := Nat.mul_comm _ _
      refine ⟨_, infillTexel_ok hr hW hroom hw hh hdu hbw hbw' hbh hbh' (Nat.mod_lt _ (by omega))
        (Nat.div_lt_of_lt_mul (by omega)) (by omega) (h2 k (Nat.le_refl _) (by omega)), rfl,
        by simp [hl], ?_, ?_⟩
      · intro j hj
        simp only
        by_cases h : j = k
        · subst h
          rw [List.getElem?_set_self (by omega)]
        · rw [List.getElem?_set_ne (by omega), h1 j (by omega)]
      · intro j hj hj'
        simp only
        rw [List.getElem?_set_ne (by omega), h2 j (by omega) hj'])
  rw [el, Out.ok_bind]
  exact ⟨l, rfl, hl, fun i hi => hv i (by rw [Nat.mul_comm bh]; exact hi)⟩

end Verif.Proofs.Astc
