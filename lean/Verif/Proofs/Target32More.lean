import Verif.Model.Target32More
import Verif.Proofs.Pvrtc
import Verif.Proofs.Loops
import Verif.Proofs.ImageLaws
import Verif.Spec.Target32

/-! # PVRTC and ASTC with a 32-bit `usize` decode as with a 64-bit `usize` -/

namespace Verif.Proofs

open Verif Verif.Model

/-- Two loops do the same if their bodies do the same in all states that are reached. -/
theorem forRange_congr_inv {σ : Type} {n : Nat} {f g : Nat → σ → Out σ} {s : σ}
    (P : Nat → σ → Prop) (h0 : P 0 s)
    (hstep : ∀ i s, i < n → P i s → f i s = g i s ∧ ∀ s', g i s = .ok s' → P (i + 1) s') :
    forRange n f s = forRange n g s ∧ ∀ s', forRange n g s = .ok s' → P n s' := by
  induction n with
  | zero => exact ⟨rfl, fun s' e => by cases e; exact h0⟩
  | succ n ih =>
    obtain ⟨e, hP⟩ := ih (fun i s hi => hstep i s (by omega))
    unfold forRange
    rw [e]
    cases hg : forRange n g s with
    | panic => exact ⟨rfl, fun s' e => by cases e⟩
    | ok s1 =>
      rw [Out.ok_bind, Out.ok_bind]
      exact hstep n s1 (by omega) (hP s1 hg)

section
variable [Build]

theorem mulU_both {a b : Nat} (h : a * b < 2 ^ 32) :
    mulU 32 a b = .ok (a * b) ∧ mulU 64 a b = .ok (a * b) := ⟨mulU_ok h, mulU_ok (by omega)⟩

theorem addU_both {a b : Nat} (h : a + b < 2 ^ 32) :
    addU 32 a b = .ok (a + b) ∧ addU 64 a b = .ok (a + b) := ⟨addU_ok h, addU_ok (by omega)⟩

theorem subU_both {a b : Nat} (h : b ≤ a) :
    subU 32 a b = .ok (a - b) ∧ subU 64 a b = .ok (a - b) := ⟨subU_ok h, subU_ok h⟩

theorem copyBlockBuffer32_eq {bx by' w h bw bh : Nat} (hbw : 0 < bw) (hbh : 0 < bh)
    (hx1 : bw * (bx + 1) < 2 ^ 32) (hy1 : bh * (by' + 1) < 2 ^ 32) (hx : bw * bx < w)
    (hy : by' * bh < h) (hwh : w * h < 2 ^ 32) (hb : bw * bh < 2 ^ 32) (buffer image : List UInt32) :
    copyBlockBuffer32 bx by' w h bw bh buffer image =
      copyBlockBuffer bx by' w h bw bh buffer image := by
  have hbx : bx + 1 < 2 ^ 32 := Nat.lt_of_le_of_lt (Nat.le_mul_of_pos_left _ hbw) hx1
  have hby : by' + 1 < 2 ^ 32 := Nat.lt_of_le_of_lt (Nat.le_mul_of_pos_left _ hbh) hy1
  have hx0 : bw * bx < 2 ^ 32 := by rw [Nat.mul_succ] at hx1; omega
  have hy0 : by' * bh < 2 ^ 32 := by rw [Nat.mul_succ, Nat.mul_comm] at hy1; omega
  unfold copyBlockBuffer32 copyBlockBuffer
  rw [(mulU_both hx0).1, (mulU_both hx0).2, Out.ok_bind, Out.ok_bind, (addU_both hbx).1,
    (addU_both hbx).2, Out.ok_bind, Out.ok_bind, (mulU_both hx1).1, (mulU_both hx1).2, Out.ok_bind,
    Out.ok_bind, (subU_both (Nat.le_of_lt hx)).1, (subU_both (Nat.le_of_lt hx)).2]
  have hcw : ∃ cw, (if bw * (bx + 1) > w then Out.ok (w - bw * bx) else pure bw) = .ok cw ∧
      bw * bx + cw ≤ w ∧ cw ≤ bw := by
    rw [Nat.mul_succ]
    split
    · exact ⟨_, rfl, by omega, by omega⟩
    · exact ⟨_, rfl, by omega, by omega⟩
  obtain ⟨cw, ecw, hcw, hcwb⟩ := hcw
  rw [ecw, Out.ok_bind, Out.ok_bind, (mulU_both hy0).1, (mulU_both hy0).2, Out.ok_bind, Out.ok_bind,
    (addU_both hby).1, (addU_both hby).2, Out.ok_bind, Out.ok_bind, (mulU_both hy1).1,
    (mulU_both hy1).2, Out.ok_bind, Out.ok_bind, (subU_both (Nat.le_of_lt hy)).1,
    (subU_both (Nat.le_of_lt hy)).2]
  have hch : ∃ ch, (if bh * (by' + 1) > h then Out.ok (h - by' * bh) else pure bh) = .ok ch ∧
      by' * bh + ch ≤ h ∧ ch ≤ bh := by
    rw [Nat.mul_succ, Nat.mul_comm bh by']
    split
    · exact ⟨_, rfl, by omega, by omega⟩
    · exact ⟨_, rfl, by omega, by omega⟩
  obtain ⟨ch, ech, hch, hchb⟩ := hch
  have hh : h < 2 ^ 32 := Nat.lt_of_le_of_lt (Nat.le_mul_of_pos_left _ (by omega)) hwh
  rw [ech, Out.ok_bind, Out.ok_bind, (addU_both (a := by' * bh) (b := ch) (by omega)).1,
    (addU_both (a := by' * bh) (b := ch) (by omega)).2, Out.ok_bind, Out.ok_bind]
  rw [(forRange_congr_inv (fun i s => s.1 = i * bw) (by simp) ?_).1]
  rintro i ⟨o, img⟩ hi rfl
  simp only at hi ⊢
  have hi : i < ch := by omega
  have hrow : (by' * bh + i) * w + w ≤ w * h := by
    have : by' * bh + i + 1 ≤ h := by omega
    have := Nat.mul_le_mul_right w this
    rw [Nat.succ_mul, Nat.mul_comm h w] at this
    exact this
  have hbuf : i * bw + bw ≤ bw * bh := by
    have : i + 1 ≤ bh := by omega
    have := Nat.mul_le_mul_right bw this
    rw [Nat.succ_mul, Nat.mul_comm bh bw] at this
    exact this
  have hr : (by' * bh + i) * w < 2 ^ 32 := by omega
  have h1 : (by' * bh + i) * w + bw * bx < 2 ^ 32 := by omega
  have h2 : (by' * bh + i) * w + bw * bx + cw < 2 ^ 32 := by omega
  have h3 : i * bw + cw < 2 ^ 32 := by omega
  rw [(mulU_both hr).1, (mulU_both hr).2, Out.ok_bind, Out.ok_bind, (addU_both h1).1,
    (addU_both h1).2, Out.ok_bind, Out.ok_bind, (addU_both h2).1, (addU_both h2).2, Out.ok_bind,
    Out.ok_bind, (addU_both h3).1, (addU_both h3).2, Out.ok_bind, Out.ok_bind]
  cases slice buffer (i * bw) (i * bw + cw) with
  | panic => exact ⟨rfl, fun s' e => by cases e⟩
  | ok src =>
    rw [Out.ok_bind, Out.ok_bind]
    cases copyFromSlice img ((by' * bh + i) * w + bw * bx) ((by' * bh + i) * w + bw * bx + cw) src with
    | panic => exact ⟨rfl, fun s' e => by cases e⟩
    | ok img' =>
      rw [Out.ok_bind, Out.ok_bind]
      rcases Nat.lt_or_ge (i * bw + bw) (2 ^ 32) with h4 | h4
      · rw [(addU_both h4).1, (addU_both h4).2, Out.ok_bind]
        refine ⟨rfl, fun s' e => ?_⟩
        cases e
        simp only [Nat.succ_mul]
      · omega

/-! ## PVRTC -/

open Pvrtc Spec.Pvrtc in
theorem mortonLoop32_step {x y m j fuel : Nat} (hj : j < m) (hm : m ≤ 15) :
    mortonLoop32 x y (2 ^ m) (fuel + 1) (twLow j x y, j, 2 ^ j) =
      mortonLoop32 x y (2 ^ m) fuel (twLow (j + 1) x y, j + 1, 2 ^ (j + 1)) := by
  have hlt : 2 ^ j < 2 ^ m := Nat.pow_lt_pow_right (by omega) hj
  have h30 : 2 ^ j ≤ 2 ^ 14 := Nat.pow_le_pow_right (by omega) (by omega)
  have h60 : 4 ^ j ≤ 4 ^ 14 := Nat.pow_le_pow_right (by omega) (by omega)
  have e4 : (4 : Nat) ^ j = 2 ^ j * 2 ^ j := by rw [← Nat.mul_pow]
  have key : ((y &&& 2 ^ j) ||| (x &&& 2 ^ j) <<< 1 % 2 ^ 32) =
      2 ^ j * (y / 2 ^ j % 2 + 2 * (x / 2 ^ j % 2)) := by
    rw [and_two_pow_eq, and_two_pow_eq, shl_eq]
    have hx : x / 2 ^ j % 2 < 2 := Nat.mod_lt _ (by omega)
    have hy : y / 2 ^ j % 2 < 2 := Nat.mod_lt _ (by omega)
    generalize x / 2 ^ j % 2 = xb at *
    generalize y / 2 ^ j % 2 = yb at *
    have hxb : xb * 2 ^ j * 2 ^ 1 < 2 ^ 32 := by
      have : xb * 2 ^ j ≤ 1 * 2 ^ 14 := Nat.mul_le_mul (by omega) h30
      omega
    rw [Nat.mod_eq_of_lt hxb, Nat.mul_assoc, ← Nat.pow_add,
      or_mul xb (by
        have : yb * 2 ^ j ≤ 1 * 2 ^ j := Nat.mul_le_mul_right _ (by omega)
        have h0 := Nat.two_pow_pos j
        rw [Nat.pow_add]; omega), Nat.pow_add]
    rw [Nat.mul_add, Nat.mul_comm yb, Nat.pow_one,
      show xb * (2 ^ j * 2) = 2 ^ j * (2 * xb) by ac_rfl]
  conv => lhs; unfold mortonLoop32
  rw [if_pos hlt, shlU_ok (by omega), Out.ok_bind, shlU_ok (by omega), Out.ok_bind,
    shlU_ok (by omega), Out.ok_bind, addU_ok (by omega), Out.ok_bind, key]
  have hc : y / 2 ^ j % 2 + 2 * (x / 2 ^ j % 2) ≤ 3 := by omega
  have e1 : (2 ^ j * (y / 2 ^ j % 2 + 2 * (x / 2 ^ j % 2))) <<< j % 2 ^ 32 =
      4 ^ j * (y / 2 ^ j % 2 + 2 * (x / 2 ^ j % 2)) := by
    rw [shl_eq, Nat.mul_right_comm, ← e4, Nat.mod_eq_of_lt]
    have := Nat.mul_le_mul h60 hc
    omega
  have e2 : 2 ^ j <<< 1 % 2 ^ 32 = 2 ^ (j + 1) := by
    rw [shl_eq, Nat.pow_one, Nat.mod_eq_of_lt (by omega), Nat.pow_succ]
  rw [e1, e2]
  have e3 : (twLow j x y ||| 4 ^ j * (y / 2 ^ j % 2 + 2 * (x / 2 ^ j % 2))) =
      twLow (j + 1) x y := by
    have := twLow_lt j x y
    rw [show (4 : Nat) ^ j = 2 ^ (2 * j) by rw [Nat.pow_mul]] at *
    rw [Nat.mul_comm, or_mul _ this, twLow, Nat.mul_comm, show (4 : Nat) ^ j = 2 ^ (2 * j) by
      rw [Nat.pow_mul]]
  rw [e3]

open Pvrtc Spec.Pvrtc in
theorem mortonLoop32_eq {x y m : Nat} (hm : m ≤ 15) : ∀ d j fuel, j + d = m → d < fuel →
    mortonLoop32 x y (2 ^ m) fuel (twLow j x y, j, 2 ^ j) = .ok (twLow m x y, m, 2 ^ m) := by
  intro d
  induction d with
  | zero =>
    intro j fuel hj hf
    obtain ⟨f, rfl⟩ : ∃ f, fuel = f + 1 := ⟨fuel - 1, by omega⟩
    have : j = m := by omega
    subst this
    unfold mortonLoop32
    rw [if_neg (Nat.lt_irrefl _)]; rfl
  | succ d ih =>
    intro j fuel hj hf
    obtain ⟨f, rfl⟩ : ∃ f, fuel = f + 1 := ⟨fuel - 1, by omega⟩
    rw [mortonLoop32_step (by omega) hm]
    exact ih (j + 1) f (by omega) (by omega)

open Pvrtc Spec.Pvrtc in
theorem mortonIndex32_eq {x y m : Nat} (hm : m ≤ 15) (h : x < 2 ^ m ∨ y < 2 ^ m)
    (hlt : twiddle m x y < 2 ^ 32) :
    mortonIndex32 x y (2 ^ m) = .ok (twiddle m x y) := by
  unfold mortonIndex32
  have hl := mortonLoop32_eq (x := x) (y := y) hm m 0 64 (by omega) (by omega)
  have hz : twLow 0 x y = 0 := rfl
  rw [hz, Nat.pow_zero] at hl
  rw [hl, Out.ok_bind]
  simp only
  rw [shrU_ok (by omega), Out.ok_bind, mulU_ok (by omega), Out.ok_bind, shlU_ok (by omega),
    Out.ok_bind]
  rw [twiddle_eq_low] at *
  have e4 : (4 : Nat) ^ m = 2 ^ (m * 2) := by rw [Nat.mul_comm, Nat.pow_mul]
  have e : (x ||| y) >>> m = x / 2 ^ m + y / 2 ^ m := by
    rw [Nat.shiftRight_or_distrib, shr_eq, shr_eq]
    rcases h with h | h
    · rw [Nat.div_eq_of_lt h, Nat.zero_or, Nat.zero_add]
    · rw [Nat.div_eq_of_lt h, Nat.or_zero, Nat.add_zero]
  have hlow := twLow_lt m x y
  rw [e, shl_eq]
  generalize twLow m x y = L at *
  generalize (x / 2 ^ m + y / 2 ^ m) = c at *
  rw [e4] at hlow hlt ⊢
  rw [Nat.mul_comm _ c] at hlt ⊢
  rw [Nat.mod_eq_of_lt (by omega), Out.pure_eq, or_mul _ hlow]

open Pvrtc Spec.Pvrtc in
theorem morton_grid32 {nx ny bx by' : Nat} (hx : IsPow2 nx) (hy : IsPow2 ny) (hn : nx * ny < 2 ^ 31)
    (hbx : bx < nx) (hby : by' < ny) :
    ∃ m, mortonIndex32 bx by' (min nx ny) = .ok m ∧ mortonIndex bx by' (min nx ny) = .ok m ∧
      m < nx * ny := by
  obtain ⟨e, hlt⟩ := morton_grid hx hy (by omega) hbx hby
  refine ⟨_, ?_, e, hlt⟩
  obtain ⟨m, a, b, e1, e2, hab, hm, hl, hnn⟩ := grid_exps hx hy
  have hm15 : m ≤ 15 := by
    rw [hnn] at hn
    have := (Nat.pow_lt_pow_iff_right (a := 2) (by omega)).mp hn
    omega
  rw [hl] at hlt ⊢
  rw [hm]
  refine mortonIndex32_eq hm15 ?_ (by omega)
  rcases hab with rfl | rfl
  · left; simpa [e1] using hbx
  · right; simpa [e2] using hby

theorem pvNotPow2_32_eq (n : Nat) (hn : n < 2 ^ 32) : pvNotPow2_32 n = pvNotPow2 n := by
  unfold pvNotPow2_32 pvNotPow2
  rcases Nat.eq_zero_or_pos n with rfl | h
  · unfold subU
    cases Build.overflowChecks <;> simp
  · rw [(subU_both h).1, (subU_both h).2]

theorem pvPos32_eq {b n : Nat} (hb : b < n) (hn : n < 2 ^ 32) : pvPos32 b n = pvPos b n := by
  unfold pvPos32 pvPos
  have e : (if b = 0 then subU 32 n 1 else subU 32 b 1) = (if b = 0 then subU 64 n 1 else subU 64 b 1) := by
    split
    · rw [subU_ok (by omega), subU_ok (by omega)]
    · rw [subU_ok (by omega), subU_ok (by omega)]
  rw [e, subU_ok (w := 32) (by omega), subU_ok (w := 64) (a := n) (by omega), addU_ok (w := 32) (by omega),
    addU_ok (w := 64) (by omega)]

theorem pvInfos32_eq {is2 : Bool} {data : List UInt8} {n : Nat} (hn : n * 8 < 2 ^ 32) :
    pvInfos32 is2 data n = pvInfos is2 data n := by
  unfold pvInfos32 pvInfos
  rw [(forRange_congr_inv (fun i s => s.1 = i * 8) (by simp) ?_).1]
  rintro i ⟨o, infos⟩ hi rfl
  simp only
  cases sliceFrom data (i * 8) with
  | panic => exact ⟨rfl, fun s' e => by cases e⟩
  | ok d =>
    rw [Out.ok_bind, Out.ok_bind]
    cases getTexelColors d PvInfo.zero with
    | panic => exact ⟨rfl, fun s' e => by cases e⟩
    | ok info =>
      rw [Out.ok_bind, Out.ok_bind, Out.ok_bind, Out.ok_bind]
      cases (if is2 = true then getTexelWeights2 d info else getTexelWeights4 d info) with
      | panic => exact ⟨rfl, fun s' e => by cases e⟩
      | ok info' =>
        rw [Out.ok_bind, Out.ok_bind, addU_ok (w := 32) (by omega), addU_ok (w := 64) (by omega), Out.ok_bind]
        refine ⟨rfl, fun s' e => ?_⟩
        cases e
        simp only [Nat.succ_mul]

open Pvrtc Spec.Pvrtc in
theorem pvLocal32_eq {infos loc : List PvInfo} {nx ny bx by' : Nat} (hx : IsPow2 nx) (hy : IsPow2 ny)
    (hn : nx * ny < 2 ^ 31) (hbx : bx < nx) (hby : by' < ny) :
    pvLocal32 infos [nbPos nx bx 0, nbPos nx bx 1, nbPos nx bx 2]
        [nbPos ny by' 0, nbPos ny by' 1, nbPos ny by' 2] (min nx ny) loc =
      pvLocal infos [nbPos nx bx 0, nbPos nx bx 1, nbPos nx bx 2]
        [nbPos ny by' 0, nbPos ny by' 1, nbPos ny by' 2] (min nx ny) loc := by
  have hget : ∀ n b c, c < 3 → idx [nbPos n b 0, nbPos n b 1, nbPos n b 2] c = .ok (nbPos n b c) := by
    intro n b c hc
    match c, hc with
    | 0, _ => rfl
    | 1, _ => rfl
    | 2, _ => rfl
  unfold pvLocal32 pvLocal
  rw [(forRange_congr_inv (fun i s => s.1 = i * 3) (by simp) ?_).1]
  rintro cy s hcy hs
  have := forRange_congr_inv (n := 3) (s := s) (fun i s => s.1 = cy * 3 + i)
    (f := fun cx (s : Nat × List PvInfo) => (do
      let (c, loc) := s
      let px ← idx [nbPos nx bx 0, nbPos nx bx 1, nbPos nx bx 2] cx
      let py ← idx [nbPos ny by' 0, nbPos ny by' 1, nbPos ny by' 2] cy
      let m ← mortonIndex32 px py (min nx ny)
      let info ← idx infos m
      let loc ← setIdx loc c info
      let c ← addU 32 c 1
      pure (c, loc)))
    (g := fun cx (s : Nat × List PvInfo) => (do
      let (c, loc) := s
      let px ← idx [nbPos nx bx 0, nbPos nx bx 1, nbPos nx bx 2] cx
      let py ← idx [nbPos ny by' 0, nbPos ny by' 1, nbPos ny by' 2] cy
      let m ← mortonIndex px py (min nx ny)
      let info ← idx infos m
      let loc ← setIdx loc c info
      let c ← addU 64 c 1
      pure (c, loc))) hs (by
        rintro cx ⟨c, loc⟩ hcx rfl
        simp only
        rw [hget nx bx cx hcx, hget ny by' cy hcy, Out.ok_bind, Out.ok_bind, Out.ok_bind, Out.ok_bind]
        obtain ⟨m, e1, e2, -⟩ := morton_grid32 hx hy hn (nbPos_lt (b := bx) (by omega) cx)
          (nbPos_lt (b := by') (by omega) cy)
        rw [e1, e2, Out.ok_bind, Out.ok_bind]
        cases idx infos m with
        | panic => exact ⟨rfl, fun s' e => by cases e⟩
        | ok info =>
          rw [Out.ok_bind, Out.ok_bind]
          cases setIdx loc (cy * 3 + cx) info with
          | panic => exact ⟨rfl, fun s' e => by cases e⟩
          | ok loc' =>
            rw [Out.ok_bind, Out.ok_bind, addU_ok (w := 32) (by omega), addU_ok (w := 64) (by omega),
              Out.ok_bind]
            refine ⟨rfl, fun s' e => ?_⟩
            cases e
            rfl)
  refine ⟨this.1, fun s' e => ?_⟩
  have := this.2 s' e
  rw [this]; omega

open Pvrtc Spec.Pvrtc in
/-- All images whose sizes and whose table of blocks fit in the memory of a 32-bit target. -/
theorem decodePvrtc32_eq {data : List UInt8} {w h : Nat} {image : List UInt32} {is2 : Bool}
    (hn : Spec.numBlocks (bw is2) 4 w h * 44 < 2 ^ 31) (hwh : w * h < 2 ^ 32) (hw : w < 2 ^ 32)
    (hh : h < 2 ^ 32) :
    decodePvrtc32 data w h image is2 = decodePvrtc data w h image is2 := by
  have hbw := bw_cases is2
  have hf : (if is2 = true then 8 else 4) = bw is2 := rfl
  unfold Spec.numBlocks at hn
  have hnx : Spec.ceilDiv w (bw is2) < 2 ^ 32 := by
    unfold Spec.ceilDiv
    rcases hbw with e | e <;> rw [e] <;> omega
  have hny : Spec.ceilDiv h 4 < 2 ^ 32 := by unfold Spec.ceilDiv; omega
  have hneed : Spec.ceilDiv w (bw is2) * Spec.ceilDiv h 4 * bw is2 < 2 ^ 32 := by
    rcases hbw with e | e <;> rw [e] at hn ⊢ <;> omega
  have hxw : ∀ bx, bx < Spec.ceilDiv w (bw is2) → bw is2 * bx < w := by
    intro bx hb
    unfold Spec.ceilDiv at hb
    rcases hbw with e | e <;> rw [e] at hb ⊢ <;> omega
  have hyh : ∀ by', by' < Spec.ceilDiv h 4 → by' * 4 < h := by
    intro by' hb
    unfold Spec.ceilDiv at hb
    omega
  unfold decodePvrtc32 decodePvrtc
  simp only
  rw [hf, divCeil_ok (show bw is2 ≠ 0 by omega), Out.ok_bind, Out.ok_bind, divCeil_ok (by omega), Out.ok_bind,
    Out.ok_bind]
  unfold Spec.ceilDiv at *
  generalize (w + bw is2 - 1) / bw is2 = nx at *
  generalize (h + 4 - 1) / 4 = ny at *
  have hnn : nx * ny < 2 ^ 32 := by omega
  rw [(mulU_both hnn).1, (mulU_both hnn).2, Out.ok_bind,
    Out.ok_bind, (mulU_both hneed).1, (mulU_both hneed).2, Out.ok_bind, Out.ok_bind, (mulU_both hwh).1,
    (mulU_both hwh).2, Out.ok_bind, Out.ok_bind]
  split
  · rfl
  split
  · rfl
  rw [pvNotPow2_32_eq nx hnx, pvNotPow2_32_eq ny hny, pvInfos32_eq (by omega)]
  cases ex : pvNotPow2 nx with
  | panic => rw [Out.panic_bind, Out.panic_bind]
  | ok badX =>
    rw [Out.ok_bind, Out.ok_bind]
    cases badX with
    | true => rw [if_pos rfl, Out.pure_eq, Out.ok_bind, Out.ok_bind, if_pos rfl, if_pos rfl]
    | false =>
      simp only [Bool.false_eq_true, if_false]
      cases ey : pvNotPow2 ny with
      | panic => rw [Out.panic_bind, Out.panic_bind]
      | ok badY =>
        rw [Out.ok_bind, Out.ok_bind]
        cases badY with
        | true => rw [if_pos rfl, if_pos rfl]
        | false =>
          simp only [Bool.false_eq_true, if_false]
          congr 1
          funext infos
          congr 1
          refine forRange_congr (fun by' hby s => ?_)
          rw [pvPos32_eq hby hny]
          rw [pvPos_eq hby (by omega), Out.ok_bind, Out.ok_bind]
          refine forRange_congr (fun bx hbx s => ?_)
          obtain ⟨loc, buffer, image⟩ := s
          simp only
          have hpx : IsPow2 nx := by
            obtain ⟨b, e, hb⟩ := pvNotPow2_eq (n := nx) (by omega)
            rw [ex] at e
            cases e
            exact hb.mp rfl
          have hpy : IsPow2 ny := by
            obtain ⟨b, e, hb⟩ := pvNotPow2_eq (n := ny) (by omega)
            rw [ey] at e
            cases e
            exact hb.mp rfl
          rw [pvPos32_eq hbx hnx, pvPos_eq hbx (by omega), Out.ok_bind, Out.ok_bind,
            pvLocal32_eq hpx hpy (by omega) hbx hby]
          obtain ⟨m, e1, e2, hm⟩ := morton_grid32 hpx hpy (by omega) hbx hby
          rw [e1, e2]
          congr 1
          funext loc
          rw [Out.ok_bind, Out.ok_bind, (mulU_both (a := m) (b := 8) (by omega)).1,
            (mulU_both (a := m) (b := 8) (by omega)).2, Out.ok_bind, Out.ok_bind]
          congr 1
          funext _
          congr 1
          funext buffer
          have hcx : bw is2 * (bx + 1) < 2 ^ 32 := by
            have h1 : bx + 1 ≤ nx * ny :=
              Nat.le_trans (show bx + 1 ≤ nx from hbx) (Nat.le_mul_of_pos_right _ (by omega))
            rcases hbw with e | e <;> rw [e] <;> omega
          have hcy : 4 * (by' + 1) < 2 ^ 32 := by
            have h1 : by' + 1 ≤ nx * ny :=
              Nat.le_trans (show by' + 1 ≤ ny from hby) (Nat.le_mul_of_pos_left _ (by omega))
            omega
          rw [copyBlockBuffer32_eq (by omega) (by omega) hcx hcy (hxw bx hbx) (hyh by' hby) hwh (by omega)]

/-! ## ASTC -/

/-- All sizes that fit in a 32-bit `usize`, and all data. -/
theorem decodeAstc32_eq {data : List UInt8} {w h bw bh : Nat} {image : List UInt32}
    (hs : Spec.SizesOk32 bw bh 16 w h image) (hb : bw * bh < 2 ^ 32) :
    decodeAstc32 data w h bw bh image = decodeAstc data w h bw bh image := by
  obtain ⟨himg, hbytes, hwh⟩ := hs
  unfold Spec.bytesNeeded Spec.numBlocks at hbytes
  unfold decodeAstc32 decodeAstc
  rcases Nat.eq_zero_or_pos bw with rfl | hbw
  · rfl
  rcases Nat.eq_zero_or_pos bh with rfl | hbh
  · rw [divCeil_ok (by omega), Out.ok_bind, Out.ok_bind]; rfl
  rw [divCeil_ok (by omega), Out.ok_bind, Out.ok_bind, divCeil_ok (by omega), Out.ok_bind, Out.ok_bind]
  have hxw : ∀ bx, bx < Spec.ceilDiv w bw → bw * bx < w := by
    intro bx hlt
    have : bx * bw < w := by
      unfold Spec.ceilDiv at hlt
      have h1 := (Nat.le_div_iff_mul_le hbw).mp (show bx + 1 ≤ _ from hlt)
      rw [Nat.succ_mul] at h1
      omega
    rwa [Nat.mul_comm]
  have hyh : ∀ by', by' < Spec.ceilDiv h bh → by' * bh < h := by
    intro by' hlt
    unfold Spec.ceilDiv at hlt
    have h1 := (Nat.le_div_iff_mul_le hbh).mp (show by' + 1 ≤ _ from hlt)
    rw [Nat.succ_mul] at h1
    omega
  unfold Spec.ceilDiv at *
  generalize (w + bw - 1) / bw = nx at *
  generalize (h + bh - 1) / bh = ny at *
  have hnn : nx * ny < 2 ^ 32 := by omega
  rw [(mulU_both hnn).1, (mulU_both hnn).2, Out.ok_bind, Out.ok_bind, (mulU_both hbytes).1,
    (mulU_both hbytes).2, Out.ok_bind, Out.ok_bind, (mulU_both hwh).1, (mulU_both hwh).2, Out.ok_bind,
    Out.ok_bind, (mulU_both hb).1, (mulU_both hb).2, Out.ok_bind, Out.ok_bind]
  simp only
  split
  · rfl
  split
  · rfl
  split
  · rfl
  next hi hsz =>
  have hbw' : bw ≤ bw * bh := Nat.le_mul_of_pos_right _ hbh
  have hbh' : bh ≤ bw * bh := Nat.le_mul_of_pos_left _ hbw
  rw [(forRange_congr_inv (fun i s => s.2.1 = i * nx * 16) (by simp) ?_).1]
  intro by' s hby hs
  have := forRange_congr_inv (n := nx) (s := s) (fun i s => s.2.1 = (by' * nx + i) * 16)
    (f := fun bx (s : List UInt32 × Nat × List UInt32) => (do
            let (buffer, dataOffset, image) := s
            let block ← sliceFrom data dataOffset
            let buffer ← decodeAstcBlock block bw bh buffer
            let image ← copyBlockBuffer32 bx by' w h bw bh buffer image
            let dataOffset ← addU 32 dataOffset 16
            pure (buffer, dataOffset, image)))
    (g := fun bx (s : List UInt32 × Nat × List UInt32) => (do
            let (buffer, dataOffset, image) := s
            let block ← sliceFrom data dataOffset
            let buffer ← decodeAstcBlock block bw bh buffer
            let image ← copyBlockBuffer bx by' w h bw bh buffer image
            let dataOffset ← addU 64 dataOffset 16
            pure (buffer, dataOffset, image))) hs (by
      rintro bx ⟨buffer, o, image⟩ hbx rfl
      simp only
      have hw : w ≤ w * h := Nat.le_mul_of_pos_right _ (Nat.lt_of_le_of_lt (Nat.zero_le _) (hyh by' hby))
      have hh : h ≤ w * h := Nat.le_mul_of_pos_left _ (Nat.lt_of_le_of_lt (Nat.zero_le _) (hxw bx hbx))
      have hx := hxw bx hbx
      have hy := hyh by' hby
      have hx1 : bw * (bx + 1) < 2 ^ 32 := by rw [Nat.mul_succ]; omega
      have hy1 : bh * (by' + 1) < 2 ^ 32 := by rw [Nat.mul_succ, Nat.mul_comm bh]; omega
      have hpos : (by' * nx + bx) * 16 + 16 ≤ nx * ny * 16 := by
        have h1 := Nat.mul_le_mul_right nx (show by' + 1 ≤ ny from hby)
        rw [Nat.succ_mul, Nat.mul_comm ny nx] at h1
        omega
      cases sliceFrom data ((by' * nx + bx) * 16) with
      | panic => exact ⟨rfl, fun s' e => by cases e⟩
      | ok d =>
        rw [Out.ok_bind, Out.ok_bind]
        cases decodeAstcBlock d bw bh buffer with
        | panic => exact ⟨rfl, fun s' e => by cases e⟩
        | ok buffer =>
          rw [Out.ok_bind, Out.ok_bind, copyBlockBuffer32_eq hbw hbh hx1 hy1 hx hy hwh hb]
          cases copyBlockBuffer bx by' w h bw bh buffer image with
          | panic => exact ⟨rfl, fun s' e => by cases e⟩
          | ok image =>
            rcases Nat.lt_or_ge ((by' * nx + bx) * 16 + 16) (2 ^ 32) with h4 | h4
            · rw [Out.ok_bind, Out.ok_bind, (addU_both h4).1, (addU_both h4).2, Out.ok_bind]
              refine ⟨rfl, fun s' e => ?_⟩
              cases e
              simp only
              omega
            · omega)
  refine ⟨this.1, fun s' e => ?_⟩
  rw [this.2 s' e, Nat.succ_mul]

end

end Verif.Proofs
