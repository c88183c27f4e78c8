import Verif.Proofs.PvrtcZero
import Verif.Proofs.Oversize

/-! # PVRTC images whose size products exceed `usize` -/

namespace Verif.Proofs.Pvrtc

open Verif Verif.Model Verif.Proofs
open Verif.Spec.Pvrtc (IsPow2 bw)

/-- Data shorter than the blocks makes the extraction panic, whatever the number of blocks. -/
theorem pvInfos_panic_any [Build] {is2 : Bool} {data : List UInt8} {n : Nat} (hd : data.length < n * 8)
    (hn : data.length + 8 < 2 ^ 64) : pvInfos is2 data n = .panic := by
  cases e : pvInfos is2 data n with
  | panic => rfl
  | ok r =>
    exfalso
    unfold pvInfos at e
    obtain ⟨s, es, -⟩ := Out.bind_eq_ok.mp e
    have := forRange_ok_inv' es (P := fun k s => s.1 = k * 8 ∧ k * 8 ≤ data.length) ⟨rfl, by omega⟩
      (by
        rintro k hk ⟨off, infos⟩ s' ⟨ho, hl⟩ h
        simp only at ho h
        subst ho
        rw [sliceFrom_ok hl, Out.ok_bind] at h
        obtain ⟨i1, h1, h⟩ := Out.bind_eq_ok.mp h
        rw [Out.ok_bind] at h
        obtain ⟨i2, -, h⟩ := Out.bind_eq_ok.mp h
        rw [addU_ok (by omega), Out.ok_bind] at h
        have h := Out.ok.inj h
        rw [← h]
        refine ⟨by simp only; omega, ?_⟩
        unfold getTexelColors at h1
        obtain ⟨b1, -, h1⟩ := Out.bind_eq_ok.mp h1
        obtain ⟨b2, h2, -⟩ := Out.bind_eq_ok.mp h1
        unfold slice at h2
        split at h2
        · next hc => have := hc.2; simp at this; omega
        · cases h2)
    omega

/-- Without blocks there is nothing to look up. -/
theorem pvLocal_nil [Build] {posX posY : List Nat} {minDim : Nat} {loc : List PvInfo} :
    pvLocal [] posX posY minDim loc = .panic := by
  unfold pvLocal
  rw [forRange_panic_first]
  · rfl
  · refine forRange_panic_first ?_ 2
    simp only
    cases idx posX 0 with
    | panic => rfl
    | ok px =>
      rw [Out.ok_bind]
      cases idx posY 0 with
      | panic => rfl
      | ok py =>
        rw [Out.ok_bind]
        cases mortonIndex px py minDim with
        | panic => rfl
        | ok m => rw [Out.ok_bind]; rfl

/-- The number of blocks of an oversized image. -/
theorem oversized_blocks {is2 : Bool} {w h : Nat}
    (ho : 2 ^ 64 ≤ Spec.bytesNeeded (bw is2) 4 8 w h ∨ 2 ^ 64 ≤ w * h) :
    2 ^ 64 ≤ Spec.numBlocks (bw is2) 4 w h * (bw is2 * 4) := by
  have hbw := bw_cases is2
  rcases ho with ho | ho
  · exact Nat.le_trans ho (Nat.mul_le_mul_left _ (by omega))
  · exact Nat.le_trans ho (pixels_le_blocks (by omega) (by omega))

/-- Oversized images in a build with overflow checks. -/
theorem pv_oversize_debug {is2 : Bool} {data : List UInt8} {w h : Nat} {image : List UInt32}
    (hd : data.length < 2 ^ 62)
    (ho : 2 ^ 64 ≤ Spec.bytesNeeded (bw is2) 4 8 w h ∨ 2 ^ 64 ≤ w * h) :
    @decodePvrtc Build.debug data w h image is2 =
      if 2 ^ 64 ≤ Spec.numBlocks (bw is2) 4 w h * bw is2 then .panic
      else .ok (.error "The data buffer is too small!", image) := by
  letI := Build.debug
  have hbw := bw_cases is2
  have hbig := oversized_blocks ho
  have hf : (if is2 = true then 8 else 4) = bw is2 := rfl
  unfold decodePvrtc
  simp only [hf]
  rw [divCeil_ok (by omega), Out.ok_bind, divCeil_ok (by omega), Out.ok_bind, ← Spec.ceilDiv, ← Spec.ceilDiv]
  unfold Spec.numBlocks at *
  generalize Spec.ceilDiv w (bw is2) = nbx at *
  generalize Spec.ceilDiv h 4 = nby at *
  rcases Nat.lt_or_ge (nbx * nby * bw is2) (2 ^ 64) with hn | hn
  case inr =>
    rw [if_pos hn]
    rcases Nat.lt_or_ge (nbx * nby) (2 ^ 64) with h1 | h1
    · rw [mulU_ok h1, Out.ok_bind]
      unfold mulU
      rw [fitU_debug hn]; rfl
    · unfold mulU
      rw [fitU_debug h1]; rfl
  case inl =>
    have h1 : nbx * nby ≤ nbx * nby * bw is2 := Nat.le_mul_of_pos_right _ (by omega)
    rw [if_neg (by omega), mulU_ok (by omega), Out.ok_bind, mulU_ok (by omega), Out.ok_bind, if_pos (by
      rcases hbw with e | e <;> rw [e] at hbig ⊢ <;> omega)]
    rfl

open Classical in
/-- Oversized images in a build without overflow checks. -/
theorem pv_oversize_release {is2 : Bool} {data : List UInt8} {w h : Nat} {image : List UInt32}
    (hw : w < 2 ^ 64) (hh : h < 2 ^ 64) (hd : data.length < 2 ^ 62)
    (ho : 2 ^ 64 ≤ Spec.bytesNeeded (bw is2) 4 8 w h ∨ 2 ^ 64 ≤ w * h) :
    @decodePvrtc Build.release data w h image is2 =
      if data.length < Spec.numBlocks (bw is2) 4 w h * bw is2 % 2 ^ 64 then
        .ok (.error "The data buffer is too small!", image)
      else if image.length < w * h % 2 ^ 64 then .ok (.error "The image buffer is too small!", image)
      else if ¬ (IsPow2 (Spec.ceilDiv w (bw is2)) ∧ IsPow2 (Spec.ceilDiv h 4)) then
        .ok (.error "The number of blocks of each side must be a power of 2!", image)
      else .panic := by
  letI := Build.release
  have hbw := bw_cases is2
  have hbig := oversized_blocks ho
  have hf : (if is2 = true then 8 else 4) = bw is2 := rfl
  have hnx63 : Spec.ceilDiv w (bw is2) < 2 ^ 63 := by
    unfold Spec.ceilDiv
    rcases hbw with e | e <;> rw [e] <;> omega
  have hny63 : Spec.ceilDiv h 4 < 2 ^ 63 := by unfold Spec.ceilDiv; omega
  unfold decodePvrtc
  simp only [hf]
  rw [divCeil_ok (by omega), Out.ok_bind, divCeil_ok (by omega), Out.ok_bind, ← Spec.ceilDiv, ← Spec.ceilDiv]
  unfold Spec.numBlocks at *
  generalize Spec.ceilDiv w (bw is2) = nbx at *
  generalize Spec.ceilDiv h 4 = nby at *
  unfold mulU
  simp only [fitU_release, Out.ok_bind, Nat.mod_mul_mod]
  split
  · rfl
  split
  · rfl
  have hpos : 0 < nbx * nby := by
    rcases Nat.eq_zero_or_pos (nbx * nby) with h0 | h0
    · rw [h0] at hbig; omega
    · exact h0
  have hnx : 0 < nbx := Nat.pos_of_mul_pos_right hpos
  have hny : 0 < nby := Nat.pos_of_mul_pos_left hpos
  obtain ⟨b1, e1, hb1⟩ := pvNotPow2_eq hnx
  obtain ⟨b2, e2, hb2⟩ := pvNotPow2_eq hny
  rw [e1, Out.ok_bind, ← hb1, ← hb2]
  cases b1 with
  | true => rw [if_pos (fun h => nomatch h.1)]; rfl
  | false =>
    simp only [Bool.false_eq_true, if_false]
    rw [e2, Out.ok_bind]
    cases b2 with
    | true => rw [if_pos (fun h => nomatch h.2)]; rfl
    | false =>
      simp only [Bool.false_eq_true, if_false]
      rw [if_neg (fun h => h ⟨trivial, trivial⟩)]
      have hx := hb1.mp rfl
      have hy := hb2.mp rfl
      rcases Nat.lt_or_ge (nbx * nby) (2 ^ 64) with h1 | h1
      · rw [Nat.mod_eq_of_lt h1, pvInfos_panic_any (by
          rcases hbw with e | e <;> rw [e] at hbig <;> omega) (by omega)]
        rfl
      · have hz : nbx * nby % 2 ^ 64 = 0 := by
          obtain ⟨p, hp⟩ := hx
          obtain ⟨q, hq⟩ := hy
          rw [hp, hq, ← Nat.pow_add] at h1 ⊢
          have h64 : 64 ≤ p + q := (Nat.pow_le_pow_iff_right (by omega)).mp h1
          exact Nat.mod_eq_zero_of_dvd (Nat.pow_dvd_pow 2 h64)
        rw [hz, show pvInfos is2 data 0 = .ok [] from rfl, Out.ok_bind]
        obtain ⟨ny, rfl⟩ : ∃ k, nby = k + 1 := ⟨nby - 1, by omega⟩
        obtain ⟨nx, rfl⟩ : ∃ k, nbx = k + 1 := ⟨nbx - 1, by omega⟩
        rw [forRange_panic_first]
        · rfl
        · rw [pvPos_eq hny hny63, Out.ok_bind]
          refine forRange_panic_first ?_ nx
          simp only
          rw [pvPos_eq hnx hnx63, Out.ok_bind, pvLocal_nil]
          rfl

end Verif.Proofs.Pvrtc
