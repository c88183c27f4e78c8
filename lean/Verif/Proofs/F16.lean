import Verif.Model.F16
import Verif.Spec.Half
import Verif.Proofs.Bits

/-!
# Half floats: every `f32` step in the conversion is exact
-/

set_option linter.unusedSectionVars false

namespace Verif.Proofs

open Verif Verif.Model

theorem log2_lt_of {a j : Nat} (h : a < 2 ^ 24) (hn : a * 2 ^ j ≠ 0) : (a * 2 ^ j).log2 < 24 + j := by
  rw [Nat.log2_lt hn, Nat.pow_add]
  exact Nat.mul_lt_mul_of_pos_right h (Nat.two_pow_pos j)

/-- Rounding a value that is already an `f32` changes nothing. -/
theorem round_exact (s : Bool) {a j k : Nat} (ha : a < 2 ^ 24) (hk : k ≤ j)
    (hv : a * 2 ^ (j - k) < 2 ^ 277) : Fl.round s (a * 2 ^ j) k = .fin s (a * 2 ^ (j - k)) := by
  have hd : max k ((a * 2 ^ j).log2 + 1 - 24) ≤ j := by
    by_cases h0 : a * 2 ^ j = 0
    · rw [h0]
      have : Nat.log2 0 = 0 := by decide
      omega
    · have := log2_lt_of ha h0
      omega
  unfold Fl.round
  simp only
  generalize hdd : max k ((a * 2 ^ j).log2 + 1 - 24) = d at hd
  have hkd : k ≤ d := by omega
  have hj : a * 2 ^ j = (a * 2 ^ (j - d)) * 2 ^ d := by
    rw [Nat.mul_assoc, ← Nat.pow_add, show j - d + d = j by omega]
  have hr : a * 2 ^ j % 2 ^ d = 0 := by rw [hj, Nat.mul_mod_left]
  have hq : a * 2 ^ j / 2 ^ d = a * 2 ^ (j - d) := by
    rw [hj, Nat.mul_div_cancel _ (Nat.two_pow_pos d)]
  have hp := Nat.two_pow_pos d
  rw [hr, hq]
  have hif : ¬ (2 * 0 > 2 ^ d ∨ (2 * 0 = 2 ^ d ∧ a * 2 ^ (j - d) % 2 = 1)) := by omega
  rw [if_neg hif]
  have hvv : a * 2 ^ (j - d) * 2 ^ (d - k) = a * 2 ^ (j - k) := by
    rw [Nat.mul_assoc, ← Nat.pow_add, show j - d + (d - k) = j - k by omega]
  rw [hvv, if_neg (by omega)]

/-- Storing a representable value in a `f32` (with any sign bit) and reading it back. -/
theorem ofBits_toBits (s : Bool) {a j : Nat} (ha : a < 2 ^ 24) (hv : a * 2 ^ j < 2 ^ 277) :
    Fl.ofBits (s.toNat * 2 ^ 31 + Fl.toBits (.fin false (a * 2 ^ j))) = .fin s (a * 2 ^ j) ∧
    Fl.toBits (.fin false (a * 2 ^ j)) < 2 ^ 31 := by
  have hs : s.toNat < 2 := Bool.toNat_lt s
  have hsb : ((s.toNat) % 2 == 1) = s := by cases s <;> rfl
  by_cases hsmall : a * 2 ^ j < 2 ^ 23
  · simp only [Fl.toBits, if_pos hsmall, Bool.toNat_false, Nat.zero_mul, Nat.zero_add]
    refine ⟨?_, by omega⟩
    unfold Fl.ofBits
    have h1 : (s.toNat * 2 ^ 31 + a * 2 ^ j) / 2 ^ 31 % 2 = s.toNat % 2 := by omega
    have h2 : (s.toNat * 2 ^ 31 + a * 2 ^ j) / 2 ^ 23 % 256 = 0 := by omega
    have h3 : (s.toNat * 2 ^ 31 + a * 2 ^ j) % 2 ^ 23 = a * 2 ^ j := by omega
    simp only [h1, h2, h3, hsb]
    rfl
  · have hn0 : a * 2 ^ j ≠ 0 := by omega
    have hL := log2_lt_of ha hn0
    have hL2 := Nat.log2_self_le hn0
    have hL3 : a * 2 ^ j < 2 ^ ((a * 2 ^ j).log2 + 1) := Nat.lt_log2_self
    have hL4 : 23 ≤ (a * 2 ^ j).log2 := by
      rw [Nat.le_log2 hn0]; omega
    have hL5 : (a * 2 ^ j).log2 < 277 := by rw [Nat.log2_lt hn0]; exact hv
    simp only [Fl.toBits, if_neg hsmall, Bool.toNat_false, Nat.zero_mul, Nat.zero_add]
    generalize hLL : (a * 2 ^ j).log2 = L at *
    have hq : a * 2 ^ j = (a * 2 ^ j / 2 ^ (L - 23)) * 2 ^ (L - 23) := by
      have : a * 2 ^ j = (a * 2 ^ (j - (L - 23))) * 2 ^ (L - 23) := by
        rw [Nat.mul_assoc, ← Nat.pow_add, show j - (L - 23) + (L - 23) = j by omega]
      rw [this, Nat.mul_div_cancel _ (Nat.two_pow_pos _)]
    generalize hqq : a * 2 ^ j / 2 ^ (L - 23) = q at *
    have hp := Nat.two_pow_pos (L - 23)
    have hq1 : 2 ^ 23 ≤ q := by
      rw [← hqq, Nat.le_div_iff_mul_le hp, ← Nat.pow_add, show 23 + (L - 23) = L by omega]
      exact hL2
    have hq2 : q < 2 ^ 24 := by
      rw [← hqq, Nat.div_lt_iff_lt_mul hp, ← Nat.pow_add, show 24 + (L - 23) = L + 1 by omega]
      exact hL3
    refine ⟨?_, by omega⟩
    unfold Fl.ofBits
    have h1 : (s.toNat * 2 ^ 31 + ((L - 22) * 2 ^ 23 + (q - 2 ^ 23))) / 2 ^ 31 % 2 = s.toNat % 2 := by
      omega
    have h2 : (s.toNat * 2 ^ 31 + ((L - 22) * 2 ^ 23 + (q - 2 ^ 23))) / 2 ^ 23 % 256 = L - 22 := by
      omega
    have h3 : (s.toNat * 2 ^ 31 + ((L - 22) * 2 ^ 23 + (q - 2 ^ 23))) % 2 ^ 23 = q - 2 ^ 23 := by
      omega
    simp only [h1, h2, h3, hsb]
    rw [if_neg (by omega), if_neg (by omega), show 2 ^ 23 + (q - 2 ^ 23) = q by omega,
      show L - 22 - 1 = L - 23 by omega, ← hq]

/-- The value of the half float `h`, as an `f32`. -/
def halfFl (h : Nat) : Fl :=
  let s := h / 32768 % 2 == 1
  if h / 1024 % 32 = 31 then (if h % 1024 = 0 then .inf s else .nan)
  else .fin s (Spec.halfUnits h * 2 ^ 125)

theorem half_units_form (h : Nat) (he : h / 1024 % 32 ≠ 31) :
    ∃ a j, a < 2048 ∧ j ≤ 29 ∧ Spec.halfUnits h = a * 2 ^ j := by
  unfold Spec.halfUnits
  simp only
  split
  · exact ⟨h % 1024, 0, by omega, by omega, by omega⟩
  · exact ⟨1024 + h % 1024, h / 1024 % 32 - 1, by omega, by omega, rfl⟩

theorem pow3 (x : Nat) {a b c d : Nat} (h : a + b + c = d) : x * 2 ^ a * 2 ^ b * 2 ^ c = x * 2 ^ d := by
  rw [← h, Nat.pow_add, Nat.pow_add]
  ac_rfl

theorem clamp_neg (n : Nat) : ((Fl.fin true n).clamp Fl.zero Fl.c255).asU8 = 0 := by
  unfold Fl.clamp
  simp only
  by_cases h : (Fl.fin true n).lt Fl.zero = true
  · rw [if_pos h]; decide +kernel
  · rw [if_neg h]
    rfl

theorem clamp_fin (n c : Nat) :
    (Fl.fin false n).clamp Fl.zero (.fin false c) = .fin false (min n c) := by
  unfold Fl.clamp
  simp only
  have h1 : (Fl.fin false n).lt Fl.zero = false := by simp [Fl.lt, Fl.zero]
  have h2 : (Fl.fin false c).lt (Fl.fin false n) = decide (c < n) := rfl
  simp only [h1, Bool.false_eq_true, if_false, h2, decide_eq_true_eq]
  by_cases h : c < n
  · rw [if_pos h, Nat.min_eq_right (by omega)]
  · rw [if_neg h, Nat.min_eq_left (by omega)]

theorem scale_floor (N p q : Nat) (hp : 0 < p) (hq : 0 < q) :
    min 255 (min (N * q) (255 * (p * q)) / (p * q)) = min 255 (N / p) := by
  have hpq : 0 < p * q := Nat.mul_pos hp hq
  have h1 : N * q / (p * q) = N / p := Nat.mul_div_mul_right N p hq
  have h2 : 255 * (p * q) / (p * q) = 255 := Nat.mul_div_cancel _ hpq
  rcases Nat.le_total (N * q) (255 * (p * q)) with h | h
  · rw [Nat.min_eq_left h, h1]
  · rw [Nat.min_eq_right h, h2, ← h1]
    have := Nat.div_le_div_right (c := p * q) h
    rw [h2] at this
    omega

theorem clamp_pos (N : Nat) :
    ((Fl.fin false (N * 2 ^ 125)).clamp Fl.zero Fl.c255).asU8 = min 255 (N / 2 ^ 24) := by
  unfold Fl.c255
  rw [clamp_fin]
  have : (2 : Nat) ^ 149 = 2 ^ 24 * 2 ^ 125 := by rw [← Nat.pow_add]
  unfold Fl.asU8
  rw [this]
  exact scale_floor N _ _ (Nat.two_pow_pos _) (Nat.two_pow_pos _)

theorem lt_277 {a j : Nat} (ha : a < 2 ^ 24) (hj : j ≤ 253) : a * 2 ^ j < 2 ^ 277 := by
  have h1 : a * 2 ^ j < 2 ^ 24 * 2 ^ j := Nat.mul_lt_mul_of_pos_right ha (Nat.two_pow_pos j)
  have h2 : 2 ^ 24 * 2 ^ j ≤ 2 ^ 277 := by
    rw [← Nat.pow_add]; exact Nat.pow_le_pow_right (by omega) (by omega)
  omega

variable [Build]

theorem or_sign (s x : Nat) (hx : x < 2 ^ 31) : s * 2 ^ 31 ||| x = s * 2 ^ 31 + x := mul_or s hx

/-- `fp16_ieee_to_fp32_value` computes exactly the value of its argument. -/
theorem fp16ToFp32_ok {h : Nat} (hh : h < 65536) :
    ∃ b, fp16ToFp32 h = .ok b ∧ Fl.ofBits b = halfFl h := by
  unfold fp16ToFp32
  have hw : (h <<< 16) % 2 ^ 32 = h * 65536 := by rw [shl_eq]; omega
  have hsign : h * 65536 &&& 0x80000000 = (h / 32768 % 2) * 2 ^ 31 := by
    have := and_mask_shift (h * 65536) 1 31
    simp only [Nat.reducePow, Nat.reduceSub, Nat.reduceMul] at this
    rw [this]; omega
  have htw : asU 32 (h * 65536 + h * 65536) = (h % 32768) * 131072 := by
    unfold asU; omega
  rw [shlU_ok (by omega), Out.ok_bind, hw]
  simp only [hsign, htw]
  rw [shlU_ok (by omega), Out.ok_bind, shrU_ok (by omega), Out.ok_bind, shr_eq]
  have hx1 : h % 32768 * 131072 / 2 ^ 4 = h % 32768 * 8192 := by omega
  have hx2 : (0xE0 <<< 23) % 2 ^ 32 = 1879048192 := by decide
  rw [hx1, hx2, addU_ok (by omega), Out.ok_bind, shlU_ok (by omega), Out.ok_bind,
    shrU_ok (by omega), Out.ok_bind, shr_eq, shlU_ok (by omega), Out.ok_bind]
  have hy1 : h % 32768 * 131072 / 2 ^ 17 = h % 32768 := by omega
  have hy2 : (126 <<< 23) % 2 ^ 32 = 126 * 2 ^ 23 := by decide
  have hc : (1 <<< 27) % 2 ^ 32 = 134217728 := by decide
  rw [hy1, hy2, hc]
  refine ⟨_, rfl, ?_⟩
  have hsb : ∃ s : Bool, (h / 32768 % 2 == 1) = s ∧ h / 32768 % 2 = s.toNat := by
    refine ⟨_, rfl, ?_⟩
    rcases Nat.mod_two_eq_zero_or_one (h / 32768) with e | e <;> rw [e] <;> rfl
  obtain ⟨s, hs1, hs2⟩ := hsb
  unfold halfFl
  simp only [hs1]
  rw [hs2]
  by_cases he0 : h / 1024 % 32 = 0
  · -- subnormal
    rw [if_pos (by omega), if_neg (by omega)]
    have hm : h % 32768 = h % 1024 := by omega
    have hor : h % 32768 ||| 126 * 2 ^ 23 = h % 1024 + 126 * 2 ^ 23 := by
      rw [hm]; exact or_mul 126 (by omega)
    have hof : Fl.ofBits (h % 1024 + 126 * 2 ^ 23) = .fin false ((2 ^ 23 + h % 1024) * 2 ^ 125) := by
      unfold Fl.ofBits
      have h1 : (h % 1024 + 126 * 2 ^ 23) / 2 ^ 31 % 2 = 0 := by omega
      have h2 : (h % 1024 + 126 * 2 ^ 23) / 2 ^ 23 % 256 = 126 := by omega
      have h3 : (h % 1024 + 126 * 2 ^ 23) % 2 ^ 23 = h % 1024 := by omega
      simp only [h1, h2, h3]
      rfl
    have hsub : Fl.sub (Fl.ofBits (h % 32768 ||| 126 * 2 ^ 23)) Fl.half =
        .fin false (h % 1024 * 2 ^ 125) := by
      rw [hor, hof]
      simp only [Fl.sub, Fl.half]
      rw [if_neg (by simp), if_pos (by omega)]
      have : (2 ^ 23 + h % 1024) * 2 ^ 125 - 2 ^ 148 = h % 1024 * 2 ^ 125 := by omega
      rw [this, Bool.false_and]
      exact round_exact false (a := h % 1024) (j := 125) (k := 0) (by omega) (by omega)
        (lt_277 (by omega) (by omega))
    rw [hsub]
    have hb := ofBits_toBits s (a := h % 1024) (j := 125) (by omega) (lt_277 (by omega) (by omega))
    rw [or_sign _ _ hb.2, hb.1]
    have : Spec.halfUnits h = h % 1024 := by simp [Spec.halfUnits, he0]
    rw [this]
  · rw [if_neg (by omega)]
    have hxx : h % 32768 * 8192 + 1879048192 =
        (h / 1024 % 32 + 224) * 2 ^ 23 + (h % 1024) * 2 ^ 13 := by omega
    rw [hxx]
    generalize hee : h / 1024 % 32 = e at *
    have he32 : e < 32 := by omega
    have hm' : h % 1024 < 1024 := by omega
    have h1 : ((e + 224) * 2 ^ 23 + h % 1024 * 2 ^ 13) / 2 ^ 31 % 2 = 0 := by omega
    have h2 : ((e + 224) * 2 ^ 23 + h % 1024 * 2 ^ 13) / 2 ^ 23 % 256 = e + 224 := by omega
    have h3 : ((e + 224) * 2 ^ 23 + h % 1024 * 2 ^ 13) % 2 ^ 23 = h % 1024 * 2 ^ 13 := by omega
    have hsc : Fl.ofBits 0x7800000 = .fin false (2 ^ 37) := by decide +kernel
    rw [hsc]
    by_cases he : e = 31
    · subst he
      rw [if_pos rfl]
      by_cases hm0 : h % 1024 = 0
      · have hof : Fl.ofBits ((31 + 224) * 2 ^ 23 + h % 1024 * 2 ^ 13) = .inf false := by
          unfold Fl.ofBits
          simp only [h1, h2, h3, hm0]
          rfl
        rw [hof, if_pos hm0]
        have : Fl.toBits (Fl.mul (.inf false) (.fin false (2 ^ 37))) = 0x7f800000 := by decide +kernel
        rw [this, or_sign _ _ (by omega)]
        cases s <;> decide +kernel
      · have hof : Fl.ofBits ((31 + 224) * 2 ^ 23 + h % 1024 * 2 ^ 13) = .nan := by
          unfold Fl.ofBits
          simp only [h1, h2, h3]
          rw [if_pos trivial, if_neg (by omega)]
        rw [hof, if_neg hm0]
        have : Fl.toBits (Fl.mul .nan (.fin false (2 ^ 37))) = 0x7fc00000 := by decide +kernel
        rw [this, or_sign _ _ (by omega)]
        cases s <;> decide +kernel
    · rw [if_neg he]
      have hof : Fl.ofBits ((e + 224) * 2 ^ 23 + h % 1024 * 2 ^ 13) =
          .fin false ((2 ^ 23 + h % 1024 * 2 ^ 13) * 2 ^ (e + 223)) := by
        unfold Fl.ofBits
        simp only [h1, h2, h3]
        rw [if_neg (by omega), if_neg (by omega), show e + 224 - 1 = e + 223 by omega]
        rfl
      have hmul : Fl.mul (Fl.ofBits ((e + 224) * 2 ^ 23 + h % 1024 * 2 ^ 13)) (.fin false (2 ^ 37)) =
          .fin false ((1024 + h % 1024) * 2 ^ (e + 124)) := by
        rw [hof]
        simp only [Fl.mul]
        have e1 : (2 ^ 23 + h % 1024 * 2 ^ 13) * 2 ^ (e + 223) * 2 ^ 37 =
            (1024 + h % 1024) * 2 ^ (e + 273) := by
          have : 2 ^ 23 + h % 1024 * 2 ^ 13 = (1024 + h % 1024) * 2 ^ 13 := by omega
          rw [this]
          exact pow3 _ (by omega)
        rw [e1]
        have := round_exact false (a := 1024 + h % 1024) (j := e + 273) (k := 149) (by omega) (by omega)
          (lt_277 (by omega) (by omega))
        rw [show e + 273 - 149 = e + 124 by omega] at this
        exact this
      rw [hmul]
      have hb := ofBits_toBits s (a := 1024 + h % 1024) (j := e + 124) (by omega)
        (lt_277 (by omega) (by omega))
      rw [or_sign _ _ hb.2, hb.1]
      have : Spec.halfUnits h = (1024 + h % 1024) * 2 ^ (e - 1) := by
        simp [Spec.halfUnits, hee, he0]
      rw [this, Nat.mul_assoc, ← Nat.pow_add, show e - 1 + 125 = e + 124 by omega]

/-- Multiplying a half float by 255 is exact in `f32`. -/
theorem mul255 (h : Nat) : Fl.mul (halfFl h) Fl.c255 =
    (if h / 1024 % 32 = 31 then (if h % 1024 = 0 then .inf (h / 32768 % 2 == 1) else .nan)
     else .fin (h / 32768 % 2 == 1) (255 * Spec.halfUnits h * 2 ^ 125)) := by
  unfold halfFl
  simp only
  by_cases he : h / 1024 % 32 = 31
  · rw [if_pos he, if_pos he]
    by_cases hm : h % 1024 = 0
    · rw [if_pos hm]
      generalize (h / 32768 % 2 == 1) = s
      cases s <;> decide +kernel
    · rw [if_neg hm]
      rfl
  · rw [if_neg he, if_neg he]
    obtain ⟨a, j, ha, hj, hu⟩ := half_units_form h he
    generalize (h / 32768 % 2 == 1) = s
    have hs : (s != false) = s := by cases s <;> rfl
    simp only [Fl.mul, Fl.c255]
    rw [hu, hs]
    have e1 : a * 2 ^ j * 2 ^ 125 * (255 * 2 ^ 149) = (255 * a) * 2 ^ (j + 274) := by
      have := pow3 (255 * a) (a := j) (b := 125) (c := 149) (d := j + 274) (by omega)
      rw [← this]
      generalize 2 ^ 125 = x
      generalize 2 ^ 149 = y
      ac_rfl
    have e2 : 255 * (a * 2 ^ j) * 2 ^ 125 = (255 * a) * 2 ^ (j + 125) := by
      rw [Nat.pow_add]
      generalize 2 ^ 125 = x
      ac_rfl
    rw [e1, e2]
    have := round_exact s (a := 255 * a) (j := j + 274) (k := 149) (by omega) (by omega)
      (lt_277 (by omega) (by omega))
    rw [show j + 274 - 149 = j + 125 by omega] at this
    exact this

theorem f32ToU8_half {h b : Nat} (hb : Fl.ofBits b = halfFl h) : f32ToU8 b = Spec.halfToByte h := by
  unfold f32ToU8 Spec.halfToByte
  rw [hb, mul255]
  by_cases he : h / 1024 % 32 = 31
  · rw [if_pos he]
    by_cases hm : h % 1024 = 0
    · rw [if_pos hm, if_neg (by omega), if_pos he]
      rcases Nat.mod_two_eq_zero_or_one (h / 32768) with e | e <;> rw [e] <;> decide +kernel
    · rw [if_neg hm, if_pos ⟨he, hm⟩]
      decide +kernel
  · rw [if_neg he, if_neg (by omega), if_neg he]
    generalize hN : 255 * Spec.halfUnits h = N
    rcases Nat.mod_two_eq_zero_or_one (h / 32768) with e | e <;> rw [e]
    · rw [if_neg (by omega)]
      exact clamp_pos N
    · rw [if_pos rfl]
      exact clamp_neg _

theorem f16ToU8_ok {h : Nat} (hh : h < 65536) : f16ToU8 h = .ok (Spec.halfToByte h) := by
  obtain ⟨b, hb, hv⟩ := fp16ToFp32_ok hh
  unfold f16ToU8
  rw [hb]
  show Out.ok (f32ToU8 b) = _
  rw [f32ToU8_half hv]

end Verif.Proofs
