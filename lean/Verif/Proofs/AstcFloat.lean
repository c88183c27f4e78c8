import Verif.Proofs.AstcInts
import Verif.Proofs.F16
import Verif.Spec.Astc

/-! # Channels of ASTC: interpolation and conversion to 8 bits -/

namespace Verif.Proofs.Astc

open Verif Verif.Model Verif.Proofs

theorem halfUnits_lt {h : Nat} (he : h / 1024 % 32 ≠ 31) : Spec.halfUnits h < 2 ^ 41 := by
  unfold Spec.halfUnits
  simp only
  have h1 : h % 1024 < 1024 := Nat.mod_lt _ (by omega)
  split
  · omega
  · have h2 : 2 ^ (h / 1024 % 32 - 1) ≤ 2 ^ 29 := Nat.pow_le_pow_right (by omega) (by omega)
    have := Nat.mul_le_mul (show 1024 + h % 1024 ≤ 2047 by omega) h2
    omega

theorem halfUnits_le {h : Nat} (he : h / 1024 % 32 ≠ 31) : Spec.halfUnits h ≤ 2047 * 2 ^ 29 := by
  unfold Spec.halfUnits
  simp only
  have h1 : h % 1024 < 1024 := Nat.mod_lt _ (by omega)
  split
  · omega
  · have h2 : 2 ^ (h / 1024 % 32 - 1) ≤ 2 ^ 29 := Nat.pow_le_pow_right (by omega) (by omega)
    exact Nat.mul_le_mul (show 1024 + h % 1024 ≤ 2047 by omega) h2

theorem ofI32_nat {i : Nat} (h : i < 2 ^ 24) : Fl.ofI32 (i : Int) = .fin false (i * 2 ^ 149) := by
  unfold Fl.ofI32
  rw [show decide ((i : Int) < 0) = false by simp, Int.natAbs_natCast]
  exact round_exact false (a := i) (j := 149) (k := 0) h (by omega) (lt_277 h (by omega))

theorem ofI32_neg {i : Nat} (h : i < 2 ^ 24) (h0 : i ≠ 0) :
    Fl.ofI32 (-(i : Int)) = .fin true (i * 2 ^ 149) := by
  unfold Fl.ofI32
  rw [show decide (-(i : Int) < 0) = true by simp; omega, Int.natAbs_neg, Int.natAbs_natCast]
  exact round_exact true (a := i) (j := 149) (k := 0) h (by omega) (lt_277 h (by omega))

theorem div149 (N : Nat) : N * 2 ^ 125 / 2 ^ 149 = N / 2 ^ 24 := by
  rw [show (2 : Nat) ^ 149 = 2 ^ 24 * 2 ^ 125 by rw [← Nat.pow_add], Nat.mul_div_mul_right _ _ (by decide)]

variable [Build]

theorem floor_pos {N : Nat} (h : N / 2 ^ 24 < 2 ^ 24) :
    astcFloor (.fin false (N * 2 ^ 125)) = .ok (.fin false (N / 2 ^ 24 * 2 ^ 149)) := by
  have hl : (Fl.fin false (N * 2 ^ 125)).lt Fl.zero = false := by
    simp [Fl.lt, Fl.zero]
  have hi : (Fl.fin false (N * 2 ^ 125)).asI32 = ((N / 2 ^ 24 : Nat) : Int) := by
    simp only [Fl.asI32]
    rw [div149, Nat.min_eq_right (by omega)]
  unfold astcFloor
  simp only [hl, hi, Bool.false_and, Bool.false_eq_true, if_false, Out.pure_eq, Out.ok_bind]
  rw [ofI32_nat h]

theorem floor_neg {N : Nat} (h : N / 2 ^ 24 < 2 ^ 24 - 1) :
    ∃ g, astcFloor (.fin true (N * 2 ^ 125)) = .ok g ∧ (g.clamp Fl.zero Fl.c255).asU8 = 0 := by
  have hi : (Fl.fin true (N * 2 ^ 125)).asI32 = -((N / 2 ^ 24 : Nat) : Int) := by
    simp only [Fl.asI32]
    rw [div149, Nat.min_eq_right (by omega)]
  have key : ∀ i : Nat, i < 2 ^ 24 → ((Fl.ofI32 (-(i : Int))).clamp Fl.zero Fl.c255).asU8 = 0 := by
    intro i hi
    by_cases h0 : i = 0
    · subst h0
      have : Fl.ofI32 (-((0 : Nat) : Int)) = .fin false (0 * 2 ^ 149) := ofI32_nat (i := 0) (by omega)
      rw [this]
      decide +kernel
    · rw [ofI32_neg hi h0]; exact clamp_neg _
  unfold astcFloor
  simp only [hi]
  split
  · rw [subI32_ok (by omega) (by omega)]
    refine ⟨_, rfl, ?_⟩
    have := key (N / 2 ^ 24 + 1) (by omega)
    rw [show -(((N / 2 ^ 24 : Nat) : Int)) - 1 = -((N / 2 ^ 24 + 1 : Nat) : Int) by omega]
    exact this
  · exact ⟨_, rfl, key _ (by omega)⟩

/-- ASTC's conversion of a half float to 8 bits, except for −∞. -/
theorem astcF32ToU8_half {h b : Nat} (hb : Fl.ofBits b = halfFl h)
    (hinf : ¬ (h / 1024 % 32 = 31 ∧ h % 1024 = 0 ∧ h / 32768 % 2 = 1)) :
    astcF32ToU8 (Fl.ofBits b) = .ok (Spec.halfToByte h) := by
  unfold astcF32ToU8 Spec.halfToByte
  rw [hb, mul255]
  by_cases he : h / 1024 % 32 = 31
  · rw [if_pos he]
    by_cases hm : h % 1024 = 0
    · rw [if_pos hm, if_neg (show ¬ (h / 1024 % 32 = 31 ∧ h % 1024 ≠ 0) by omega),
        if_neg (show ¬ h / 32768 % 2 = 1 by omega), if_pos he]
      rw [show (h / 32768 % 2 == 1) = false by simp; omega]
      have : ∀ b : Bool, (@astcFloor ⟨b⟩ (.inf false) >>= fun g =>
          (pure (g.clamp Fl.zero Fl.c255).asU8 : Out Nat)) = .ok 255 := by decide +kernel
      exact this Build.overflowChecks
    · rw [if_neg hm, if_pos ⟨he, hm⟩]
      have : ∀ b : Bool, (@astcFloor ⟨b⟩ .nan >>= fun g =>
          (pure (g.clamp Fl.zero Fl.c255).asU8 : Out Nat)) = .ok 0 := by decide +kernel
      exact this Build.overflowChecks
  · rw [if_neg he, if_neg (show ¬ (h / 1024 % 32 = 31 ∧ h % 1024 ≠ 0) by omega), if_neg he]
    have hu := halfUnits_le he
    generalize hN : 255 * Spec.halfUnits h = N
    rcases Nat.mod_two_eq_zero_or_one (h / 32768) with e | e <;> rw [e]
    · rw [if_neg (show ¬ (0 : Nat) = 1 by omega), show ((0 : Nat) == 1) = false from rfl,
        floor_pos (by omega), Out.ok_bind, Out.pure_eq]
      have := clamp_pos (N / 2 ^ 24 * 2 ^ 24)
      rw [show N / 2 ^ 24 * 2 ^ 149 = N / 2 ^ 24 * 2 ^ 24 * 2 ^ 125 by omega, this,
        Nat.mul_div_cancel _ (by omega)]
    · rw [if_pos rfl, show ((1 : Nat) == 1) = true from rfl]
      obtain ⟨g, e1, e2⟩ := floor_neg (N := N) (by omega)
      rw [e1, Out.ok_bind, Out.pure_eq, e2]

/-- −∞ panics with overflow checks and gives 255 without. -/
theorem astcF32ToU8_neg_inf {h b : Nat} (hb : Fl.ofBits b = halfFl h)
    (hinf : h / 1024 % 32 = 31 ∧ h % 1024 = 0 ∧ h / 32768 % 2 = 1) :
    astcF32ToU8 (Fl.ofBits b) = if Build.overflowChecks then .panic else .ok 255 := by
  obtain ⟨h1, h2, h3⟩ := hinf
  unfold astcF32ToU8
  rw [hb, mul255, if_pos h1, if_pos h2, h3]
  have : ∀ b : Bool, (@astcFloor ⟨b⟩ (.inf true) >>= fun g =>
      (pure (g.clamp Fl.zero Fl.c255).asU8 : Out Nat)) = if b then .panic else .ok 255 := by
    decide +kernel
  exact this Build.overflowChecks

theorem selectColor_ok {v0 v1 w : Nat} (h0 : v0 ≤ 255) (h1 : v1 ≤ 255) (hw : w ≤ 64) :
    selectColor v0 v1 w = .ok (Spec.Astc.ldr v0 v1 w) := by
  have e : ∀ v : Nat, v ≤ 255 → orI 32 (shl32 (v : Int) 8) (v : Int) = ((v * 257 : Nat) : Int) := by
    intro v hv
    rw [shl32_nat (by omega), orI_nat (by omega) (by omega), mul_or v (k := 8) (by omega)]
    congr 1
  have hA : v0 * 257 * (64 - w) ≤ 65535 * (64 - w) := Nat.mul_le_mul_right _ (by omega)
  have hB : v1 * 257 * w ≤ 65535 * w := Nat.mul_le_mul_right _ (by omega)
  unfold selectColor Spec.Astc.ldr
  rw [e v0 h0, e v1 h1, show ((64 : Int)) = ((64 : Nat) : Int) from rfl, subI_nat (by omega) hw,
    Out.ok_bind, mulI_nat (by omega), Out.ok_bind, mulI_nat (by omega), Out.ok_bind,
    addI_nat (by omega), Out.ok_bind, show ((32 : Int)) = ((32 : Nat) : Int) from rfl,
    addI_nat (by omega), Out.ok_bind, shr32_nat, show ((255 : Int)) = ((255 : Nat) : Int) from rfl,
    mulI_nat (by omega), Out.ok_bind, show ((32768 : Int)) = ((32768 : Nat) : Int) from rfl,
    addI_nat (by omega), Out.ok_bind, Out.pure_eq]
  rw [show ((65536 : Int)) = ((65536 : Nat) : Int) from rfl, ← Int.ofNat_tdiv, asUI_nat (by omega)]

omit [Build] in
theorem half_mant (c : Nat) (hc : c < 65536) {mt : Nat} (hm : mt < 8192) :
    (c >>> 1 &&& 0x7c00) ||| mt >>> 3 = c / 2048 * 1024 + mt / 8 := by
  rw [shr_eq, shr_eq, show (0x7c00 : Nat) = (2 ^ 5 - 1) * 2 ^ 10 from rfl, and_mask_shift,
    mul_or _ (by omega)]
  omega

omit [Build] in
theorem hdr_lt {v0 v1 w : Nat} (h0 : v0 ≤ 4095) (h1 : v1 ≤ 4095) (hw : w ≤ 64) :
    (v0 * 16 * (64 - w) + v1 * 16 * w + 32) / 64 < 65536 := by
  have hA : v0 * 16 * (64 - w) ≤ 65520 * (64 - w) := Nat.mul_le_mul_right _ (by omega)
  have hB : v1 * 16 * w ≤ 65520 * w := Nat.mul_le_mul_right _ (by omega)
  omega

theorem hdr_floor {N : Nat} (h : N / 2 ^ 24 < 2 ^ 24) :
    (astcFloor (.fin false (N * 2 ^ 125)) >>= fun g =>
      (pure (asUI 8 (clampI 0 255 g.asI32)) : Out Nat)) = .ok (min 255 (N / 2 ^ 24)) := by
  rw [floor_pos h, Out.ok_bind, Out.pure_eq]
  generalize N / 2 ^ 24 = k at h
  have e : (Fl.fin false (k * 2 ^ 149)).asI32 = (k : Int) := by
    simp only [Fl.asI32]
    rw [Nat.mul_div_cancel _ (by decide), Nat.min_eq_right (by omega)]
  rw [e, show ((255 : Int)) = ((255 : Nat) : Int) from rfl, clampI_eq, asUI_nat (by omega),
    Int.toNat_natCast, Nat.min_comm]

theorem selectColorHdr_ok {v0 v1 w : Nat} (h0 : v0 ≤ 4095) (h1 : v1 ≤ 4095) (hw : w ≤ 64) :
    selectColorHdr v0 v1 w = .ok (Spec.Astc.hdr v0 v1 w) := by
  have hA : v0 * 16 * (64 - w) ≤ 65520 * (64 - w) := Nat.mul_le_mul_right _ (by omega)
  have hB : v1 * 16 * w ≤ 65520 * w := Nat.mul_le_mul_right _ (by omega)
  have hc := hdr_lt h0 h1 hw
  have e4 : ∀ v : Nat, v ≤ 4095 → shl32 (v : Int) 4 = ((v * 16 : Nat) : Int) :=
    fun v hv => shl32_nat (by omega)
  unfold selectColorHdr
  rw [e4 v0 h0, e4 v1 h1,
    show ((64 : Int)) = ((64 : Nat) : Int) from rfl, subI_nat (by omega) hw,
    Out.ok_bind, mulI_nat (by omega), Out.ok_bind, mulI_nat (by omega), Out.ok_bind,
    addI_nat (by omega), Out.ok_bind, show ((32 : Int)) = ((32 : Nat) : Int) from rfl,
    addI_nat (by omega), Out.ok_bind, shr32_nat, asUI_nat hc]
  unfold Spec.Astc.hdr Spec.Astc.hdrHalf
  simp only
  rw [show (2 : Nat) ^ 6 = 64 from rfl]
  generalize (v0 * 16 * (64 - w) + v1 * 16 * w + 32) / 64 = c at hc ⊢
  rw [show c &&& 0x7ff = c % 2048 from and_mask c 11]
  have hm : c % 2048 < 2048 := Nat.mod_lt _ (by omega)
  generalize hmt : (if c % 2048 < 512 then 3 * (c % 2048)
    else if c % 2048 < 1536 then 4 * (c % 2048) - 512 else 5 * (c % 2048) - 2048) = mt
  have emt : (if c % 2048 < 512 then mulU 16 (c % 2048) 3
      else if c % 2048 < 1536 then mulU 16 4 (c % 2048) >>= fun t => subU 16 t 512
      else mulU 16 5 (c % 2048) >>= fun t => subU 16 t 2048) = .ok mt := by
    rw [← hmt]
    split
    · rw [mulU_ok (by omega), Nat.mul_comm]
    · split
      · rw [mulU_ok (by omega), Out.ok_bind, subU_ok (by omega)]
      · rw [mulU_ok (by omega), Out.ok_bind, subU_ok (by omega)]
  have hmt' : mt < 8192 := by
    rw [← hmt]
    split
    · omega
    · split <;> omega
  rw [emt, Out.ok_bind, half_mant c hc hmt']
  have hh : c / 2048 * 1024 + mt / 8 < 32768 := by omega
  generalize c / 2048 * 1024 + mt / 8 = h at hh ⊢
  obtain ⟨b, e1, e2⟩ := fp16ToFp32_ok (h := h) (by omega)
  rw [e1, Out.ok_bind, e2]
  by_cases he : h / 1024 % 32 = 31
  · rw [if_pos he]
    have : (halfFl h).isFinite = false := by
      unfold halfFl
      simp only
      rw [if_pos he]
      split <;> rfl
    rw [this]; rfl
  · rw [if_neg he]
    have : (halfFl h).isFinite = true := by
      unfold halfFl
      simp only
      rw [if_neg he]
      rfl
    have hu := halfUnits_le he
    rw [this, if_pos rfl, mul255, if_neg he, show (h / 32768 % 2 == 1) = false by simp; omega]
    unfold Spec.halfToByte
    rw [if_neg (by omega), if_neg (by omega), if_neg he]
    generalize hN : 255 * Spec.halfUnits h = N
    exact hdr_floor (by omega)

end Verif.Proofs.Astc
