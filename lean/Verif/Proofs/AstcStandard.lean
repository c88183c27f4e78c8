import Verif.Proofs.AstcPanic
/-!
Proofs: ASTC as implemented and as in the standard.
-/
namespace Verif.Proofs.Astc
open Verif Verif.Model Verif.Proofs Verif.Spec.Astc

theorem signedOffset_nonneg {n v : Nat} (h : 0 ≤ signedOffset false n v) :
    signedOffset true n v = signedOffset false n v := by
  unfold signedOffset at *
  have hlt : v % 2 ^ n < 2 ^ n := Nat.mod_lt _ (Nat.two_pow_pos n)
  have hc : ((2 ^ n : Nat) : Int) = (2 : Int) ^ n := by norm_cast
  by_cases h1 : v % 2 ^ n < 2 ^ (n - 1)
  · simp only [if_pos h1]
  · exfalso
    simp only [if_neg h1, Bool.false_eq_true, if_false] at h
    rw [← hc] at h
    omega

theorem hdrDirect_agrees {v : Nat → Nat} (h : OffsetsNonneg v) (a1 a2 : Nat) :
    hdrDirect true (v 0) (v 1) (v 2) (v 3) (v 4) (v 5) a1 a2 =
      hdrDirect false (v 0) (v 1) (v 2) (v 3) (v 4) (v 5) a1 a2 := by
  unfold hdrDirect
  simp only
  by_cases h3 : v 4 / 128 + v 5 / 128 * 2 = 3
  · rw [if_pos h3, if_pos h3]
  · rw [if_neg h3, if_neg h3]
    obtain ⟨h4, h5⟩ := h.resolve_left h3
    unfold directOffset at h4 h5
    rw [signedOffset_nonneg h4, signedOffset_nonneg h5]

theorem endpoints_agree {m : Nat} (hm : m < 16) {v : Nat → Nat}
    (h : (m = 11 ∨ m = 14 ∨ m = 15) → OffsetsNonneg v) : endpoints true m v = endpoints false m v := by
  rcases (show m = 0 ∨ m = 1 ∨ m = 2 ∨ m = 3 ∨ m = 4 ∨ m = 5 ∨ m = 6 ∨ m = 7 ∨ m = 8 ∨ m = 9 ∨ m = 10 ∨
    m = 11 ∨ m = 12 ∨ m = 13 ∨ m = 14 ∨ m = 15 by omega) with
    rfl | rfl | rfl | rfl | rfl | rfl | rfl | rfl | rfl | rfl | rfl | rfl | rfl | rfl | rfl | rfl
  all_goals first
    | rfl
    | exact hdrDirect_agrees (h (by omega)) _ _

theorem agrees_fits {bw bh : Nat} {blk : List UInt8} (h : Agrees bw bh blk) : Fits blk := by
  unfold Fits
  by_cases hv : isVoid blk
  · rw [if_pos hv]
    rcases h with ⟨-, -, h⟩ | h | h
    · exact h
    · exact absurd hv h.1
    · exact absurd hv h.1.1
  · rw [if_neg hv]
    rcases h with h | h | h
    · exact absurd h.1 hv
    · exact Or.inl h.2
    · obtain ⟨⟨-, -, -, -, -, -, -, -, -, h⟩, -⟩ := h
      exact Or.inr h

theorem agrees_texel {bw bh : Nat} {blk : List UInt8} (h : Agrees bw bh blk) (i : Nat) :
    texel true bw bh blk i = standardTexel bw bh blk i := by
  unfold texel standardTexel
  by_cases hv : isVoid blk
  · rw [if_pos hv, if_pos hv]
    rcases h with ⟨-, h, -⟩ | h | h
    · rw [if_pos h]
    · exact absurd hv h.1
    · exact absurd hv h.1.1
  rw [if_neg hv, if_neg hv]
  by_cases hr : isReserved blk
  · rw [if_pos hr, if_neg (fun hs => hs.2.1 hr)]
  rw [if_neg hr]
  obtain ⟨hs, hd⟩ := (h.resolve_left (fun h => hv h.1)).resolve_left (fun h => hr h.2)
  rw [if_pos hs]
  have hc : ∀ ch, component true blk bw bh (i % bw) (i / bw) ch =
      component false blk bw bh (i % bw) (i / bw) ch := by
    intro ch
    unfold component blockEndpoints
    simp only
    rw [endpoints_agree (cem_lt16 _ _) (hd _ (partitionAt_lt ..))]
  simp only [hc]

theorem legal_mono {dec : List UInt8 → Nat → Nat → List UInt32 → Out (Except String Unit × List UInt32)}
    {bw bh raw : Nat} {L L' : List UInt8 → Prop} {t t' : List UInt8 → Nat → UInt32}
    (h : Spec.DecodesLegal dec bw bh raw L t) (hbh : 0 < bh) (hbw : 0 < bw) (hL : ∀ b, L' b → L b)
    (ht : ∀ b, L' b → ∀ i, t b i = t' b i) : Spec.DecodesLegal dec bw bh raw L' t' := by
  refine ⟨h.not_enough_data, h.image_too_small, ?_⟩
  intro data w hh image hs h1 h2 h3
  obtain ⟨im, e, d⟩ := h.success data w hh image hs h1 h2 (fun k hk => hL _ (h3 k hk))
  refine ⟨im, e, d.length_eq, ?_, d.rest⟩
  intro x y hx hy
  rw [d.pixel x y hx hy]
  unfold Spec.pixelAt
  rw [ht]
  apply h3
  unfold Spec.numBlocks
  have g1 := div_lt_ceilDiv hbw hx
  have g2 := div_lt_ceilDiv hbh hy
  have := Nat.mul_le_mul_right (Spec.ceilDiv w bw) (show y / bh + 1 ≤ Spec.ceilDiv hh bh from g2)
  rw [Nat.add_mul, Nat.mul_comm (Spec.ceilDiv hh bh)] at this
  omega

/-- A negative offset makes the component of the low endpoint 0. -/
theorem hdrDirect_negative {v : Nat → Nat} (hv : ∀ i, v i < 256) (a1 a2 : Nat)
    (h3 : v 4 / 128 + v 5 / 128 * 2 ≠ 3) :
    (directOffset v 4 < 0 → (hdrDirect true (v 0) (v 1) (v 2) (v 3) (v 4) (v 5) a1 a2).getD
      (if v 4 / 128 + v 5 / 128 * 2 = 1 then 0 else 1) 1 = 0) ∧
    (directOffset v 5 < 0 → (hdrDirect true (v 0) (v 1) (v 2) (v 3) (v 4) (v 5) a1 a2).getD
      (if v 4 / 128 + v 5 / 128 * 2 = 2 then 0 else 2) 1 = 0) := by
  have h1 := hv 1
  have h2 := hv 2
  have h3' := hv 3
  have h4 := hv 4
  have h5 := hv 5
  rw [hdrDirect_eq]
  simp only [if_neg h3]
  generalize hmode : v 1 / 128 + v 2 / 128 * 2 + v 3 / 128 * 4 = mode
  have hA : directA mode (v 0) (v 1) (v 2) (v 3) (v 4) (v 5) * 2 ^ directShift mode < 2 ^ (12 + 3) :=
    direct_shift_lt (directA_lt (hv 0))
  generalize directA mode (v 0) (v 1) (v 2) (v 3) (v 4) (v 5) * 2 ^ directShift mode = A at *
  generalize directB mode (v 2) (v 4) * 2 ^ directShift mode = B0 at *
  generalize directB mode (v 3) (v 5) * 2 ^ directShift mode = B1 at *
  generalize directC mode (v 1) (v 3) (v 4) (v 5) * 2 ^ directShift mode = C at *
  have hneg : ∀ x, signedOffset false (directBits mode) x < 0 →
      65536 - 128 ≤ signedOffset true (directBits mode) x := by
    intro x hx
    unfold signedOffset at *
    have hb : directBits mode ≤ 7 := by
      have key : ∀ m : Fin 8, directBits m.1 ≤ 7 := by decide
      exact key ⟨mode, by omega⟩
    have hp : 2 ^ directBits mode ≤ 2 ^ 7 := Nat.pow_le_pow_right (by omega) hb
    have hc : ((2 ^ directBits mode : Nat) : Int) = (2 : Int) ^ directBits mode := by norm_cast
    rw [← hc] at *
    generalize 2 ^ directBits mode = P at *
    simp only at *
    by_cases h1 : x % P < 2 ^ (directBits mode - 1)
    · simp only [if_pos h1] at hx
      omega
    · simp only [if_neg h1, if_true]
      omega
  have hS : (1 : Int) ≤ ((2 ^ directShift mode : Nat) : Int) := by
    have := Nat.two_pow_pos (directShift mode)
    omega
  have hdir : ∀ i, directOffset v i = signedOffset false (directBits mode) (v i) := by
    intro i
    unfold directOffset
    rw [hmode]
    rfl
  rw [hdir, hdir]
  have hbig : ∀ x, signedOffset false (directBits mode) x < 0 →
      65536 - 128 ≤ signedOffset true (directBits mode) x * ((2 ^ directShift mode : Nat) : Int) := by
    intro x hx
    have h1 := hneg x hx
    have h2 := Int.mul_le_mul_of_nonneg_left hS (show 0 ≤ signedOffset true (directBits mode) x by omega)
    omega
  have hcl : ∀ z : Int, z < 0 → clamp 0xfff z = 0 := by
    intro z hz; unfold clamp; omega
  rcases (show v 4 / 128 + v 5 / 128 * 2 = 0 ∨ v 4 / 128 + v 5 / 128 * 2 = 1 ∨
    v 4 / 128 + v 5 / 128 * 2 = 2 by omega) with hm | hm | hm
  all_goals
    simp only [hm, if_true, show ¬ (0 : Nat) = 1 by omega, show ¬ (0 : Nat) = 2 by omega,
      show ¬ (1 : Nat) = 2 by omega, show ¬ (2 : Nat) = 1 by omega, if_false]
    refine ⟨fun hx => ?_, fun hx => ?_⟩
    all_goals
      have hx := hbig _ hx
      exact hcl _ (by omega)

variable [Build]

/-- A block width or height of 1 makes every block with texels panic. -/
theorem decodeAstcTexels_unit {buf : List UInt8} {bw bh : Nat} (h : bw = 1 ∨ bh = 1) (hbw : 1 ≤ bw)
    (hbh : 1 ≤ bh) (hbw' : bw < 2 ^ 60) (hbh' : bh < 2 ^ 60) (out : List UInt32) :
    decodeAstcTexels buf bw bh out = .panic := by
  cases e : decodeAstcTexels buf bw bh out with
  | panic => rfl
  | ok o =>
    exfalso
    unfold decodeAstcTexels at e
    obtain ⟨q, -, e⟩ := Out.bind_eq_ok.mp e
    obtain ⟨es, -, e⟩ := Out.bind_eq_ok.mp e
    obtain ⟨ws, ew, -⟩ := Out.bind_eq_ok.mp e
    unfold decodeWeights at ew
    obtain ⟨wv, -, ew⟩ := Out.bind_eq_ok.mp ew
    rw [addU_ok (by omega), Out.ok_bind, subU_ok (by omega), Out.ok_bind] at ew
    obtain ⟨ds, eds, ew⟩ := Out.bind_eq_ok.mp ew
    rw [addU_ok (by omega), Out.ok_bind, subU_ok (by omega), Out.ok_bind] at ew
    obtain ⟨dt, edt, ew⟩ := Out.bind_eq_ok.mp ew
    rcases h with rfl | rfl
    · cases eds
    · cases edt

end Verif.Proofs.Astc
