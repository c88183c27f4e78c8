import Verif.Proofs.AstcHdrValues

/-! # HDR colour endpoints of ASTC blocks: the two modes -/

namespace Verif.Proofs.Astc

open Verif Verif.Model Verif.Proofs
open Verif.Spec.Astc (bitsAt clamp signedOffset)
open Verif.Spec.Astc renaming «when» → atMode

theorem atMode_lt {mode mask x k n : Nat} (hx : x < 2) (hk : k < n) : atMode mode mask x k < 2 ^ n := by
  unfold atMode
  have hp := Nat.two_pow_pos n
  split
  · rw [shl_eq]
    have h1 : 2 ^ (k + 1) ≤ 2 ^ n := Nat.pow_le_pow_right (by omega) hk
    have h2 : x * 2 ^ k ≤ 1 * 2 ^ k := Nat.mul_le_mul_right _ (by omega)
    have h3 := Nat.two_pow_pos k
    rw [Nat.pow_succ] at h1
    omega
  · exact hp

theorem bitsAt1_lt (v k : Nat) : bitsAt v k 1 < 2 := bitsAt_lt v k 1

theorem mod_lt_pow {v m n : Nat} (h : m ≤ n) : v % 2 ^ m < 2 ^ n :=
  Nat.lt_of_lt_of_le (Nat.mod_lt _ (Nat.two_pow_pos m)) (Nat.pow_le_pow_right (by omega) h)

theorem scaleR_lt (mode v0 v1 v2 v3 : Nat) : scaleR mode v0 v1 v2 v3 < 2 ^ 11 := by
  unfold scaleR
  repeat' refine Nat.or_lt_two_pow ?_ ?_
  · exact mod_lt_pow (m := 6) (by omega)
  all_goals exact atMode_lt (bitsAt1_lt _ _) (by omega)

theorem scaleG_lt (mode v : Nat) : scaleG mode v < 2 ^ 7 := by
  unfold scaleG
  repeat' refine Nat.or_lt_two_pow ?_ ?_
  · exact mod_lt_pow (m := 5) (by omega)
  all_goals exact atMode_lt (bitsAt1_lt _ _) (by omega)

theorem scaleS_lt (mode v : Nat) : scaleS mode v < 2 ^ 8 := by
  unfold scaleS
  repeat' refine Nat.or_lt_two_pow ?_ ?_
  · exact mod_lt_pow (m := 5) (by omega)
  all_goals exact atMode_lt (bitsAt1_lt _ _) (by omega)

theorem directA_lt {mode v0 v1 v2 v3 v4 v5 : Nat} (h0 : v0 < 256) :
    directA mode v0 v1 v2 v3 v4 v5 < 2 ^ 12 := by
  unfold directA
  repeat' refine Nat.or_lt_two_pow ?_ ?_
  · omega
  · have := bitsAt1_lt v1 6
    rw [shl_eq]; omega
  all_goals exact atMode_lt (bitsAt1_lt _ _) (by omega)

theorem directB_lt (mode v w : Nat) : directB mode v w < 2 ^ 8 := by
  unfold directB
  repeat' refine Nat.or_lt_two_pow ?_ ?_
  · exact mod_lt_pow (m := 6) (by omega)
  all_goals exact atMode_lt (bitsAt1_lt _ _) (by omega)

theorem directC_lt (mode v1 v3 v4 v5 : Nat) : directC mode v1 v3 v4 v5 < 2 ^ 8 := by
  unfold directC
  repeat' refine Nat.or_lt_two_pow ?_ ?_
  · exact mod_lt_pow (m := 6) (by omega)
  all_goals exact atMode_lt (bitsAt1_lt _ _) (by omega)

theorem scale_shift_lt {a n mode : Nat} (ha : a < 2 ^ n) : a * 2 ^ scaleShift mode < 2 ^ (n + 5) := by
  have h : scaleShift mode ≤ 5 := by
    unfold scaleShift
    match mode with
    | 0 => decide
    | 1 => decide
    | 2 => decide
    | 3 => decide
    | 4 => decide
    | 5 => decide
    | k + 6 => simp
  have h1 : 2 ^ scaleShift mode ≤ 2 ^ 5 := Nat.pow_le_pow_right (by omega) h
  rw [Nat.pow_add]
  exact Nat.mul_lt_mul_of_lt_of_le ha h1 (by omega)

theorem direct_shift_lt {a n mode : Nat} (ha : a < 2 ^ n) : a * 2 ^ directShift mode < 2 ^ (n + 3) := by
  have h : directShift mode ≤ 3 := by
    unfold directShift
    match mode with
    | 0 => decide
    | 1 => decide
    | 2 => decide
    | 3 => decide
    | 4 => decide
    | 5 => decide
    | 6 => decide
    | 7 => decide
    | k + 8 => simp
  have h1 : 2 ^ directShift mode ≤ 2 ^ 3 := Nat.pow_le_pow_right (by omega) h
  rw [Nat.pow_add]
  exact Nat.mul_lt_mul_of_lt_of_le ha h1 (by omega)

variable [Build]

theorem hdr7_ok {v0 v1 v2 v3 : Nat} {l : List Int} (e0 : l[0]? = some (v0 : Int))
    (e1 : l[1]? = some (v1 : Int)) (e2 : l[2]? = some (v2 : Int)) (e3 : l[3]? = some (v3 : Int))
    (h0 : v0 < 256) (h1 : v1 < 256) (h2 : v2 < 256) (h3 : v3 < 256) :
    decodeEndpointsHdr7 l = .ok (ints (Spec.Astc.hdrScale v0 v1 v2 v3)) := by
  unfold decodeEndpointsHdr7
  obtain ⟨hmaj, hmode⟩ := scaleMode_lt h0 h1 h2
  rw [idx_of_some e0, Out.ok_bind, idx_of_some e1, Out.ok_bind, idx_of_some e2, Out.ok_bind,
    idx_of_some e3, Out.ok_bind, hdr7Mode_ok h0 h1 h2]
  simp only
  rw [hdr7Values_ok hmode h0 h1 h2 h3]
  simp only
  have hspec : Spec.Astc.hdrScale v0 v1 v2 v3 =
      (let major := (scaleMode v0 v1 v2).1
       let mode := (scaleMode v0 v1 v2).2
       let sh := 2 ^ scaleShift mode
       let r : Int := (scaleR mode v0 v1 v2 v3 * sh : Nat)
       let g : Int := (scaleG mode v1 * sh : Nat)
       let b : Int := (scaleG mode v2 * sh : Nat)
       let s : Int := (scaleS mode v3 * sh : Nat)
       let (g, b) := if mode ≠ 5 then (r - g, r - b) else (g, b)
       let (r, g, b) := if major = 1 then (g, r, b) else if major = 2 then (b, g, r) else (r, g, b)
       [clamp 0xfff (r - s), clamp 0xfff (g - s), clamp 0xfff (b - s), 0x780,
        clamp 0xfff r, clamp 0xfff g, clamp 0xfff b, 0x780]) := rfl
  rw [hspec]
  generalize (scaleMode v0 v1 v2).1 = major at *
  generalize (scaleMode v0 v1 v2).2 = mode at *
  simp only
  have b0 := scale_shift_lt (mode := mode) (scaleR_lt mode v0 v1 v2 v3)
  have b1 := scale_shift_lt (mode := mode) (scaleG_lt mode v1)
  have b2 := scale_shift_lt (mode := mode) (scaleG_lt mode v2)
  have b3 := scale_shift_lt (mode := mode) (scaleS_lt mode v3)
  generalize scaleR mode v0 v1 v2 v3 * 2 ^ scaleShift mode = R at *
  generalize scaleG mode v1 * 2 ^ scaleShift mode = G at *
  generalize scaleG mode v2 * 2 ^ scaleShift mode = B at *
  generalize scaleS mode v3 * 2 ^ scaleShift mode = S at *
  by_cases hm : mode = 5
  · rw [if_neg (show ¬ (mode : Int) ≠ 5 by omega), if_neg (show ¬ (mode : Int) ≠ 5 by omega),
      if_neg (show ¬ mode ≠ 5 by omega)]
    rw [show (pure (G : Int) : Out Int) = .ok (G : Int) from rfl, Out.ok_bind,
      show (pure (B : Int) : Out Int) = .ok (B : Int) from rfl, Out.ok_bind,
      subI32_ok (by omega) (by omega), Out.ok_bind, subI32_ok (by omega) (by omega), Out.ok_bind,
      subI32_ok (by omega) (by omega), Out.ok_bind]
    show Out.ok _ = Out.ok _
    match major, hmaj with
    | 0, _ => simp [ints, clampAll, clampI_fff]; rfl
    | 1, _ => simp [ints, clampAll, clampI_fff]; rfl
    | 2, _ => simp [ints, clampAll, clampI_fff]; rfl
  · rw [if_pos (show (mode : Int) ≠ 5 by omega), if_pos (show (mode : Int) ≠ 5 by omega),
      if_pos (show mode ≠ 5 by omega)]
    rw [subI32_ok (by omega) (by omega), Out.ok_bind, subI32_ok (by omega) (by omega), Out.ok_bind,
      subI32_ok (by omega) (by omega), Out.ok_bind, subI32_ok (by omega) (by omega), Out.ok_bind,
      subI32_ok (by omega) (by omega), Out.ok_bind]
    show Out.ok _ = Out.ok _
    match major, hmaj with
    | 0, _ => simp [ints, clampAll, clampI_fff]; rfl
    | 1, _ => simp [ints, clampAll, clampI_fff]; rfl
    | 2, _ => simp [ints, clampAll, clampI_fff]; rfl

omit [Build] in
theorem hdrDirect_eq (v0 v1 v2 v3 v4 v5 a1 a2 : Nat) :
    Spec.Astc.hdrDirect true v0 v1 v2 v3 v4 v5 a1 a2 =
      (let major := v4 / 128 + v5 / 128 * 2
       if major = 3 then
         [v0 * 16, v2 * 16, v4 % 128 * 32, a1, v1 * 16, v3 * 16, v5 % 128 * 32, a2]
       else
         let mode := v1 / 128 + v2 / 128 * 2 + v3 / 128 * 4
         let sh := 2 ^ directShift mode
         let a : Int := (directA mode v0 v1 v2 v3 v4 v5 * sh : Nat)
         let b0 : Int := (directB mode v2 v4 * sh : Nat)
         let b1 : Int := (directB mode v3 v5 * sh : Nat)
         let c : Int := (directC mode v1 v3 v4 v5 * sh : Nat)
         let d0 := signedOffset true (directBits mode) v4 * sh
         let d1 := signedOffset true (directBits mode) v5 * sh
         let (r, g, b) := (a, a - b0, a - b1)
         let (r', g', b') := (a - c, a - b0 - c - d0, a - b1 - c - d1)
         let swap (r g b : Int) : Int × Int × Int :=
           if major = 1 then (g, r, b) else if major = 2 then (b, g, r) else (r, g, b)
         let (r, g, b) := swap r g b
         let (r', g', b') := swap r' g' b'
         [clamp 0xfff r', clamp 0xfff g', clamp 0xfff b', a1,
          clamp 0xfff r, clamp 0xfff g, clamp 0xfff b, a2]) := rfl

theorem hdr11Combine_ok {major A B0 B1 C a1 a2 : Nat} {d0 d1 : Int} (hmaj : major < 3)
    (b0 : A < 2 ^ (12 + 3)) (b1 : B0 < 2 ^ (8 + 3)) (b2 : B1 < 2 ^ (8 + 3)) (b3 : C < 2 ^ (8 + 3))
    (m0 : 0 ≤ d0 ∧ d0 ≤ 65536 * 16) (m1 : 0 ≤ d1 ∧ d1 ≤ 65536 * 16)
    (ha1 : a1 < 4096) (ha2 : a2 < 4096) :
    hdr11Combine major A B0 B1 C d0 d1 a1 a2 = .ok (ints
      (let a : Int := A
       let b0 : Int := B0
       let b1 : Int := B1
       let c : Int := C
       let (r, g, b) := (a, a - b0, a - b1)
       let (r', g', b') := (a - c, a - b0 - c - d0, a - b1 - c - d1)
       let swap (r g b : Int) : Int × Int × Int :=
         if major = 1 then (g, r, b) else if major = 2 then (b, g, r) else (r, g, b)
       let (r, g, b) := swap r g b
       let (r', g', b') := swap r' g' b'
       [clamp 0xfff r', clamp 0xfff g', clamp 0xfff b', a1,
        clamp 0xfff r, clamp 0xfff g, clamp 0xfff b, a2])) := by
  unfold hdr11Combine
  rw [subI32_ok (by omega) (by omega), Out.ok_bind, subI32_ok (by omega) (by omega), Out.ok_bind,
    subI32_ok (by omega) (by omega), Out.ok_bind, subI32_ok (by omega) (by omega), Out.ok_bind,
    subI32_ok (by omega) (by omega), Out.ok_bind, subI32_ok (by omega) (by omega), Out.ok_bind,
    subI32_ok (by omega) (by omega), Out.ok_bind]
  show Out.ok _ = Out.ok _
  have c1 : clamp 0xfff (a1 : Int) = a1 := clamp_nat (by omega)
  have c2 : clamp 0xfff (a2 : Int) = a2 := clamp_nat (by omega)
  rcases (show major = 0 ∨ major = 1 ∨ major = 2 by omega) with h | h | h
  · subst h; simp [ints, clampAll, clampI_fff, c1, c2]
  · subst h; simp [ints, clampAll, clampI_fff, c1, c2]
  · subst h; simp [ints, clampAll, clampI_fff, c1, c2]

theorem hdr11_ok {v0 v1 v2 v3 v4 v5 a1 a2 : Nat} {l : List Int} (e0 : l[0]? = some (v0 : Int))
    (e1 : l[1]? = some (v1 : Int)) (e2 : l[2]? = some (v2 : Int)) (e3 : l[3]? = some (v3 : Int))
    (e4 : l[4]? = some (v4 : Int)) (e5 : l[5]? = some (v5 : Int))
    (h0 : v0 < 256) (h1 : v1 < 256) (h2 : v2 < 256) (h3 : v3 < 256) (h4 : v4 < 256) (h5 : v5 < 256)
    (ha1 : a1 < 4096) (ha2 : a2 < 4096) :
    decodeEndpointsHdr11 l a1 a2 = .ok (ints (Spec.Astc.hdrDirect true v0 v1 v2 v3 v4 v5 a1 a2)) := by
  unfold decodeEndpointsHdr11
  rw [idx_of_some e0, Out.ok_bind, idx_of_some e1, Out.ok_bind, idx_of_some e2, Out.ok_bind,
    idx_of_some e3, Out.ok_bind, idx_of_some e4, Out.ok_bind, idx_of_some e5, Out.ok_bind]
  smallints
  have emaj : v4 / 2 ^ 7 ||| v5 / 2 ^ 6 / 2 % 2 * 2 = v4 / 128 + v5 / 128 * 2 := by
    rw [show v5 / 2 ^ 6 / 2 % 2 * 2 = v5 / 128 * 2 ^ 1 by omega, or_mul (k := 1) _ (by omega)]
  have emode : v1 / 2 ^ 7 ||| v2 / 2 ^ 6 / 2 % 2 * 2 ||| v3 / 2 ^ 5 / 4 % 2 * 4 =
      v1 / 128 + v2 / 128 * 2 + v3 / 128 * 4 := by
    rw [show v2 / 2 ^ 6 / 2 % 2 * 2 = v2 / 128 * 2 ^ 1 by omega, or_mul (k := 1) _ (by omega),
      show v3 / 2 ^ 5 / 4 % 2 * 4 = v3 / 128 * 2 ^ 2 by omega, or_mul (k := 2) _ (by omega)]
  rw [hdrDirect_eq]
  simp only [emaj, emode]
  generalize hM : v4 / 128 + v5 / 128 * 2 = major
  have hmaj : major < 4 := by omega
  by_cases h3' : major = 3
  · rw [if_pos (by omega), if_pos h3']
    show Out.ok _ = Out.ok _
    simp only [ints, List.map]
    rw [show v4 * 2 ^ 5 / 32 % 128 * 32 = v4 % 128 * 32 by omega,
      show v5 * 2 ^ 5 / 32 % 128 * 32 = v5 % 128 * 32 by omega]
  · rw [if_neg (by omega), if_neg h3']
    generalize hMo : v1 / 128 + v2 / 128 * 2 + v3 / 128 * 4 = mode
    have hmode : mode < 8 := by omega
    unfold hdr11Modes
    rw [hdr11Values_ok hmode h0 h1 h2 h3 h4 h5]
    simp only [shr32_lit]
    have hsh : xorI 32 ((mode / 2 ^ 1 : Nat) : Int) 3 = ((directShift mode : Nat) : Int) ∧ directShift mode ≤ 3 := by
      have key : ∀ m : Fin 8, xorI 32 ((m.val / 2 ^ 1 : Nat) : Int) 3 = ((directShift m.val : Nat) : Int) ∧
          directShift m.val ≤ 3 := by decide +kernel
      exact key ⟨mode, hmode⟩
    rw [hsh.1]
    have hs3 := hsh.2
    have b0 := direct_shift_lt (mode := mode) (directA_lt (mode := mode) (v1 := v1) (v2 := v2) (v3 := v3)
      (v4 := v4) (v5 := v5) h0)
    have b1 := direct_shift_lt (mode := mode) (directB_lt mode v2 v4)
    have b2 := direct_shift_lt (mode := mode) (directB_lt mode v3 v5)
    have b3 := direct_shift_lt (mode := mode) (directC_lt mode v1 v3 v4 v5)
    have b4 : 1 * 2 ^ directShift mode < 2 ^ (1 + 3) := direct_shift_lt (by omega)
    rw [shlS_nat (by omega) (by omega), Out.ok_bind, shlS_nat (by omega) (by omega), Out.ok_bind,
      shlS_nat (by omega) (by omega), Out.ok_bind, shlS_nat (by omega) (by omega), Out.ok_bind]
    rw [show (1 : Int) = ((1 : Nat) : Int) from rfl, shlS_nat (by omega) (by omega), Out.ok_bind]
    rw [hdr11Offset_ok hmode h4, hdr11Offset_ok hmode h5, Nat.one_mul]
    have s4 := signedOffset_bounds (v := v4) hmode
    have s5 := signedOffset_bounds (v := v5) hmode
    generalize signedOffset true (directBits mode) v4 = D0 at *
    generalize signedOffset true (directBits mode) v5 = D1 at *
    rw [Nat.one_mul] at b4
    generalize hP : 2 ^ directShift mode = P at *
    have m0 : 0 ≤ D0 * (P : Int) ∧
        D0 * (P : Int) ≤ 65536 * 16 := by
      constructor
      · exact Int.mul_nonneg s4.1 (by omega)
      · exact Int.mul_le_mul (by omega) (by omega) (by omega) (by omega)
    have m1 : 0 ≤ D1 * (P : Int) ∧
        D1 * (P : Int) ≤ 65536 * 16 := by
      constructor
      · exact Int.mul_nonneg s5.1 (by omega)
      · exact Int.mul_le_mul (by omega) (by omega) (by omega) (by omega)
    rw [mulI32_ok (by omega) (by omega), Out.ok_bind, mulI32_ok (by omega) (by omega), Out.ok_bind]
    generalize D0 * (P : Int) = d0 at *
    generalize D1 * (P : Int) = d1 at *
    exact hdr11Combine_ok (by omega) b0 b1 b2 b3 m0 m1 ha1 ha2

theorem hdrAlpha_ok {v6 v7 : Nat} (h6 : v6 < 256) (h7 : v7 < 256) :
    hdrAlpha v6 v7 = .ok (((Spec.Astc.hdrAlpha v6 v7).1 : Int), ((Spec.Astc.hdrAlpha v6 v7).2 : Int)) ∧
    (Spec.Astc.hdrAlpha v6 v7).1 < 4096 ∧ (Spec.Astc.hdrAlpha v6 v7).2 < 4096 := by
  unfold hdrAlpha Spec.Astc.hdrAlpha
  smallints
  have emode : v6 / 2 ^ 7 % 2 ||| v7 / 2 ^ 6 / 2 % 2 * 2 = v6 / 128 + v7 / 128 * 2 := by
    rw [show v7 / 2 ^ 6 / 2 % 2 * 2 = v7 / 128 * 2 ^ 1 by omega, or_mul (k := 1) _ (by omega)]
    omega
  simp only [emode]
  generalize hM : v6 / 128 + v7 / 128 * 2 = m
  have hm : m < 4 := by omega
  by_cases h : m = 3
  · rw [if_pos (by omega), if_pos h]
    refine ⟨rfl, ?_, ?_⟩
    · simp only; omega
    · simp only; omega
  · rw [if_neg (by omega), if_neg h]
    have hy : v7 % 128 < 128 := Nat.mod_lt _ (by omega)
    have hx : v6 % 128 < 128 := Nat.mod_lt _ (by omega)
    generalize v7 % 128 = y at *
    generalize v6 % 128 = x at *
    have hoff := hdrAlpha_off (m := m) (by omega) hy
    obtain ⟨a, ea, hoff⟩ := Out.bind_eq_ok.mp hoff
    obtain ⟨b, eb, hoff⟩ := Out.bind_eq_ok.mp hoff
    obtain ⟨v, ev, hoff⟩ := Out.bind_eq_ok.mp hoff
    obtain ⟨k, ek, hoff⟩ := Out.bind_eq_ok.mp hoff
    have hk : k = ((4 - m : Nat) : Int) := by
      rw [show (4 : Int) = ((4 : Nat) : Int) from rfl, subI_nat (by omega) (by omega)] at ek
      exact (Out.ok.inj ek).symm
    subst hk
    have hp1 : 2 ^ (m + 1) ≤ 2 ^ 3 := Nat.pow_le_pow_right (by omega) (by omega)
    have hy1 : y * 2 ^ (m + 1) ≤ 127 * 2 ^ 3 := Nat.mul_le_mul (by omega) hp1
    rw [show (1 : Int) = ((1 : Nat) : Int) from rfl, addI_nat (by omega), Out.ok_bind,
      shlS_nat (by omega) (by omega), Out.ok_bind]
    rw [andI_x780 (by omega), orI_nat (by omega) (by omega), ea, Out.ok_bind, eb, Out.ok_bind, ev,
      Out.ok_bind, ek, Out.ok_bind]
    have hand : y <<< (m + 1) &&& 0x780 = y * 2 ^ (m + 1) / 128 % 16 * 128 := by
      rw [shl_eq]
      exact and_mask_shift _ 4 7
    rw [hand]
    have hbase : (x ||| y * 2 ^ (m + 1) / 128 % 16 * 128) * 2 ^ (4 - m) < 4096 := by
      have h1 : (x ||| y * 2 ^ (m + 1) / 128 % 16 * 128) < 2 ^ (8 + m) := by
        refine Nat.or_lt_two_pow ?_ ?_
        · have : 2 ^ 8 ≤ 2 ^ (8 + m) := Nat.pow_le_pow_right (by omega) (by omega)
          omega
        · rcases (show m = 0 ∨ m = 1 ∨ m = 2 by omega) with e | e | e <;> subst e <;>
            simp only [Nat.reduceAdd, Nat.reducePow] <;> omega
      have h2 : 2 ^ (8 + m) * 2 ^ (4 - m) = 4096 := by
        rw [← Nat.pow_add, show 8 + m + (4 - m) = 12 by omega]
      rw [← h2]
      exact Nat.mul_lt_mul_of_pos_right h1 (Nat.two_pow_pos _)
    rw [shlS_nat (by omega) (by omega), Out.ok_bind, hoff, Out.ok_bind]
    generalize (x ||| y * 2 ^ (m + 1) / 128 % 16 * 128) * 2 ^ (4 - m) = base at *
    have hob : -2 ^ 20 ≤ (if y % 2 ^ (6 - m) < 2 ^ (6 - m - 1) then ((y % 2 ^ (6 - m) : Nat) : Int)
        else ((y % 2 ^ (6 - m) : Nat) : Int) - 2 ^ (6 - m)) * 2 ^ (4 - m) ∧
        (if y % 2 ^ (6 - m) < 2 ^ (6 - m - 1) then ((y % 2 ^ (6 - m) : Nat) : Int)
        else ((y % 2 ^ (6 - m) : Nat) : Int) - 2 ^ (6 - m)) * 2 ^ (4 - m) < 2 ^ 20 := by
      rcases (show m = 0 ∨ m = 1 ∨ m = 2 by omega) with e | e | e <;> subst e <;>
        simp only [Nat.reduceSub, Int.reducePow, Nat.reducePow, Int.reduceNeg] <;> split <;> omega
    generalize (if y % 2 ^ (6 - m) < 2 ^ (6 - m - 1) then ((y % 2 ^ (6 - m) : Nat) : Int)
        else ((y % 2 ^ (6 - m) : Nat) : Int) - 2 ^ (6 - m)) * 2 ^ (4 - m) = off at *
    rw [addI32_ok (by omega) (by omega), Out.ok_bind, clampI_fff]
    refine ⟨rfl, hbase, ?_⟩
    simp only
    unfold clamp
    omega

end Verif.Proofs.Astc
