import Verif.Proofs.AstcEndpoints

/-! # HDR colour endpoints of ASTC blocks -/

set_option linter.unusedSimpArgs false

namespace Verif.Proofs.Astc

open Verif Verif.Model Verif.Proofs
open Verif.Spec.Astc (bitsAt clamp signedOffset)
open Verif.Spec.Astc renaming «when» → atMode

/-! ## Base and scale -/

/-- Major component and mode. -/
def scaleMode (v0 v1 v2 : Nat) : Nat × Nat :=
  let modeval := v0 / 64 + v1 / 128 * 4 + v2 / 128 * 8
  if modeval / 4 ≠ 3 then (modeval / 4, modeval % 4)
  else if modeval ≠ 15 then (modeval % 4, 4) else (0, 5)

theorem scaleMode_lt {v0 v1 v2 : Nat} (h0 : v0 < 256) (h1 : v1 < 256) (h2 : v2 < 256) :
    (scaleMode v0 v1 v2).1 < 3 ∧ (scaleMode v0 v1 v2).2 < 6 := by
  unfold scaleMode
  simp only
  split
  · simp only; omega
  · split
    · simp only; omega
    · simp only; omega

theorem hdr7Mode_ok {v0 v1 v2 : Nat} (h0 : v0 < 256) (h1 : v1 < 256) (h2 : v2 < 256) :
    hdr7Mode v0 v1 v2 = (((scaleMode v0 v1 v2).1 : Int), ((scaleMode v0 v1 v2).2 : Int)) := by
  unfold hdr7Mode scaleMode
  smallints
  have e : v2 / 2 ^ 4 / 8 % 2 * 8 ||| v1 / 2 ^ 5 / 4 % 2 * 4 ||| v0 / 2 ^ 6 =
      v0 / 64 + v1 / 128 * 4 + v2 / 128 * 8 := by
    rw [show v2 / 2 ^ 4 / 8 % 2 * 8 = v2 / 128 * 2 ^ 3 by omega,
      mul_or (k := 3) _ (show v1 / 2 ^ 5 / 4 % 2 * 4 < 2 ^ 3 by omega),
      show v2 / 128 * 2 ^ 3 + v1 / 2 ^ 5 / 4 % 2 * 4 = (v2 / 128 * 2 + v1 / 128) * 2 ^ 2 by omega,
      mul_or (k := 2) _ (by omega)]
    omega
  simp only [e]
  generalize hM : v0 / 64 + v1 / 128 * 4 + v2 / 128 * 8 = M
  have hlt : M < 16 := by omega
  have key : ∀ M : Nat, M < 16 →
      (if andI 32 (M : Int) 0xc ≠ 0xc then (((M / 2 ^ 2 : Nat) : Int), ((M % 4 : Nat) : Int))
        else if (M : Int) ≠ 0xf then (((M % 4 : Nat) : Int), (4 : Int)) else ((0 : Int), (5 : Int))) =
      (((if M / 4 ≠ 3 then (M / 4, M % 4) else if M ≠ 15 then (M % 4, 4) else (0, 5) : Nat × Nat).1 : Int),
        ((if M / 4 ≠ 3 then (M / 4, M % 4) else if M ≠ 15 then (M % 4, 4) else (0, 5) : Nat × Nat).2 : Int)) := by
    decide +kernel
  have := key M hlt
  rw [andI_xc (by omega)] at this
  exact this

/-- The four values of a mode. -/
def scaleR (mode v0 v1 v2 v3 : Nat) : Nat :=
  v0 % 64 ||| atMode mode 0x3B (bitsAt v3 7 1) 6 ||| atMode mode 0x04 (bitsAt v2 5 1) 6 |||
    atMode mode 0x10 (bitsAt v3 6 1) 7 ||| atMode mode 0x0F (bitsAt v2 6 1) 7 |||
    atMode mode 0x05 (bitsAt v1 5 1) 8 ||| atMode mode 0x0A (bitsAt v1 6 1) 8 |||
    atMode mode 0x05 (bitsAt v1 6 1) 9 ||| atMode mode 0x02 (bitsAt v3 5 1) 9 |||
    atMode mode 0x01 (bitsAt v2 5 1) 10 ||| atMode mode 0x02 (bitsAt v3 6 1) 10
def scaleG (mode v : Nat) : Nat :=
  v % 32 ||| atMode mode 0x30 (bitsAt v 6 1) 6 ||| atMode mode 0x3A (bitsAt v 5 1) 5
def scaleS (mode v : Nat) : Nat :=
  v % 32 ||| atMode mode 0x3D (bitsAt v 5 1) 5 ||| atMode mode 0x2D (bitsAt v 6 1) 6 |||
    atMode mode 0x04 (bitsAt v 7 1) 7
def scaleShift (mode : Nat) : Nat := [1, 1, 2, 3, 4, 5].getD mode 0

/-- The parts of the values that the code takes, as shifted bits. -/
theorem piece (v : Nat) (hv : v < 256) :
    (v / 2 ^ 1 / 64 % 2 * 64 = bitsAt v 7 1 <<< 6) ∧
    (v * 2 ^ 1 / 128 % 2 * 128 = bitsAt v 6 1 <<< 7) ∧
    (v * 2 ^ 3 / 256 % 4 * 256 = bitsAt v 5 1 <<< 8 ||| bitsAt v 6 1 <<< 9) ∧
    (v * 2 ^ 5 / 1024 % 2 * 1024 = bitsAt v 5 1 <<< 10) ∧
    (v * 2 ^ 2 / 256 % 2 * 256 = bitsAt v 6 1 <<< 8) ∧
    (v * 2 ^ 4 / 512 % 4 * 512 = bitsAt v 5 1 <<< 9 ||| bitsAt v 6 1 <<< 10) ∧
    (v * 2 ^ 1 / 64 % 4 * 64 = bitsAt v 5 1 <<< 6 ||| bitsAt v 6 1 <<< 7) ∧
    (v / 32 % 2 * 32 = bitsAt v 5 1 <<< 5) ∧
    (v / 32 % 4 * 32 = bitsAt v 5 1 <<< 5 ||| bitsAt v 6 1 <<< 6) ∧
    (v / 32 % 8 * 32 = bitsAt v 5 1 <<< 5 ||| bitsAt v 6 1 <<< 6 ||| bitsAt v 7 1 <<< 7) ∧
    (v / 64 % 2 * 64 = bitsAt v 6 1 <<< 6) ∧
    (v * 2 ^ 3 / 512 % 2 * 512 = bitsAt v 6 1 <<< 9) ∧
    (v * 2 ^ 4 / 512 % 2 * 512 = bitsAt v 5 1 <<< 9) ∧
    (v * 2 ^ 4 / 1024 % 2 * 1024 = bitsAt v 6 1 <<< 10) ∧
    (v * 2 ^ 5 / 2048 % 2 * 2048 = bitsAt v 6 1 <<< 11) := by
  have key : ∀ v : Nat, v < 256 →
    (v / 2 ^ 1 / 64 % 2 * 64 = bitsAt v 7 1 <<< 6) ∧
    (v * 2 ^ 1 / 128 % 2 * 128 = bitsAt v 6 1 <<< 7) ∧
    (v * 2 ^ 3 / 256 % 4 * 256 = bitsAt v 5 1 <<< 8 ||| bitsAt v 6 1 <<< 9) ∧
    (v * 2 ^ 5 / 1024 % 2 * 1024 = bitsAt v 5 1 <<< 10) ∧
    (v * 2 ^ 2 / 256 % 2 * 256 = bitsAt v 6 1 <<< 8) ∧
    (v * 2 ^ 4 / 512 % 4 * 512 = bitsAt v 5 1 <<< 9 ||| bitsAt v 6 1 <<< 10) ∧
    (v * 2 ^ 1 / 64 % 4 * 64 = bitsAt v 5 1 <<< 6 ||| bitsAt v 6 1 <<< 7) ∧
    (v / 32 % 2 * 32 = bitsAt v 5 1 <<< 5) ∧
    (v / 32 % 4 * 32 = bitsAt v 5 1 <<< 5 ||| bitsAt v 6 1 <<< 6) ∧
    (v / 32 % 8 * 32 = bitsAt v 5 1 <<< 5 ||| bitsAt v 6 1 <<< 6 ||| bitsAt v 7 1 <<< 7) ∧
    (v / 64 % 2 * 64 = bitsAt v 6 1 <<< 6) ∧
    (v * 2 ^ 3 / 512 % 2 * 512 = bitsAt v 6 1 <<< 9) ∧
    (v * 2 ^ 4 / 512 % 2 * 512 = bitsAt v 5 1 <<< 9) ∧
    (v * 2 ^ 4 / 1024 % 2 * 1024 = bitsAt v 6 1 <<< 10) ∧
    (v * 2 ^ 5 / 2048 % 2 * 2048 = bitsAt v 6 1 <<< 11) := by decide +kernel
  exact key v hv

theorem prod4 {α β γ δ : Type} {a a' : α} {b b' : β} {c c' : γ} {d d' : δ} (h1 : a = a')
    (h2 : b = b') (h3 : c = c') (h4 : d = d') : (a, b, c, d) = (a', b', c', d') := by
  rw [h1, h2, h3, h4]

/-- Sorts the parts of a combination. -/
macro "sortparts" : tactic => `(tactic| first | with_reducible rfl | (congr 2; ac_rfl))

theorem hdr7Values_0 {v0 v1 v2 v3 : Nat} (h0 : v0 < 256) (h1 : v1 < 256)
    (h2 : v2 < 256) (h3 : v3 < 256) :
    hdr7Values 0 v0 v1 v2 v3 =
      (((scaleR 0 v0 v1 v2 v3 * 2 ^ scaleShift 0 : Nat) : Int),
       ((scaleG 0 v1 * 2 ^ scaleShift 0 : Nat) : Int),
       ((scaleG 0 v2 * 2 ^ scaleShift 0 : Nat) : Int),
       ((scaleS 0 v3 * 2 ^ scaleShift 0 : Nat) : Int)) := by
  obtain ⟨p1, p2, p3, p4, p5, p6, p7, p8, p9, p10, p11, p12, p13, p14, p15⟩ := piece v1 h1
  obtain ⟨q1, q2, q3, q4, q5, q6, q7, q8, q9, q10, q11, q12, q13, q14, q15⟩ := piece v2 h2
  obtain ⟨r1, r2, r3, r4, r5, r6, r7, r8, r9, r10, r11, r12, r13, r14, r15⟩ := piece v3 h3
  unfold hdr7Values
  simp only [Int.reduceEq, if_false, if_true]
  simp only [scaleR, scaleG, scaleS, scaleShift, atMode, List.getD_cons_zero, List.getD_cons_succ,
    Nat.testBit]
  smallints
  simp only [p1, p2, p3, p4, p5, p6, p7, p8, p9, p10, p11, p12, p13, p14, p15,
    q1, q2, q3, q4, q5, q6, q7, q8, q9, q10, q11, q12, q13, q14, q15,
    r1, r2, r3, r4, r5, r6, r7, r8, r9, r10, r11, r12, r13, r14, r15,
    Nat.reduceShiftRight, Nat.reduceAnd, bne_iff_ne, ne_eq, not_true_eq_false, if_true, if_false,
    Nat.or_zero, Nat.one_ne_zero, not_false_eq_true]
  refine prod4 ?_ ?_ ?_ ?_ <;> sortparts

theorem hdr7Values_1 {v0 v1 v2 v3 : Nat} (h0 : v0 < 256) (h1 : v1 < 256)
    (h2 : v2 < 256) (h3 : v3 < 256) :
    hdr7Values 1 v0 v1 v2 v3 =
      (((scaleR 1 v0 v1 v2 v3 * 2 ^ scaleShift 1 : Nat) : Int),
       ((scaleG 1 v1 * 2 ^ scaleShift 1 : Nat) : Int),
       ((scaleG 1 v2 * 2 ^ scaleShift 1 : Nat) : Int),
       ((scaleS 1 v3 * 2 ^ scaleShift 1 : Nat) : Int)) := by
  obtain ⟨p1, p2, p3, p4, p5, p6, p7, p8, p9, p10, p11, p12, p13, p14, p15⟩ := piece v1 h1
  obtain ⟨q1, q2, q3, q4, q5, q6, q7, q8, q9, q10, q11, q12, q13, q14, q15⟩ := piece v2 h2
  obtain ⟨r1, r2, r3, r4, r5, r6, r7, r8, r9, r10, r11, r12, r13, r14, r15⟩ := piece v3 h3
  unfold hdr7Values
  simp only [Int.reduceEq, if_false, if_true]
  simp only [scaleR, scaleG, scaleS, scaleShift, atMode, List.getD_cons_zero, List.getD_cons_succ,
    Nat.testBit]
  smallints
  simp only [p1, p2, p3, p4, p5, p6, p7, p8, p9, p10, p11, p12, p13, p14, p15,
    q1, q2, q3, q4, q5, q6, q7, q8, q9, q10, q11, q12, q13, q14, q15,
    r1, r2, r3, r4, r5, r6, r7, r8, r9, r10, r11, r12, r13, r14, r15,
    Nat.reduceShiftRight, Nat.reduceAnd, bne_iff_ne, ne_eq, not_true_eq_false, if_true, if_false,
    Nat.or_zero, Nat.one_ne_zero, not_false_eq_true]
  refine prod4 ?_ ?_ ?_ ?_ <;> sortparts

theorem hdr7Values_2 {v0 v1 v2 v3 : Nat} (h0 : v0 < 256) (h1 : v1 < 256)
    (h2 : v2 < 256) (h3 : v3 < 256) :
    hdr7Values 2 v0 v1 v2 v3 =
      (((scaleR 2 v0 v1 v2 v3 * 2 ^ scaleShift 2 : Nat) : Int),
       ((scaleG 2 v1 * 2 ^ scaleShift 2 : Nat) : Int),
       ((scaleG 2 v2 * 2 ^ scaleShift 2 : Nat) : Int),
       ((scaleS 2 v3 * 2 ^ scaleShift 2 : Nat) : Int)) := by
  obtain ⟨p1, p2, p3, p4, p5, p6, p7, p8, p9, p10, p11, p12, p13, p14, p15⟩ := piece v1 h1
  obtain ⟨q1, q2, q3, q4, q5, q6, q7, q8, q9, q10, q11, q12, q13, q14, q15⟩ := piece v2 h2
  obtain ⟨r1, r2, r3, r4, r5, r6, r7, r8, r9, r10, r11, r12, r13, r14, r15⟩ := piece v3 h3
  unfold hdr7Values
  simp only [Int.reduceEq, if_false, if_true]
  simp only [scaleR, scaleG, scaleS, scaleShift, atMode, List.getD_cons_zero, List.getD_cons_succ,
    Nat.testBit]
  smallints
  simp only [p1, p2, p3, p4, p5, p6, p7, p8, p9, p10, p11, p12, p13, p14, p15,
    q1, q2, q3, q4, q5, q6, q7, q8, q9, q10, q11, q12, q13, q14, q15,
    r1, r2, r3, r4, r5, r6, r7, r8, r9, r10, r11, r12, r13, r14, r15,
    Nat.reduceShiftRight, Nat.reduceAnd, bne_iff_ne, ne_eq, not_true_eq_false, if_true, if_false,
    Nat.or_zero, Nat.one_ne_zero, not_false_eq_true]
  refine prod4 ?_ ?_ ?_ ?_ <;> sortparts

theorem hdr7Values_3 {v0 v1 v2 v3 : Nat} (h0 : v0 < 256) (h1 : v1 < 256)
    (h2 : v2 < 256) (h3 : v3 < 256) :
    hdr7Values 3 v0 v1 v2 v3 =
      (((scaleR 3 v0 v1 v2 v3 * 2 ^ scaleShift 3 : Nat) : Int),
       ((scaleG 3 v1 * 2 ^ scaleShift 3 : Nat) : Int),
       ((scaleG 3 v2 * 2 ^ scaleShift 3 : Nat) : Int),
       ((scaleS 3 v3 * 2 ^ scaleShift 3 : Nat) : Int)) := by
  obtain ⟨p1, p2, p3, p4, p5, p6, p7, p8, p9, p10, p11, p12, p13, p14, p15⟩ := piece v1 h1
  obtain ⟨q1, q2, q3, q4, q5, q6, q7, q8, q9, q10, q11, q12, q13, q14, q15⟩ := piece v2 h2
  obtain ⟨r1, r2, r3, r4, r5, r6, r7, r8, r9, r10, r11, r12, r13, r14, r15⟩ := piece v3 h3
  unfold hdr7Values
  simp only [Int.reduceEq, if_false, if_true]
  simp only [scaleR, scaleG, scaleS, scaleShift, atMode, List.getD_cons_zero, List.getD_cons_succ,
    Nat.testBit]
  smallints
  simp only [p1, p2, p3, p4, p5, p6, p7, p8, p9, p10, p11, p12, p13, p14, p15,
    q1, q2, q3, q4, q5, q6, q7, q8, q9, q10, q11, q12, q13, q14, q15,
    r1, r2, r3, r4, r5, r6, r7, r8, r9, r10, r11, r12, r13, r14, r15,
    Nat.reduceShiftRight, Nat.reduceAnd, bne_iff_ne, ne_eq, not_true_eq_false, if_true, if_false,
    Nat.or_zero, Nat.one_ne_zero, not_false_eq_true]
  refine prod4 ?_ ?_ ?_ ?_ <;> sortparts

theorem hdr7Values_4 {v0 v1 v2 v3 : Nat} (h0 : v0 < 256) (h1 : v1 < 256)
    (h2 : v2 < 256) (h3 : v3 < 256) :
    hdr7Values 4 v0 v1 v2 v3 =
      (((scaleR 4 v0 v1 v2 v3 * 2 ^ scaleShift 4 : Nat) : Int),
       ((scaleG 4 v1 * 2 ^ scaleShift 4 : Nat) : Int),
       ((scaleG 4 v2 * 2 ^ scaleShift 4 : Nat) : Int),
       ((scaleS 4 v3 * 2 ^ scaleShift 4 : Nat) : Int)) := by
  obtain ⟨p1, p2, p3, p4, p5, p6, p7, p8, p9, p10, p11, p12, p13, p14, p15⟩ := piece v1 h1
  obtain ⟨q1, q2, q3, q4, q5, q6, q7, q8, q9, q10, q11, q12, q13, q14, q15⟩ := piece v2 h2
  obtain ⟨r1, r2, r3, r4, r5, r6, r7, r8, r9, r10, r11, r12, r13, r14, r15⟩ := piece v3 h3
  unfold hdr7Values
  simp only [Int.reduceEq, if_false, if_true]
  simp only [scaleR, scaleG, scaleS, scaleShift, atMode, List.getD_cons_zero, List.getD_cons_succ,
    Nat.testBit]
  smallints
  simp only [p1, p2, p3, p4, p5, p6, p7, p8, p9, p10, p11, p12, p13, p14, p15,
    q1, q2, q3, q4, q5, q6, q7, q8, q9, q10, q11, q12, q13, q14, q15,
    r1, r2, r3, r4, r5, r6, r7, r8, r9, r10, r11, r12, r13, r14, r15,
    Nat.reduceShiftRight, Nat.reduceAnd, bne_iff_ne, ne_eq, not_true_eq_false, if_true, if_false,
    Nat.or_zero, Nat.one_ne_zero, not_false_eq_true]
  refine prod4 ?_ ?_ ?_ ?_ <;> sortparts

theorem hdr7Values_5 {v0 v1 v2 v3 : Nat} (h0 : v0 < 256) (h1 : v1 < 256)
    (h2 : v2 < 256) (h3 : v3 < 256) :
    hdr7Values 5 v0 v1 v2 v3 =
      (((scaleR 5 v0 v1 v2 v3 * 2 ^ scaleShift 5 : Nat) : Int),
       ((scaleG 5 v1 * 2 ^ scaleShift 5 : Nat) : Int),
       ((scaleG 5 v2 * 2 ^ scaleShift 5 : Nat) : Int),
       ((scaleS 5 v3 * 2 ^ scaleShift 5 : Nat) : Int)) := by
  obtain ⟨p1, p2, p3, p4, p5, p6, p7, p8, p9, p10, p11, p12, p13, p14, p15⟩ := piece v1 h1
  obtain ⟨q1, q2, q3, q4, q5, q6, q7, q8, q9, q10, q11, q12, q13, q14, q15⟩ := piece v2 h2
  obtain ⟨r1, r2, r3, r4, r5, r6, r7, r8, r9, r10, r11, r12, r13, r14, r15⟩ := piece v3 h3
  unfold hdr7Values
  simp only [Int.reduceEq, if_false, if_true]
  simp only [scaleR, scaleG, scaleS, scaleShift, atMode, List.getD_cons_zero, List.getD_cons_succ,
    Nat.testBit]
  smallints
  simp only [p1, p2, p3, p4, p5, p6, p7, p8, p9, p10, p11, p12, p13, p14, p15,
    q1, q2, q3, q4, q5, q6, q7, q8, q9, q10, q11, q12, q13, q14, q15,
    r1, r2, r3, r4, r5, r6, r7, r8, r9, r10, r11, r12, r13, r14, r15,
    Nat.reduceShiftRight, Nat.reduceAnd, bne_iff_ne, ne_eq, not_true_eq_false, if_true, if_false,
    Nat.or_zero, Nat.one_ne_zero, not_false_eq_true]
  refine prod4 ?_ ?_ ?_ ?_ <;> sortparts

theorem hdr7Values_ok {mode v0 v1 v2 v3 : Nat} (hm : mode < 6) (h0 : v0 < 256) (h1 : v1 < 256)
    (h2 : v2 < 256) (h3 : v3 < 256) :
    hdr7Values mode v0 v1 v2 v3 =
      (((scaleR mode v0 v1 v2 v3 * 2 ^ scaleShift mode : Nat) : Int),
       ((scaleG mode v1 * 2 ^ scaleShift mode : Nat) : Int),
       ((scaleG mode v2 * 2 ^ scaleShift mode : Nat) : Int),
       ((scaleS mode v3 * 2 ^ scaleShift mode : Nat) : Int)) :=
  match mode, hm with
  | 0, _ => hdr7Values_0 h0 h1 h2 h3
  | 1, _ => hdr7Values_1 h0 h1 h2 h3
  | 2, _ => hdr7Values_2 h0 h1 h2 h3
  | 3, _ => hdr7Values_3 h0 h1 h2 h3
  | 4, _ => hdr7Values_4 h0 h1 h2 h3
  | 5, _ => hdr7Values_5 h0 h1 h2 h3

/-! ## Direct -/

def directA (mode v0 v1 v2 v3 v4 v5 : Nat) : Nat :=
  v0 ||| bitsAt v1 6 1 <<< 8 ||| atMode mode 0xA4 (bitsAt v2 6 1) 9 |||
    atMode mode 0x08 (bitsAt v4 6 1) 9 ||| atMode mode 0x50 (bitsAt v4 5 1) 9 |||
    atMode mode 0x50 (bitsAt v5 5 1) 10 ||| atMode mode 0xA0 (bitsAt v3 6 1) 10 |||
    atMode mode 0xC0 (bitsAt v4 6 1) 11
def directC (mode v1 v3 v4 v5 : Nat) : Nat :=
  v1 % 64 ||| atMode mode 0x04 (bitsAt v3 6 1) 6 ||| atMode mode 0xE8 (bitsAt v5 6 1) 6 |||
    atMode mode 0x20 (bitsAt v4 6 1) 7
def directB (mode v w : Nat) : Nat :=
  v % 64 ||| atMode mode 0x5B (bitsAt v 6 1) 6 ||| atMode mode 0x12 (bitsAt w 6 1) 7
def directShift (mode : Nat) : Nat := [3, 3, 2, 2, 1, 1, 0, 0].getD mode 0
def directBits (mode : Nat) : Nat := [7, 6, 7, 6, 5, 6, 5, 6].getD mode 0

theorem hdr11Values_0 {v0 v1 v2 v3 v4 v5 : Nat} (h0 : v0 < 256) (h1 : v1 < 256)
    (h2 : v2 < 256) (h3 : v3 < 256) (h4 : v4 < 256) (h5 : v5 < 256) :
    hdr11Values 0 v0 v1 v2 v3 v4 v5 =
      ((directA 0 v0 v1 v2 v3 v4 v5 : Int), (directB 0 v2 v4 : Int), (directB 0 v3 v5 : Int),
       (directC 0 v1 v3 v4 v5 : Int)) := by
  obtain ⟨p1, p2, p3, p4, p5, p6, p7, p8, p9, p10, p11, p12, p13, p14, p15⟩ := piece v1 h1
  obtain ⟨q1, q2, q3, q4, q5, q6, q7, q8, q9, q10, q11, q12, q13, q14, q15⟩ := piece v2 h2
  obtain ⟨r1, r2, r3, r4, r5, r6, r7, r8, r9, r10, r11, r12, r13, r14, r15⟩ := piece v3 h3
  obtain ⟨s1, s2, s3, s4, s5, s6, s7, s8, s9, s10, s11, s12, s13, s14, s15⟩ := piece v4 h4
  obtain ⟨t1, t2, t3, t4, t5, t6, t7, t8, t9, t10, t11, t12, t13, t14, t15⟩ := piece v5 h5
  unfold hdr11Values
  simp only [Int.reduceEq, if_false, if_true]
  simp only [directA, directB, directC, atMode, Nat.testBit]
  smallints
  simp only [p1, p2, p3, p4, p5, p6, p7, p8, p9, p10, p11, p12, p13, p14, p15,
    q1, q2, q3, q4, q5, q6, q7, q8, q9, q10, q11, q12, q13, q14, q15,
    r1, r2, r3, r4, r5, r6, r7, r8, r9, r10, r11, r12, r13, r14, r15,
    s1, s2, s3, s4, s5, s6, s7, s8, s9, s10, s11, s12, s13, s14, s15,
    t1, t2, t3, t4, t5, t6, t7, t8, t9, t10, t11, t12, t13, t14, t15,
    Nat.reduceShiftRight, Nat.reduceAnd, bne_iff_ne, ne_eq, not_true_eq_false, if_true, if_false,
    Nat.or_zero, Nat.one_ne_zero, not_false_eq_true]

theorem hdr11Values_1 {v0 v1 v2 v3 v4 v5 : Nat} (h0 : v0 < 256) (h1 : v1 < 256)
    (h2 : v2 < 256) (h3 : v3 < 256) (h4 : v4 < 256) (h5 : v5 < 256) :
    hdr11Values 1 v0 v1 v2 v3 v4 v5 =
      ((directA 1 v0 v1 v2 v3 v4 v5 : Int), (directB 1 v2 v4 : Int), (directB 1 v3 v5 : Int),
       (directC 1 v1 v3 v4 v5 : Int)) := by
  obtain ⟨p1, p2, p3, p4, p5, p6, p7, p8, p9, p10, p11, p12, p13, p14, p15⟩ := piece v1 h1
  obtain ⟨q1, q2, q3, q4, q5, q6, q7, q8, q9, q10, q11, q12, q13, q14, q15⟩ := piece v2 h2
  obtain ⟨r1, r2, r3, r4, r5, r6, r7, r8, r9, r10, r11, r12, r13, r14, r15⟩ := piece v3 h3
  obtain ⟨s1, s2, s3, s4, s5, s6, s7, s8, s9, s10, s11, s12, s13, s14, s15⟩ := piece v4 h4
  obtain ⟨t1, t2, t3, t4, t5, t6, t7, t8, t9, t10, t11, t12, t13, t14, t15⟩ := piece v5 h5
  unfold hdr11Values
  simp only [Int.reduceEq, if_false, if_true]
  simp only [directA, directB, directC, atMode, Nat.testBit]
  smallints
  simp only [p1, p2, p3, p4, p5, p6, p7, p8, p9, p10, p11, p12, p13, p14, p15,
    q1, q2, q3, q4, q5, q6, q7, q8, q9, q10, q11, q12, q13, q14, q15,
    r1, r2, r3, r4, r5, r6, r7, r8, r9, r10, r11, r12, r13, r14, r15,
    s1, s2, s3, s4, s5, s6, s7, s8, s9, s10, s11, s12, s13, s14, s15,
    t1, t2, t3, t4, t5, t6, t7, t8, t9, t10, t11, t12, t13, t14, t15,
    Nat.reduceShiftRight, Nat.reduceAnd, bne_iff_ne, ne_eq, not_true_eq_false, if_true, if_false,
    Nat.or_zero, Nat.one_ne_zero, not_false_eq_true]

theorem hdr11Values_2 {v0 v1 v2 v3 v4 v5 : Nat} (h0 : v0 < 256) (h1 : v1 < 256)
    (h2 : v2 < 256) (h3 : v3 < 256) (h4 : v4 < 256) (h5 : v5 < 256) :
    hdr11Values 2 v0 v1 v2 v3 v4 v5 =
      ((directA 2 v0 v1 v2 v3 v4 v5 : Int), (directB 2 v2 v4 : Int), (directB 2 v3 v5 : Int),
       (directC 2 v1 v3 v4 v5 : Int)) := by
  obtain ⟨p1, p2, p3, p4, p5, p6, p7, p8, p9, p10, p11, p12, p13, p14, p15⟩ := piece v1 h1
  obtain ⟨q1, q2, q3, q4, q5, q6, q7, q8, q9, q10, q11, q12, q13, q14, q15⟩ := piece v2 h2
  obtain ⟨r1, r2, r3, r4, r5, r6, r7, r8, r9, r10, r11, r12, r13, r14, r15⟩ := piece v3 h3
  obtain ⟨s1, s2, s3, s4, s5, s6, s7, s8, s9, s10, s11, s12, s13, s14, s15⟩ := piece v4 h4
  obtain ⟨t1, t2, t3, t4, t5, t6, t7, t8, t9, t10, t11, t12, t13, t14, t15⟩ := piece v5 h5
  unfold hdr11Values
  simp only [Int.reduceEq, if_false, if_true]
  simp only [directA, directB, directC, atMode, Nat.testBit]
  smallints
  simp only [p1, p2, p3, p4, p5, p6, p7, p8, p9, p10, p11, p12, p13, p14, p15,
    q1, q2, q3, q4, q5, q6, q7, q8, q9, q10, q11, q12, q13, q14, q15,
    r1, r2, r3, r4, r5, r6, r7, r8, r9, r10, r11, r12, r13, r14, r15,
    s1, s2, s3, s4, s5, s6, s7, s8, s9, s10, s11, s12, s13, s14, s15,
    t1, t2, t3, t4, t5, t6, t7, t8, t9, t10, t11, t12, t13, t14, t15,
    Nat.reduceShiftRight, Nat.reduceAnd, bne_iff_ne, ne_eq, not_true_eq_false, if_true, if_false,
    Nat.or_zero, Nat.one_ne_zero, not_false_eq_true]

theorem hdr11Values_3 {v0 v1 v2 v3 v4 v5 : Nat} (h0 : v0 < 256) (h1 : v1 < 256)
    (h2 : v2 < 256) (h3 : v3 < 256) (h4 : v4 < 256) (h5 : v5 < 256) :
    hdr11Values 3 v0 v1 v2 v3 v4 v5 =
      ((directA 3 v0 v1 v2 v3 v4 v5 : Int), (directB 3 v2 v4 : Int), (directB 3 v3 v5 : Int),
       (directC 3 v1 v3 v4 v5 : Int)) := by
  obtain ⟨p1, p2, p3, p4, p5, p6, p7, p8, p9, p10, p11, p12, p13, p14, p15⟩ := piece v1 h1
  obtain ⟨q1, q2, q3, q4, q5, q6, q7, q8, q9, q10, q11, q12, q13, q14, q15⟩ := piece v2 h2
  obtain ⟨r1, r2, r3, r4, r5, r6, r7, r8, r9, r10, r11, r12, r13, r14, r15⟩ := piece v3 h3
  obtain ⟨s1, s2, s3, s4, s5, s6, s7, s8, s9, s10, s11, s12, s13, s14, s15⟩ := piece v4 h4
  obtain ⟨t1, t2, t3, t4, t5, t6, t7, t8, t9, t10, t11, t12, t13, t14, t15⟩ := piece v5 h5
  unfold hdr11Values
  simp only [Int.reduceEq, if_false, if_true]
  simp only [directA, directB, directC, atMode, Nat.testBit]
  smallints
  simp only [p1, p2, p3, p4, p5, p6, p7, p8, p9, p10, p11, p12, p13, p14, p15,
    q1, q2, q3, q4, q5, q6, q7, q8, q9, q10, q11, q12, q13, q14, q15,
    r1, r2, r3, r4, r5, r6, r7, r8, r9, r10, r11, r12, r13, r14, r15,
    s1, s2, s3, s4, s5, s6, s7, s8, s9, s10, s11, s12, s13, s14, s15,
    t1, t2, t3, t4, t5, t6, t7, t8, t9, t10, t11, t12, t13, t14, t15,
    Nat.reduceShiftRight, Nat.reduceAnd, bne_iff_ne, ne_eq, not_true_eq_false, if_true, if_false,
    Nat.or_zero, Nat.one_ne_zero, not_false_eq_true]

theorem hdr11Values_4 {v0 v1 v2 v3 v4 v5 : Nat} (h0 : v0 < 256) (h1 : v1 < 256)
    (h2 : v2 < 256) (h3 : v3 < 256) (h4 : v4 < 256) (h5 : v5 < 256) :
    hdr11Values 4 v0 v1 v2 v3 v4 v5 =
      ((directA 4 v0 v1 v2 v3 v4 v5 : Int), (directB 4 v2 v4 : Int), (directB 4 v3 v5 : Int),
       (directC 4 v1 v3 v4 v5 : Int)) := by
  obtain ⟨p1, p2, p3, p4, p5, p6, p7, p8, p9, p10, p11, p12, p13, p14, p15⟩ := piece v1 h1
  obtain ⟨q1, q2, q3, q4, q5, q6, q7, q8, q9, q10, q11, q12, q13, q14, q15⟩ := piece v2 h2
  obtain ⟨r1, r2, r3, r4, r5, r6, r7, r8, r9, r10, r11, r12, r13, r14, r15⟩ := piece v3 h3
  obtain ⟨s1, s2, s3, s4, s5, s6, s7, s8, s9, s10, s11, s12, s13, s14, s15⟩ := piece v4 h4
  obtain ⟨t1, t2, t3, t4, t5, t6, t7, t8, t9, t10, t11, t12, t13, t14, t15⟩ := piece v5 h5
  unfold hdr11Values
  simp only [Int.reduceEq, if_false, if_true]
  simp only [directA, directB, directC, atMode, Nat.testBit]
  smallints
  simp only [p1, p2, p3, p4, p5, p6, p7, p8, p9, p10, p11, p12, p13, p14, p15,
    q1, q2, q3, q4, q5, q6, q7, q8, q9, q10, q11, q12, q13, q14, q15,
    r1, r2, r3, r4, r5, r6, r7, r8, r9, r10, r11, r12, r13, r14, r15,
    s1, s2, s3, s4, s5, s6, s7, s8, s9, s10, s11, s12, s13, s14, s15,
    t1, t2, t3, t4, t5, t6, t7, t8, t9, t10, t11, t12, t13, t14, t15,
    Nat.reduceShiftRight, Nat.reduceAnd, bne_iff_ne, ne_eq, not_true_eq_false, if_true, if_false,
    Nat.or_zero, Nat.one_ne_zero, not_false_eq_true]

theorem hdr11Values_5 {v0 v1 v2 v3 v4 v5 : Nat} (h0 : v0 < 256) (h1 : v1 < 256)
    (h2 : v2 < 256) (h3 : v3 < 256) (h4 : v4 < 256) (h5 : v5 < 256) :
    hdr11Values 5 v0 v1 v2 v3 v4 v5 =
      ((directA 5 v0 v1 v2 v3 v4 v5 : Int), (directB 5 v2 v4 : Int), (directB 5 v3 v5 : Int),
       (directC 5 v1 v3 v4 v5 : Int)) := by
  obtain ⟨p1, p2, p3, p4, p5, p6, p7, p8, p9, p10, p11, p12, p13, p14, p15⟩ := piece v1 h1
  obtain ⟨q1, q2, q3, q4, q5, q6, q7, q8, q9, q10, q11, q12, q13, q14, q15⟩ := piece v2 h2
  obtain ⟨r1, r2, r3, r4, r5, r6, r7, r8, r9, r10, r11, r12, r13, r14, r15⟩ := piece v3 h3
  obtain ⟨s1, s2, s3, s4, s5, s6, s7, s8, s9, s10, s11, s12, s13, s14, s15⟩ := piece v4 h4
  obtain ⟨t1, t2, t3, t4, t5, t6, t7, t8, t9, t10, t11, t12, t13, t14, t15⟩ := piece v5 h5
  unfold hdr11Values
  simp only [Int.reduceEq, if_false, if_true]
  simp only [directA, directB, directC, atMode, Nat.testBit]
  smallints
  simp only [p1, p2, p3, p4, p5, p6, p7, p8, p9, p10, p11, p12, p13, p14, p15,
    q1, q2, q3, q4, q5, q6, q7, q8, q9, q10, q11, q12, q13, q14, q15,
    r1, r2, r3, r4, r5, r6, r7, r8, r9, r10, r11, r12, r13, r14, r15,
    s1, s2, s3, s4, s5, s6, s7, s8, s9, s10, s11, s12, s13, s14, s15,
    t1, t2, t3, t4, t5, t6, t7, t8, t9, t10, t11, t12, t13, t14, t15,
    Nat.reduceShiftRight, Nat.reduceAnd, bne_iff_ne, ne_eq, not_true_eq_false, if_true, if_false,
    Nat.or_zero, Nat.one_ne_zero, not_false_eq_true]

theorem hdr11Values_6 {v0 v1 v2 v3 v4 v5 : Nat} (h0 : v0 < 256) (h1 : v1 < 256)
    (h2 : v2 < 256) (h3 : v3 < 256) (h4 : v4 < 256) (h5 : v5 < 256) :
    hdr11Values 6 v0 v1 v2 v3 v4 v5 =
      ((directA 6 v0 v1 v2 v3 v4 v5 : Int), (directB 6 v2 v4 : Int), (directB 6 v3 v5 : Int),
       (directC 6 v1 v3 v4 v5 : Int)) := by
  obtain ⟨p1, p2, p3, p4, p5, p6, p7, p8, p9, p10, p11, p12, p13, p14, p15⟩ := piece v1 h1
  obtain ⟨q1, q2, q3, q4, q5, q6, q7, q8, q9, q10, q11, q12, q13, q14, q15⟩ := piece v2 h2
  obtain ⟨r1, r2, r3, r4, r5, r6, r7, r8, r9, r10, r11, r12, r13, r14, r15⟩ := piece v3 h3
  obtain ⟨s1, s2, s3, s4, s5, s6, s7, s8, s9, s10, s11, s12, s13, s14, s15⟩ := piece v4 h4
  obtain ⟨t1, t2, t3, t4, t5, t6, t7, t8, t9, t10, t11, t12, t13, t14, t15⟩ := piece v5 h5
  unfold hdr11Values
  simp only [Int.reduceEq, if_false, if_true]
  simp only [directA, directB, directC, atMode, Nat.testBit]
  smallints
  simp only [p1, p2, p3, p4, p5, p6, p7, p8, p9, p10, p11, p12, p13, p14, p15,
    q1, q2, q3, q4, q5, q6, q7, q8, q9, q10, q11, q12, q13, q14, q15,
    r1, r2, r3, r4, r5, r6, r7, r8, r9, r10, r11, r12, r13, r14, r15,
    s1, s2, s3, s4, s5, s6, s7, s8, s9, s10, s11, s12, s13, s14, s15,
    t1, t2, t3, t4, t5, t6, t7, t8, t9, t10, t11, t12, t13, t14, t15,
    Nat.reduceShiftRight, Nat.reduceAnd, bne_iff_ne, ne_eq, not_true_eq_false, if_true, if_false,
    Nat.or_zero, Nat.one_ne_zero, not_false_eq_true]

theorem hdr11Values_7 {v0 v1 v2 v3 v4 v5 : Nat} (h0 : v0 < 256) (h1 : v1 < 256)
    (h2 : v2 < 256) (h3 : v3 < 256) (h4 : v4 < 256) (h5 : v5 < 256) :
    hdr11Values 7 v0 v1 v2 v3 v4 v5 =
      ((directA 7 v0 v1 v2 v3 v4 v5 : Int), (directB 7 v2 v4 : Int), (directB 7 v3 v5 : Int),
       (directC 7 v1 v3 v4 v5 : Int)) := by
  obtain ⟨p1, p2, p3, p4, p5, p6, p7, p8, p9, p10, p11, p12, p13, p14, p15⟩ := piece v1 h1
  obtain ⟨q1, q2, q3, q4, q5, q6, q7, q8, q9, q10, q11, q12, q13, q14, q15⟩ := piece v2 h2
  obtain ⟨r1, r2, r3, r4, r5, r6, r7, r8, r9, r10, r11, r12, r13, r14, r15⟩ := piece v3 h3
  obtain ⟨s1, s2, s3, s4, s5, s6, s7, s8, s9, s10, s11, s12, s13, s14, s15⟩ := piece v4 h4
  obtain ⟨t1, t2, t3, t4, t5, t6, t7, t8, t9, t10, t11, t12, t13, t14, t15⟩ := piece v5 h5
  unfold hdr11Values
  simp only [Int.reduceEq, if_false, if_true]
  simp only [directA, directB, directC, atMode, Nat.testBit]
  smallints
  simp only [p1, p2, p3, p4, p5, p6, p7, p8, p9, p10, p11, p12, p13, p14, p15,
    q1, q2, q3, q4, q5, q6, q7, q8, q9, q10, q11, q12, q13, q14, q15,
    r1, r2, r3, r4, r5, r6, r7, r8, r9, r10, r11, r12, r13, r14, r15,
    s1, s2, s3, s4, s5, s6, s7, s8, s9, s10, s11, s12, s13, s14, s15,
    t1, t2, t3, t4, t5, t6, t7, t8, t9, t10, t11, t12, t13, t14, t15,
    Nat.reduceShiftRight, Nat.reduceAnd, bne_iff_ne, ne_eq, not_true_eq_false, if_true, if_false,
    Nat.or_zero, Nat.one_ne_zero, not_false_eq_true]

theorem hdr11Values_ok {mode v0 v1 v2 v3 v4 v5 : Nat} (hm : mode < 8) (h0 : v0 < 256)
    (h1 : v1 < 256) (h2 : v2 < 256) (h3 : v3 < 256) (h4 : v4 < 256) (h5 : v5 < 256) :
    hdr11Values mode v0 v1 v2 v3 v4 v5 =
      ((directA mode v0 v1 v2 v3 v4 v5 : Int), (directB mode v2 v4 : Int), (directB mode v3 v5 : Int),
       (directC mode v1 v3 v4 v5 : Int)) :=
  match mode, hm with
  | 0, _ => hdr11Values_0 h0 h1 h2 h3 h4 h5
  | 1, _ => hdr11Values_1 h0 h1 h2 h3 h4 h5
  | 2, _ => hdr11Values_2 h0 h1 h2 h3 h4 h5
  | 3, _ => hdr11Values_3 h0 h1 h2 h3 h4 h5
  | 4, _ => hdr11Values_4 h0 h1 h2 h3 h4 h5
  | 5, _ => hdr11Values_5 h0 h1 h2 h3 h4 h5
  | 6, _ => hdr11Values_6 h0 h1 h2 h3 h4 h5
  | 7, _ => hdr11Values_7 h0 h1 h2 h3 h4 h5

theorem hdr11Offset_ok {mode v : Nat} (hm : mode < 8) (hv : v < 256) :
    hdr11Offset mode v = signedOffset true (directBits mode) v := by
  have key : ∀ m : Fin 8, ∀ v : Fin 256,
      hdr11Offset (m.val : Int) (v.val : Int) = signedOffset true (directBits m.val) v.val := by
    decide +kernel
  exact key ⟨mode, hm⟩ ⟨v, hv⟩

theorem signedOffset_bounds {mode v : Nat} (hm : mode < 8) :
    0 ≤ signedOffset true (directBits mode) v ∧ signedOffset true (directBits mode) v < 65536 := by
  have key : ∀ m : Fin 8, 1 ≤ directBits m.val ∧ directBits m.val ≤ 7 := by decide
  obtain ⟨h1, h2⟩ := key ⟨mode, hm⟩
  simp only at h1 h2
  unfold signedOffset
  simp only
  have hlt : v % 2 ^ directBits mode < 2 ^ directBits mode := Nat.mod_lt _ (Nat.two_pow_pos _)
  have hp : 2 ^ directBits mode ≤ 2 ^ 7 := Nat.pow_le_pow_right (by omega) h2
  have hi : ((2 : Int) ^ directBits mode) = ((2 ^ directBits mode : Nat) : Int) := by simp
  rw [hi]
  simp only [if_true]
  split <;> omega

end Verif.Proofs.Astc
