import Verif.Proofs.Etc

set_option linter.unusedSimpArgs false
set_option linter.unusedSectionVars false

/-! # ETC: the base colours of every mode -/

namespace Verif.Proofs

open Verif Verif.Model

/-- The bytes of a block and its big-endian number. -/
structure IsBytes (d : Bytes8) (blk : List UInt8) : Prop where
  h0 : d.d0 < 256
  h1 : d.d1 < 256
  h2 : d.d2 < 256
  h3 : d.d3 < 256
  h4 : d.d4 < 256
  h5 : d.d5 < 256
  h6 : d.d6 < 256
  h7 : d.d7 < 256
  be : Spec.beNat blk = d.d0 * 2 ^ 56 + d.d1 * 2 ^ 48 + d.d2 * 2 ^ 40 + d.d3 * 2 ^ 32 +
    d.d4 * 2 ^ 24 + d.d5 * 2 ^ 16 + d.d6 * 2 ^ 8 + d.d7

theorem bytes8_ok {data : List UInt8} (h : 8 ≤ data.length) :
    ∃ d, bytes8 data = .ok d ∧ IsBytes d (data.take 8) := by
  match data, h with
  | b0 :: b1 :: b2 :: b3 :: b4 :: b5 :: b6 :: b7 :: r, _ =>
    refine ⟨_, rfl, b0.toNat_lt, b1.toNat_lt, b2.toNat_lt, b3.toNat_lt, b4.toNat_lt, b5.toNat_lt,
      b6.toNat_lt, b7.toNat_lt, ?_⟩
    simp only [Spec.beNat, List.take_succ_cons, List.take_zero, List.reverse_cons, List.reverse_nil,
      List.nil_append, List.cons_append, Spec.leNat]
    omega

section
variable {d : Bytes8} {blk : List UInt8}

theorem bits_eq (h : IsBytes d blk) (hi lo : Nat) : Spec.Etc.bits blk hi lo =
    (d.d0 * 2 ^ 56 + d.d1 * 2 ^ 48 + d.d2 * 2 ^ 40 + d.d3 * 2 ^ 32 +
    d.d4 * 2 ^ 24 + d.d5 * 2 ^ 16 + d.d6 * 2 ^ 8 + d.d7) / 2 ^ lo % 2 ^ (hi + 1 - lo) := by
  unfold Spec.Etc.bits; rw [h.be]

/-! ## Bytes -/

theorem hi4 : ∀ d, d < 256 → ((d &&& 0xf0) ||| d >>> 4) = Spec.Etc.expand4 (d / 16) := by
  decide +kernel
theorem lo4 : ∀ d, d < 256 → ((d &&& 0x0f) ||| shl8 d 4) = Spec.Etc.expand4 (d % 16) := by
  decide +kernel
theorem hi5 : ∀ d, d < 256 → rep5 (d &&& 0xf8) = Spec.expand5 (d / 8) := by decide +kernel
theorem second5 : ∀ d, d < 256 → rep5 (etc1Second d) =
    Spec.expand5 (((d / 8 : Nat) + Spec.Etc.signed3 (d % 8)) % 32).toNat := by decide +kernel

theorem tRed : ∀ d, d < 256 → ((shl8 d 3 &&& 0xc0) ||| (shl8 d 4 &&& 0x30) ||| (d >>> 1 &&& 0xc) |||
    (d &&& 3)) = Spec.Etc.expand4 (4 * (d / 8 % 4) + d % 4) := by decide +kernel
theorem tDist : ∀ d, d < 256 → ((d >>> 1 &&& 6) ||| (d &&& 1)) = 2 * (d / 4 % 4) + d % 2 := by
  decide +kernel
theorem mid4 : ∀ d, d < 256 → ((shl8 d 1 &&& 0xf0) ||| (d >>> 3 &&& 0xf)) =
    Spec.Etc.expand4 (d / 8 % 16) := by decide +kernel
theorem hDist : ∀ d, d < 256 → ((d &&& 4) ||| (shl8 d 1 &&& 2)) = 4 * (d / 4 % 2) + 2 * (d % 2) := by
  decide +kernel

theorem b_5_e0 : ∀ d, d < 256 → shl8 d 5 &&& 0xe0 = d % 8 * 32 := by decide +kernel
theorem b_10 : ∀ d, d < 256 → d &&& 0x10 = d / 16 % 2 * 16 := by decide +kernel
theorem b_8 : ∀ d, d < 256 → ((d &&& 8) ||| (shl8 d 1 &&& 6)) = d / 8 % 2 * 8 + d % 4 * 2 := by
  decide +kernel
theorem b_3_10 : ∀ d, d < 256 → d >>> 3 &&& 0x10 = d / 128 * 16 := by decide +kernel
theorem b_7_80 : ∀ d, d < 256 → shl8 d 7 &&& 0x80 = d % 2 * 128 := by decide +kernel
theorem b_7e : ∀ d, d < 256 → d &&& 0x7e = d / 2 % 64 * 2 := by decide +kernel
theorem b_26 : ∀ d, d < 256 → shl8 d 2 &&& 0x60 = d / 8 % 4 * 32 := by decide +kernel
theorem b_38 : ∀ d, d < 256 → shl8 d 3 &&& 0x18 = d % 4 * 8 := by decide +kernel
theorem b_5_4 : ∀ d, d < 256 → d >>> 5 &&& 4 = d / 128 * 4 := by decide +kernel
theorem b_1_7c : ∀ d, d < 256 → d >>> 1 &&& 0x7c = d / 8 * 4 := by decide +kernel
theorem b_3_1c : ∀ d, d < 256 → d >>> 3 &&& 0x1c = d / 32 * 4 := by decide +kernel
theorem b_1_3 : ∀ d, d < 256 → d >>> 1 &&& 3 = d % 8 / 2 := by decide +kernel
theorem b_3_f8 : ∀ d, d < 256 → shl8 d 3 &&& 0xf8 = d % 32 * 8 := by decide +kernel
theorem b_5_6 : ∀ d, d < 256 → d >>> 5 &&& 6 = d / 64 * 2 := by decide +kernel
theorem b_4_1 : ∀ d, d < 256 → d >>> 4 &&& 1 = d % 32 / 16 := by decide +kernel
theorem pO0 : ∀ d, d < 256 → ((shl8 d 1 &&& 0xfc) ||| (d >>> 5 &&& 3)) =
    Spec.expand6 (d / 2 % 64) := by decide +kernel
theorem pH0 : ∀ d, d < 256 → ((shl8 d 1 &&& 0xf8) ||| (shl8 d 2 &&& 4) ||| (d >>> 5 &&& 3)) =
    Spec.expand6 (2 * (d / 4 % 32) + d % 2) := by decide +kernel
theorem pH1 : ∀ d, d < 256 → ((d &&& 0xfe) ||| d >>> 7) = Spec.Etc.expand7 (d / 2) := by
  decide +kernel
theorem pV2 : ∀ d, d < 256 → (shl8 d 2 ||| (d >>> 4 &&& 3)) = Spec.expand6 (d % 64) := by
  decide +kernel

/-! Two parts joined, for every value of the parts. -/

theorem j_green : ∀ a, a < 8 → ∀ b, b < 2 → ((a * 32 ||| b * 16) ||| (a * 32 ||| b * 16) >>> 4) =
    Spec.Etc.expand4 (2 * a + b) := by decide +kernel
theorem j_blue : ∀ a, a < 2 → ∀ b, b < 4 → ∀ c, c < 2 →
    (((a * 8 + b * 2) ||| c) ||| shl8 ((a * 8 + b * 2) ||| c) 4) =
    Spec.Etc.expand4 (8 * a + 2 * b + c) := by decide +kernel
theorem j_O1 : ∀ a, a < 2 → ∀ b, b < 64 → (a * 128 ||| b * 2 ||| a) =
    Spec.Etc.expand7 (64 * a + b) := by decide +kernel
theorem j_O2 : ∀ a, a < 2 → ∀ b, b < 4 → ∀ c, c < 4 → ∀ e, e < 2 →
    ((a * 128 ||| b * 32 ||| c * 8 ||| e * 4) ||| (a * 128 ||| b * 32 ||| c * 8 ||| e * 4) >>> 6) =
    Spec.expand6 (32 * a + 8 * b + 2 * c + e) := by decide +kernel
theorem j_H2 : ∀ a, a < 2 → ∀ b, b < 32 → ((a * 128 ||| b * 4) ||| (a * 128 ||| b * 4) >>> 6) =
    Spec.expand6 (32 * a + b) := by decide +kernel
theorem j_V0 : ∀ a, a < 8 → ∀ b, b < 8 → (a * 32 ||| b * 4 ||| a / 2) =
    Spec.expand6 (8 * a + b) := by decide +kernel
theorem j_V1 : ∀ a, a < 32 → ∀ b, b < 4 → (a * 8 ||| b * 2 ||| a / 16) =
    Spec.Etc.expand7 (4 * a + b) := by decide +kernel

/-! ## Colours -/

theorem fn_ext {c : Rgb} {f : Nat → Nat} (h0 : c.1 = f 0) (h1 : c.2.1 = f 1) (h2 : c.2.2 = f 2) :
    ∀ ch, ch < 3 → fn c ch = f ch := by
  intro ch hch
  have : ch = 0 ∨ ch = 1 ∨ ch = 2 := by omega
  rcases this with rfl | rfl | rfl <;> unfold fn <;> simp [h0, h1, h2]

theorem expand4_lt {v : Nat} (h : v < 16) : Spec.Etc.expand4 v < 256 := by
  unfold Spec.Etc.expand4; omega
theorem expand5_lt {v : Nat} (h : v < 32) : Spec.expand5 v < 256 := by
  unfold Spec.expand5; omega
theorem expand6_lt {v : Nat} (h : v < 64) : Spec.expand6 v < 256 := by
  unfold Spec.expand6; omega
theorem expand7_lt {v : Nat} (h : v < 128) : Spec.Etc.expand7 v < 256 := by
  unfold Spec.Etc.expand7; omega

theorem bits_lt (blk : List UInt8) (hi lo : Nat) : Spec.Etc.bits blk hi lo < 2 ^ (hi + 1 - lo) :=
  Nat.mod_lt _ (Nat.two_pow_pos _)

theorem individual_eq (h : IsBytes d blk) (snd : Bool) :
    ∀ ch, ch < 3 → fn (if snd then (etcIndividual d).2 else (etcIndividual d).1) ch =
      Spec.Etc.individual blk snd ch := by
  have := h.h0; have := h.h1; have := h.h2; have := h.h3
  have := h.h4; have := h.h5; have := h.h6; have := h.h7
  cases snd
  · apply fn_ext
    · show _ ||| _ = Spec.Etc.expand4 _
      rw [hi4 _ h.h0, bits_eq h]; congr 1; simp only [Nat.reduceMul, Nat.reduceSub, Nat.reduceAdd]; omega
    · show _ ||| _ = Spec.Etc.expand4 _
      rw [hi4 _ h.h1, bits_eq h]; congr 1; simp only [Nat.reduceMul, Nat.reduceSub, Nat.reduceAdd]; omega
    · show _ ||| _ = Spec.Etc.expand4 _
      rw [hi4 _ h.h2, bits_eq h]; congr 1; simp only [Nat.reduceMul, Nat.reduceSub, Nat.reduceAdd]; omega
  · apply fn_ext
    · show _ ||| _ = Spec.Etc.expand4 _
      rw [lo4 _ h.h0, bits_eq h]; congr 1; simp only [Nat.reduceMul, Nat.reduceSub, Nat.reduceAdd]; omega
    · show _ ||| _ = Spec.Etc.expand4 _
      rw [lo4 _ h.h1, bits_eq h]; congr 1; simp only [Nat.reduceMul, Nat.reduceSub, Nat.reduceAdd]; omega
    · show _ ||| _ = Spec.Etc.expand4 _
      rw [lo4 _ h.h2, bits_eq h]; congr 1; simp only [Nat.reduceMul, Nat.reduceSub, Nat.reduceAdd]; omega

/-- Numeric facts about the bytes, for `omega`. -/
theorem IsBytes.lt (h : IsBytes d blk) : d.d0 < 256 ∧ d.d1 < 256 ∧ d.d2 < 256 ∧ d.d3 < 256 ∧
    d.d4 < 256 ∧ d.d5 < 256 ∧ d.d6 < 256 ∧ d.d7 < 256 :=
  ⟨h.h0, h.h1, h.h2, h.h3, h.h4, h.h5, h.h6, h.h7⟩

/-- The byte of a channel. -/
def chByte (d : Bytes8) (ch : Nat) : Nat := if ch = 0 then d.d0 else if ch = 1 then d.d1 else d.d2

theorem chByte_lt (h : IsBytes d blk) (ch : Nat) : chByte d ch < 256 := by
  have := h.lt
  unfold chByte; split
  · omega
  · split <;> omega

theorem bits_hi5 (h : IsBytes d blk) : ∀ ch, ch < 3 →
    Spec.Etc.bits blk (63 - 8 * ch) (59 - 8 * ch) = chByte d ch / 8 := by
  have := h.lt
  intro ch hch
  have : ch = 0 ∨ ch = 1 ∨ ch = 2 := by omega
  rcases this with rfl | rfl | rfl <;> rw [bits_eq h] <;>
    simp only [Nat.reduceMul, Nat.reduceSub, Nat.reduceAdd, chByte, if_true,
      Nat.reduceEqDiff, if_false, Nat.one_ne_zero] <;> omega

theorem bits_lo3 (h : IsBytes d blk) : ∀ ch, ch < 3 →
    Spec.Etc.bits blk (58 - 8 * ch) (56 - 8 * ch) = chByte d ch % 8 := by
  have := h.lt
  intro ch hch
  have : ch = 0 ∨ ch = 1 ∨ ch = 2 := by omega
  rcases this with rfl | rfl | rfl <;> rw [bits_eq h] <;>
    simp only [Nat.reduceMul, Nat.reduceSub, Nat.reduceAdd, chByte, if_true,
      Nat.reduceEqDiff, if_false, Nat.one_ne_zero] <;> omega

theorem diffSum_eq (h : IsBytes d blk) (ch : Nat) (hch : ch < 3) : Spec.Etc.diffSum blk ch =
    ((chByte d ch / 8 : Nat) : Int) + Spec.Etc.signed3 (chByte d ch % 8) := by
  unfold Spec.Etc.diffSum
  rw [bits_hi5 h ch hch, bits_lo3 h ch hch]

theorem differential1_eq (h : IsBytes d blk) (snd : Bool) :
    ∀ ch, ch < 3 → fn (if snd then (etc1Differential d).2 else (etc1Differential d).1) ch =
      Spec.Etc.differential blk snd ch := by
  have key : ∀ ch, ch < 3 → Spec.Etc.differential blk snd ch =
      if snd then rep5 (etc1Second (chByte d ch)) else rep5 (chByte d ch &&& 0xf8) := by
    intro ch hch
    unfold Spec.Etc.differential
    rw [hi5 _ (chByte_lt h ch), second5 _ (chByte_lt h ch), diffSum_eq h ch hch, bits_hi5 h ch hch]
  intro ch hch
  rw [key ch hch]
  have : ch = 0 ∨ ch = 1 ∨ ch = 2 := by omega
  rcases this with rfl | rfl | rfl <;> cases snd <;> rfl

theorem rep5_mul8 : ∀ s, s < 32 → rep5 (8 * s) = Spec.expand5 s := by decide +kernel
theorem hi5' : ∀ d, d < 256 → asU 8 (rep5 (d &&& 0xf8)) = Spec.expand5 (d / 8) := by decide +kernel

theorem rep5_sum {s : Int} (h0 : ¬ (s < 0 ∨ 31 < s)) :
    rep5 (asUI 8 (8 * s)) = Spec.expand5 (s % 32).toNat := by
  rw [← rep5_mul8 _ (by omega)]
  congr 1
  unfold asUI
  omega

theorem differential2_eq (h : IsBytes d blk) (hov : ∀ ch, ch < 3 → ¬ Spec.Etc.overflows blk ch)
    (snd : Bool) :
    ∀ ch, ch < 3 → fn (if snd then (etc2Differential d (8 * Spec.Etc.diffSum blk 0)
        (8 * Spec.Etc.diffSum blk 1) (8 * Spec.Etc.diffSum blk 2)).2 else
        (etc2Differential d (8 * Spec.Etc.diffSum blk 0)
        (8 * Spec.Etc.diffSum blk 1) (8 * Spec.Etc.diffSum blk 2)).1) ch =
      Spec.Etc.differential blk snd ch := by
  have key : ∀ ch, ch < 3 → Spec.Etc.differential blk snd ch =
      if snd then rep5 (asUI 8 (8 * Spec.Etc.diffSum blk ch))
      else asU 8 (rep5 (chByte d ch &&& 0xf8)) := by
    intro ch hch
    unfold Spec.Etc.differential
    rw [hi5' _ (chByte_lt h ch), bits_hi5 h ch hch, rep5_sum (hov ch hch)]
  intro ch hch
  rw [key ch hch]
  have : ch = 0 ∨ ch = 1 ∨ ch = 2 := by omega
  rcases this with rfl | rfl | rfl <;> cases snd <;> rfl

theorem tBase_eq (h : IsBytes d blk) :
    (∀ ch, ch < 3 → fn (etc2T d).1 ch = Spec.Etc.tBase1 blk ch) ∧
    ∀ ch, ch < 3 → fn (etc2T d).2 ch = Spec.Etc.tBase2 blk ch := by
  have := h.lt
  constructor
  · apply fn_ext
    · show _ ||| _ ||| _ ||| _ = Spec.Etc.expand4 (4 * Spec.Etc.bits blk 60 59 + Spec.Etc.bits blk 57 56)
      rw [tRed _ h.h0, bits_eq h, bits_eq h]; congr 1
      simp only [Nat.reduceMul, Nat.reduceSub, Nat.reduceAdd]; omega
    · show _ ||| _ = Spec.Etc.expand4 (Spec.Etc.bits blk 55 52)
      rw [hi4 _ h.h1, bits_eq h]; congr 1
      simp only [Nat.reduceMul, Nat.reduceSub, Nat.reduceAdd]; omega
    · show _ ||| _ = Spec.Etc.expand4 (Spec.Etc.bits blk 51 48)
      rw [lo4 _ h.h1, bits_eq h]; congr 1
      simp only [Nat.reduceMul, Nat.reduceSub, Nat.reduceAdd]; omega
  · apply fn_ext
    · show _ ||| _ = Spec.Etc.expand4 (Spec.Etc.bits blk 47 44)
      rw [hi4 _ h.h2, bits_eq h]; congr 1
      simp only [Nat.reduceMul, Nat.reduceSub, Nat.reduceAdd]; omega
    · show _ ||| _ = Spec.Etc.expand4 (Spec.Etc.bits blk 43 40)
      rw [lo4 _ h.h2, bits_eq h]; congr 1
      simp only [Nat.reduceMul, Nat.reduceSub, Nat.reduceAdd]; omega
    · show _ ||| _ = Spec.Etc.expand4 (Spec.Etc.bits blk 39 36)
      rw [hi4 _ h.h3, bits_eq h]; congr 1
      simp only [Nat.reduceMul, Nat.reduceSub, Nat.reduceAdd]; omega

theorem tDistance_eq (h : IsBytes d blk) : ((d.d3 >>> 1 &&& 6) ||| (d.d3 &&& 1)) =
    2 * Spec.Etc.bits blk 35 34 + Spec.Etc.bits blk 32 32 := by
  have := h.lt
  rw [tDist _ h.h3, bits_eq h, bits_eq h]
  simp only [Nat.reduceMul, Nat.reduceSub, Nat.reduceAdd]; omega

/-- The channels of the H base colours. -/
theorem hBase_eq (h : IsBytes d blk) :
    (etc2H d).1 = (Spec.Etc.expand4 (Spec.Etc.hRed1 blk), Spec.Etc.expand4 (Spec.Etc.hGreen1 blk),
      Spec.Etc.expand4 (Spec.Etc.hBlue1 blk)) ∧
    (etc2H d).2 = (Spec.Etc.expand4 (Spec.Etc.hRed2 blk), Spec.Etc.expand4 (Spec.Etc.hGreen2 blk),
      Spec.Etc.expand4 (Spec.Etc.hBlue2 blk)) := by
  have := h.lt
  unfold etc2H
  simp only
  rw [mid4 _ h.h0, mid4 _ h.h2, mid4 _ h.h3, b_5_e0 _ h.h0, b_5_e0 _ h.h2, b_10 _ h.h1, b_8 _ h.h1,
    b_3_10 _ h.h3, shr_eq d.d2 7, j_green _ (by omega) _ (by omega),
    j_blue _ (by omega) _ (by omega) _ (by omega), j_green _ (by omega) _ (by omega)]
  unfold Spec.Etc.hRed1 Spec.Etc.hGreen1 Spec.Etc.hBlue1 Spec.Etc.hRed2 Spec.Etc.hGreen2
    Spec.Etc.hBlue2
  simp only [bits_eq h, Nat.reduceMul, Nat.reduceSub, Nat.reduceAdd]
  refine ⟨Prod.ext ?_ (Prod.ext ?_ ?_), Prod.ext ?_ (Prod.ext ?_ ?_)⟩ <;> simp only <;> congr 1 <;>
    omega

theorem planar_eq (h : IsBytes d blk) :
    (∀ ch, ch < 3 → fn (etc2Planar d).1 ch = Spec.Etc.planarO blk ch) ∧
    (∀ ch, ch < 3 → fn (etc2Planar d).2.1 ch = Spec.Etc.planarH blk ch) ∧
    ∀ ch, ch < 3 → fn (etc2Planar d).2.2 ch = Spec.Etc.planarV blk ch := by
  have := h.lt
  have e : etc2Planar d = ((Spec.Etc.planarO blk 0, Spec.Etc.planarO blk 1, Spec.Etc.planarO blk 2),
      (Spec.Etc.planarH blk 0, Spec.Etc.planarH blk 1, Spec.Etc.planarH blk 2),
      (Spec.Etc.planarV blk 0, Spec.Etc.planarV blk 1, Spec.Etc.planarV blk 2)) := by
    unfold etc2Planar
    simp only
    rw [pO0 _ h.h0, b_7_80 _ h.h0, b_7e _ h.h1, and_1, b_7_80 _ h.h1, b_26 _ h.h2, b_38 _ h.h2,
      b_5_4 _ h.h3, pH0 _ h.h3, pH1 _ h.h4, b_7_80 _ h.h4, b_1_7c _ h.h5, b_5_e0 _ h.h5,
      b_3_1c _ h.h6, b_1_3 _ h.h5, b_3_f8 _ h.h6, b_5_6 _ h.h7, b_4_1 _ h.h6, pV2 _ h.h7,
      j_O1 _ (by omega) _ (by omega), j_O2 _ (by omega) _ (by omega) _ (by omega) _ (by omega),
      j_H2 _ (by omega) _ (by omega), j_V0 _ (by omega) _ (by omega), j_V1 _ (by omega) _ (by omega)]
    unfold Spec.Etc.planarO Spec.Etc.planarH Spec.Etc.planarV
    simp only [bits_eq h, Nat.reduceMul, Nat.reduceSub, Nat.reduceAdd, if_true, Nat.one_ne_zero,
      if_false, Nat.reduceEqDiff]
    refine Prod.ext (Prod.ext ?_ (Prod.ext ?_ ?_)) (Prod.ext (Prod.ext ?_ (Prod.ext ?_ ?_))
      (Prod.ext ?_ (Prod.ext ?_ ?_))) <;> simp only <;> congr 1 <;> omega
  rw [e]
  exact ⟨fn_ext rfl rfl rfl, fn_ext rfl rfl rfl, fn_ext rfl rfl rfl⟩

/-! ## The other fields -/

theorem diffBit_eq (h : IsBytes d blk) : Spec.Etc.diffBit blk = decide (d.d3 / 2 % 2 = 1) := by
  have := h.lt
  unfold Spec.Etc.diffBit
  rw [bits_eq h]
  simp only [Nat.reduceSub, Nat.reduceAdd]
  rw [Bool.eq_iff_iff, beq_iff_eq, decide_eq_true_eq]
  omega

theorem second_eq (h : IsBytes d blk) (q : Nat) : Spec.Etc.second blk q = secondOf d.d3 q := by
  have := h.lt
  unfold Spec.Etc.second secondOf
  have e : Spec.Etc.bits blk 32 32 = d.d3 % 2 := by
    rw [bits_eq h]; simp only [Nat.reduceSub, Nat.reduceAdd]; omega
  rw [e]

theorem codeword_eq (h : IsBytes d blk) (snd : Bool) :
    Spec.Etc.codeword blk snd = codewordOf d.d3 snd := by
  have := h.lt
  unfold Spec.Etc.codeword codewordOf
  rw [bits_eq h, bits_eq h]
  simp only [Nat.reduceSub, Nat.reduceAdd]
  split <;> omega

theorem index_eq (h : IsBytes d blk) {q : Nat} (hq : q < 16) :
    Spec.Etc.index blk q = indexOf (fromBE [d.d6, d.d7]) (fromBE [d.d4, d.d5]) q := by
  have := h.lt
  have ho : Spec.Etc.order q < 16 := by unfold Spec.Etc.order; omega
  have hN := h.be
  unfold Spec.Etc.index indexOf Spec.Etc.bits
  generalize Spec.beNat blk = N at *
  generalize Spec.Etc.order q = p at *
  rw [show 16 + p + 1 - (16 + p) = 1 by omega, show p + 1 - p = 1 by omega]
  have e1 : fromBE [d.d6, d.d7] = d.d6 * 256 + d.d7 := by
    show d.d7 + 256 * (d.d6 + 256 * 0) = _; omega
  have e2 : fromBE [d.d4, d.d5] = d.d4 * 256 + d.d5 := by
    show d.d5 + 256 * (d.d4 + 256 * 0) = _; omega
  rw [e1, e2, Nat.pow_add, ← Nat.div_div_eq_div_mul]
  have a1 : N / 2 ^ 16 % 65536 = d.d4 * 256 + d.d5 := by omega
  have a2 : N % 65536 = d.d6 * 256 + d.d7 := by omega
  rw [← a1, ← a2]
  have red : ∀ X, X % 65536 / 2 ^ p % 2 = X / 2 ^ p % 2 := by
    intro X
    rw [show 65536 = 2 ^ (p + (16 - p)) by rw [show p + (16 - p) = 16 by omega], Nat.pow_add,
      Nat.mod_mul_right_div_self]
    rw [show 2 = 2 ^ 1 from rfl, Nat.mod_mod_of_dvd _ (Nat.pow_dvd_pow 2 (by omega))]
  rw [red, red]

theorem be16_lt {a b : Nat} (ha : a < 256) (hb : b < 256) : fromBE [a, b] < 65536 := by
  show b + 256 * (a + 256 * 0) < _; omega

/-! ## All colours are bytes -/

theorem rgbOk_of {c : Rgb} {f : Nat → Nat} (h : ∀ ch, ch < 3 → fn c ch = f ch)
    (hf : ∀ ch, ch < 3 → f ch < 256) : RgbOk c := by
  have a := h 0 (by omega)
  have b := h 1 (by omega)
  have e := h 2 (by omega)
  have a' := hf 0 (by omega)
  have b' := hf 1 (by omega)
  have e' := hf 2 (by omega)
  rw [← a] at a'; rw [← b] at b'; rw [← e] at e'
  exact ⟨a', b', e'⟩

theorem individual_lt (blk : List UInt8) (snd : Bool) : ∀ ch, ch < 3 →
    Spec.Etc.individual blk snd ch < 256 := by
  intro ch hch
  unfold Spec.Etc.individual
  have h1 := bits_lt blk (59 - 8 * ch) (56 - 8 * ch)
  have h2 := bits_lt blk (63 - 8 * ch) (60 - 8 * ch)
  rw [show 59 - 8 * ch + 1 - (56 - 8 * ch) = 4 by omega] at h1
  rw [show 63 - 8 * ch + 1 - (60 - 8 * ch) = 4 by omega] at h2
  split <;> exact expand4_lt (by omega)

theorem differential_lt (blk : List UInt8) (snd : Bool) : ∀ ch, ch < 3 →
    Spec.Etc.differential blk snd ch < 256 := by
  intro ch hch
  unfold Spec.Etc.differential
  have h2 := bits_lt blk (63 - 8 * ch) (59 - 8 * ch)
  rw [show 63 - 8 * ch + 1 - (59 - 8 * ch) = 5 by omega] at h2
  split <;> exact expand5_lt (by omega)

theorem rgb4_lt {r g b : Nat} (hr : r < 16) (hg : g < 16) (hb : b < 16) : ∀ ch, ch < 3 →
    Spec.Etc.rgb4 r g b ch < 256 := by
  intro ch hch
  unfold Spec.Etc.rgb4
  apply expand4_lt
  split
  · exact hr
  · split <;> assumption

theorem planar_lt (blk : List UInt8) : ∀ ch, Spec.Etc.planarO blk ch < 256 ∧
    Spec.Etc.planarH blk ch < 256 ∧ Spec.Etc.planarV blk ch < 256 := by
  intro ch
  unfold Spec.Etc.planarO Spec.Etc.planarH Spec.Etc.planarV
  have := bits_lt blk 62 57
  have := bits_lt blk 56 56
  have := bits_lt blk 54 49
  have := bits_lt blk 48 48
  have := bits_lt blk 44 43
  have := bits_lt blk 41 39
  have := bits_lt blk 38 34
  have := bits_lt blk 32 32
  have := bits_lt blk 31 25
  have := bits_lt blk 24 19
  have := bits_lt blk 18 13
  have := bits_lt blk 12 6
  have := bits_lt blk 5 0
  simp only [Nat.reduceSub, Nat.reduceAdd, Nat.reducePow] at *
  refine ⟨?_, ?_, ?_⟩ <;> split
  any_goals (apply expand6_lt; omega)
  all_goals split
  any_goals (apply expand6_lt; omega)
  all_goals (apply expand7_lt; omega)

end

end Verif.Proofs
