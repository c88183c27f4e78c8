import Verif.Model.Atc
import Verif.Spec.Atc
import Verif.Proofs.Bcn
import Verif.Proofs.EtcBlock

/-! # ATC blocks refine their specification -/

namespace Verif.Proofs

open Verif Verif.Model

theorem atcExpand_ok5 [Build] {v : Nat} (h : v < 32) :
    atcExpand v 5 = .ok (Spec.expand5 v) := by
  have key : ∀ b : Bool, ∀ v, v < 32 → @atcExpand ⟨b⟩ v 5 = .ok (Spec.expand5 v) := by
    decide +kernel
  rename_i b
  exact key b.overflowChecks v h

theorem atcExpand_ok6 [Build] {v : Nat} (h : v < 64) :
    atcExpand v 6 = .ok (Spec.expand6 v) := by
  have key : ∀ b : Bool, ∀ v, v < 64 → @atcExpand ⟨b⟩ v 6 = .ok (Spec.expand6 v) := by
    decide +kernel
  rename_i b
  exact key b.overflowChecks v h

theorem interopColors_ok [Build] {a b : Nat} (ha : a < 256) (hb : b < 256) :
    interopColors a b = .ok ((5 * a + 3 * b) / 8) := by
  unfold interopColors
  rw [mulU_ok (by omega), Out.ok_bind, mulU_ok (by omega), Out.ok_bind, addU_ok (by omega),
    Out.ok_bind, divU_ok (by omega), Out.ok_bind, Out.pure_eq]
  unfold asU
  rw [Nat.mod_eq_of_lt (by omega)]

theorem atcDark_eq {a b : Nat} (ha : a < 256) (hb : b < 256) :
    atcDark a b = (((a : Int) - b) / 4 % 256).toNat := by
  unfold atcDark asU
  omega

theorem atcFirst_ok [Build] (c0 : Nat) : atcFirst c0 =
    .ok (Spec.expand5 (c0 % 32), Spec.expand5 (c0 / 32 % 32), Spec.expand5 (c0 / 1024 % 32)) := by
  unfold atcFirst
  simp only [shr_eq, and_31]
  unfold asU
  rw [Nat.mod_eq_of_lt (a := c0 / 2 ^ 0 % 32) (by omega),
    Nat.mod_eq_of_lt (a := c0 / 2 ^ 5 % 32) (by omega),
    Nat.mod_eq_of_lt (a := c0 / 2 ^ 10 % 32) (by omega),
    atcExpand_ok5 (by omega), Out.ok_bind, atcExpand_ok5 (by omega), Out.ok_bind,
    atcExpand_ok5 (by omega), Out.ok_bind, Nat.pow_zero, Nat.div_one]
  rfl

theorem atcSecond_ok [Build] (c1 : Nat) : atcSecond c1 =
    .ok (Spec.expand5 (c1 % 32), Spec.expand6 (c1 / 32 % 64), Spec.expand5 (c1 / 2048 % 32)) := by
  unfold atcSecond
  simp only [shr_eq, and_31, and_63]
  unfold asU
  rw [Nat.mod_eq_of_lt (a := c1 / 2 ^ 0 % 32) (by omega),
    Nat.mod_eq_of_lt (a := c1 / 2 ^ 5 % 64) (by omega),
    Nat.mod_eq_of_lt (a := c1 / 2 ^ 11 % 32) (by omega),
    atcExpand_ok5 (by omega), Out.ok_bind, atcExpand_ok6 (by omega), Out.ok_bind,
    atcExpand_ok5 (by omega), Out.ok_bind, Nat.pow_zero, Nat.div_one]
  rfl

theorem atc_end0 (blk : List UInt8) :
    Spec.Atc.end0 blk 2 = Spec.expand5 (Spec.field blk 0 16 % 32) ∧
    Spec.Atc.end0 blk 1 = Spec.expand5 (Spec.field blk 0 16 / 32 % 32) ∧
    Spec.Atc.end0 blk 0 = Spec.expand5 (Spec.field blk 0 16 / 1024 % 32) := by
  simp only [Spec.Atc.end0, Spec.field, Nat.one_ne_zero, Nat.reduceEqDiff, if_true, if_false]
  generalize Spec.leNat blk = N
  refine ⟨?_, ?_, ?_⟩ <;> congr 1 <;> omega

theorem atc_end1 (blk : List UInt8) :
    Spec.Atc.end1 blk 2 = Spec.expand5 (Spec.field blk 16 16 % 32) ∧
    Spec.Atc.end1 blk 1 = Spec.expand6 (Spec.field blk 16 16 / 32 % 64) ∧
    Spec.Atc.end1 blk 0 = Spec.expand5 (Spec.field blk 16 16 / 2048 % 32) := by
  simp only [Spec.Atc.end1, Spec.field, Nat.one_ne_zero, Nat.reduceEqDiff, if_true, if_false]
  generalize Spec.leNat blk = N
  refine ⟨?_, ?_, ?_⟩ <;> congr 1 <;> omega

theorem atc_end0_lt (blk : List UInt8) (ch : Nat) : Spec.Atc.end0 blk ch < 256 := by
  unfold Spec.Atc.end0
  repeat' split
  all_goals exact expand5_lt (field_lt _ _ 5)

theorem atc_end1_lt (blk : List UInt8) (ch : Nat) : Spec.Atc.end1 blk ch < 256 := by
  unfold Spec.Atc.end1
  repeat' split
  · exact expand5_lt (field_lt _ _ 5)
  · exact expand6_lt (field_lt _ _ 6)
  · exact expand5_lt (field_lt _ _ 5)

theorem atc_alternate (blk : List UInt8) :
    (0 = Spec.field blk 0 16 &&& 0x8000) ↔ Spec.Atc.alternate blk = false := by
  have := and_mask_shift (Spec.field blk 0 16) 1 15
  rw [show (2 ^ 1 - 1) * 2 ^ 15 = 0x8000 from rfl] at this
  rw [this]
  unfold Spec.Atc.alternate Spec.field
  generalize Spec.leNat blk = N
  rw [beq_eq_false_iff_ne]
  omega

theorem atcColors_ok [Build] (blk : List UInt8) :
    ∃ cs, atcColors (Spec.field blk 0 16) (Spec.field blk 16 16) = .ok cs ∧
      ∀ k ch, k < 4 → ch < 3 → cs[4 * k + (2 - ch)]? = some
        ((if Spec.Atc.alternate blk then Spec.Atc.alternateEntryAsIs else Spec.Atc.normalEntry)
          (Spec.Atc.end0 blk ch) (Spec.Atc.end1 blk ch) k) := by
  have F := atcFirst_ok (Spec.field blk 0 16)
  have S := atcSecond_ok (Spec.field blk 16 16)
  obtain ⟨e02, e01, e00⟩ := atc_end0 blk
  obtain ⟨e12, e11, e10⟩ := atc_end1 blk
  rw [← e02, ← e01, ← e00] at F
  rw [← e12, ← e11, ← e10] at S
  have A := atc_alternate blk
  have l0 := atc_end0_lt blk
  have l1 := atc_end1_lt blk
  generalize Spec.Atc.end0 blk = e0 at *
  generalize Spec.Atc.end1 blk = e1 at *
  have cases3 : ∀ ch, ch < 3 → ch = 0 ∨ ch = 1 ∨ ch = 2 := by omega
  have cases4 : ∀ k, k < 4 → k = 0 ∨ k = 1 ∨ k = 2 ∨ k = 3 := by omega
  unfold atcColors
  cases h : Spec.Atc.alternate blk
  · rw [if_pos (A.mpr h), F, Out.ok_bind]
    simp only
    rw [S, Out.ok_bind]
    simp only
    rw [interopColors_ok (l0 2) (l1 2), Out.ok_bind, interopColors_ok (l0 1) (l1 1), Out.ok_bind,
      interopColors_ok (l0 0) (l1 0), Out.ok_bind, interopColors_ok (l1 2) (l0 2), Out.ok_bind,
      interopColors_ok (l1 1) (l0 1), Out.ok_bind, interopColors_ok (l1 0) (l0 0), Out.ok_bind]
    refine ⟨_, rfl, ?_⟩
    intro k ch hk hch
    rcases cases4 k hk with rfl | rfl | rfl | rfl <;>
      rcases cases3 ch hch with rfl | rfl | rfl <;>
      simp [Spec.Atc.normalEntry] <;> omega
  · rw [if_neg (fun t => absurd (h.symm.trans (A.mp t)) Bool.noConfusion), F, Out.ok_bind]
    simp only
    rw [S, Out.ok_bind]
    refine ⟨_, rfl, ?_⟩
    intro k ch hk hch
    rw [atcDark_eq (l0 2) (l1 2), atcDark_eq (l0 1) (l1 1), atcDark_eq (l0 0) (l1 0)]
    rcases cases4 k hk with rfl | rfl | rfl | rfl <;>
      rcases cases3 ch hch with rfl | rfl | rfl <;> rfl

variable [Build]

theorem decodeAtcRgb4_spec {data : List UInt8} {out : List UInt32} (hd : 8 ≤ data.length)
    (ho : 16 ≤ out.length) :
    Paints (decodeAtcRgb4Block data out) out (Spec.Atc.rgbTexelAsIs (data.take 8)) := by
  have hf0 : Spec.field (data.take 8) 0 16 = Spec.leNat data / 2 ^ (8 * 0) % 2 ^ 16 :=
    field_take (by omega)
  have hf1 : Spec.field (data.take 8) 16 16 = Spec.leNat data / 2 ^ (8 * 2) % 2 ^ 16 :=
    field_take (by omega)
  obtain ⟨cs, hcs, hget⟩ := atcColors_ok (data.take 8)
  unfold decodeAtcRgb4Block
  rw [u16LE_eq (by omega), Out.ok_bind, u16LE_eq (by omega), Out.ok_bind, ← hf0, ← hf1, hcs,
    Out.ok_bind]
  simp only
  obtain ⟨o, e, hl, h1, h2⟩ := pixelLoop (n := 16)
    (f := fun i (s : Nat × List UInt32) => do
      let (next, outbuf) := s
      let b ← byte data (next >>> 3)
      let b ← shrU 8 b (next &&& 7)
      let k ← mulU 8 (b &&& 3) 4
      let k2 ← addU 64 k 2
      let r ← idx cs k2
      let k1 ← addU 64 k 1
      let g ← idx cs k1
      let b ← idx cs k
      let outbuf ← setIdx outbuf i (color r g b 255)
      let next ← addU 64 next 2
      pure (next, outbuf))
    (fun i => 32 + 2 * i) (fun i _ => Spec.Atc.rgbTexelAsIs (data.take 8) i) out ho
    (by
      intro i hi o p hol hp
      simp only
      have hk : Spec.leNat data / 2 ^ (8 * ((32 + 2 * i) >>> 3)) % 256 / 2 ^ ((32 + 2 * i) % 8) % 4 =
          Spec.Atc.index (data.take 8) i := by
        unfold Spec.Atc.index
        rw [field_take (by omega), shr_eq]
        have e1 : 32 + 2 * i = 8 * ((32 + 2 * i) / 2 ^ 3) + (32 + 2 * i) % 8 := by omega
        have e2 : (32 + 2 * i) % 8 + 2 ≤ 8 := by omega
        generalize (32 + 2 * i) / 2 ^ 3 = a at *
        generalize (32 + 2 * i) % 8 = b at *
        rw [e1, Nat.pow_add, ← Nat.div_div_eq_div_mul]
        generalize Spec.leNat data / 2 ^ (8 * a) = D
        rw [show D % 256 = D % 2 ^ (b + (8 - b)) by rw [show b + (8 - b) = 8 by omega],
          Nat.pow_add, Nat.mod_mul_right_div_self, show 4 = 2 ^ 2 from rfl,
          Nat.mod_mod_of_dvd _ (Nat.pow_dvd_pow 2 (by omega))]
      rw [byte_eq (by rw [shr_eq]; omega), Out.ok_bind, and_7, shrU_ok (by omega), Out.ok_bind, and_3,
        shr_eq _ ((32 + 2 * i) % 8), hk]
      have hk4 : Spec.Atc.index (data.take 8) i < 4 := field_lt _ _ 2
      unfold Spec.Atc.rgbTexelAsIs Spec.Atc.texelWith
      generalize Spec.Atc.index (data.take 8) i = k at *
      rw [mulU_ok (by omega), Out.ok_bind, addU_ok (by omega), Out.ok_bind, Nat.mul_comm k 4,
        idx_of_some (hget k 0 hk4 (by omega)), Out.ok_bind, addU_ok (by omega), Out.ok_bind,
        idx_of_some (hget k 1 hk4 (by omega)), Out.ok_bind,
        idx_of_some (show cs[4 * k]? = _ from hget k 2 hk4 (by omega)), Out.ok_bind, setIdx_ok (by omega), Out.ok_bind,
        addU_ok (by omega), Out.ok_bind, color_eq]
      rfl)
  simp only [Nat.mul_zero, Nat.add_zero] at e
  rw [e]
  refine ⟨o, rfl, hl, ?_, h2⟩
  intro i hi
  rw [h1 i hi, List.getElem?_eq_getElem (by omega)]
  rfl

theorem atcRgba8_contract :
    BlockContract decodeAtcRgba8Block (4 * 4) 16 (fun _ => True) Spec.Atc.rgbaTexelAsIs
      (fun buf => buf.length = 16) where
  init := by simp
  step := by
    intro data buf hd _ hb
    obtain ⟨o, e, hl, h1, _⟩ := decodeAtcRgb4_spec (data := data.drop 8)
      (by simp; omega) (out := buf) (by omega)
    obtain ⟨o2, e2, hl2, h3⟩ := decodeBc3Alpha_spec (c := 3) (data := data) (by omega) (out := o)
      (by omega)
    refine ⟨o2, ?_, by omega, by omega, ?_⟩
    · unfold decodeAtcRgba8Block
      rw [sliceFrom_ok (by omega), Out.ok_bind, e, Out.ok_bind, e2]
    · intro i hi
      rw [h3 i hi, h1 i hi]
      unfold Spec.Atc.rgbaTexelAsIs
      rw [drop_take16, ← bc3Value_take16 hi, Option.map_some, setChannel_3 _ (bc3Value_lt _ _)]

/-! ## Laws -/

omit [Build] in
theorem atc_texel_same (blk : List UInt8) (i : Nat)
    (hb : Spec.Atc.alternate blk = false ∨ Spec.Atc.index blk i ≠ 1) :
    Spec.Atc.rgbTexelAsIs blk i = Spec.Atc.rgbTexel blk i := by
  unfold Spec.Atc.rgbTexelAsIs Spec.Atc.rgbTexel Spec.Atc.texelWith
  rcases hb with hb | hb
  · simp only [hb, Bool.false_eq_true, if_false]
  · have : ∀ a b, Spec.Atc.alternateEntryAsIs a b (Spec.Atc.index blk i) =
        Spec.Atc.alternateEntry a b (Spec.Atc.index blk i) := by
      intro a b
      generalize Spec.Atc.index blk i = k at *
      match k, hb with
      | 0, _ => rfl
      | 1, hb => exact absurd rfl hb
      | 2, _ => rfl
      | _ + 3, _ => rfl
    cases Spec.Atc.alternate blk <;> simp only [Bool.false_eq_true, if_false, if_true, this]

omit [Build] in
theorem withAlpha_channels (p q : UInt32) (a : Nat) (ha : a < 256) :
    Spec.red (Spec.withAlpha p a) = Spec.red p ∧ Spec.green (Spec.withAlpha p a) = Spec.green p ∧
    Spec.blue (Spec.withAlpha p a) = Spec.blue p ∧
    Spec.alpha (Spec.withAlpha p a) = Spec.alpha (Spec.withAlpha q a) := by
  unfold Spec.withAlpha
  rw [red_px (red_lt p) (green_lt p) (blue_lt p) ha, green_px (red_lt p) (green_lt p) (blue_lt p) ha,
    blue_px (red_lt p) (green_lt p) (blue_lt p) ha, alpha_px (red_lt p) (green_lt p) (blue_lt p) ha,
    alpha_px (red_lt q) (green_lt q) (blue_lt q) ha]
  exact ⟨rfl, rfl, rfl, rfl⟩

end Verif.Proofs
