import Verif.Spec.Channels
import Verif.Proofs.ImageLaws
import Verif.Proofs.EtcLaws

/-! # The channels that a format does not have -/

namespace Verif.Proofs

open Verif.Spec

theorem bc1Texel_alpha (pt : Bool) (blk : List UInt8) (i : Nat) :
    alpha (bc1Texel pt blk i)
      = if pt ∧ ¬ field blk 0 16 > field blk 16 16 ∧ field blk (32 + 2 * i) 2 = 3 then 0 else 255 := by
  have hq0 := field_lt blk 0 16
  have hq1 := field_lt blk 16 16
  unfold bc1Texel
  simp only [decide_eq_true_eq]
  refine alpha_px (bc1Channel_lt (red565_lt hq0) (red565_lt hq1))
    (bc1Channel_lt (green565_lt _) (green565_lt _)) (bc1Channel_lt (blue565_lt _) (blue565_lt _)) ?_
  split <;> decide

theorem atcEntry_lt {alt : Bool} {c0 c1 k : Nat} (h0 : c0 < 256) (h1 : c1 < 256) :
    (if alt then Atc.alternateEntryAsIs else Atc.normalEntry) c0 c1 k < 256 := by
  cases alt
  · show Atc.normalEntry c0 c1 k < 256
    unfold Atc.normalEntry; split <;> omega
  · show Atc.alternateEntryAsIs c0 c1 k < 256
    unfold Atc.alternateEntryAsIs; split <;> omega

theorem atcTexel_alpha (blk : List UInt8) (i : Nat) : alpha (Atc.rgbTexelAsIs blk i) = 255 :=
  alpha_px (atcEntry_lt (atc_end0_lt _ _) (atc_end1_lt _ _))
    (atcEntry_lt (atc_end0_lt _ _) (atc_end1_lt _ _))
    (atcEntry_lt (atc_end0_lt _ _) (atc_end1_lt _ _)) (by decide)

theorem texel_noAlpha {fmt : Format} (hf : fmt.NoAlpha) (blk : List UInt8) (i : Nat) :
    alpha (fmt.texel blk i) = 255 := by
  have z : (0 : Nat) < 256 := by decide
  have f : (255 : Nat) < 256 := by decide
  unfold Format.NoAlpha at hf
  simp only [List.mem_cons, List.not_mem_nil, or_false] at hf
  rcases hf with rfl | rfl | rfl | rfl | rfl | rfl | rfl | rfl | rfl | rfl
  · exact (bc1Texel_alpha false blk i).trans (by simp)
  · exact alpha_px (bc3Value_lt _ _) z z f
  · exact alpha_px (bc3Value_lt _ _) (bc3Value_lt _ _) z f
  · exact alpha_etc1Texel _ _
  · exact alpha_etc2RgbTexel _ _
  · exact alpha_px (eac8_lt _ _ _) z z f
  · exact alpha_px (eac8_lt _ _ _) z z f
  · exact alpha_px (eac8_lt _ _ _) (eac8_lt _ _ _) z f
  · exact alpha_px (eac8_lt _ _ _) (eac8_lt _ _ _) z f
  · exact atcTexel_alpha _ _

theorem texel_oneBitAlpha {fmt : Format} (hf : fmt.OneBitAlpha) (blk : List UInt8) (i : Nat) :
    alpha (fmt.texel blk i) = 0 ∨ alpha (fmt.texel blk i) = 255 := by
  unfold Format.OneBitAlpha at hf
  simp only [List.mem_cons, List.not_mem_nil, or_false] at hf
  rcases hf with rfl | rfl
  · show alpha (bc1Texel true blk i) = 0 ∨ alpha (bc1Texel true blk i) = 255
    rw [bc1Texel_alpha]; split <;> simp
  · show alpha (Etc.etc2Rgba1Texel blk i) = 0 ∨ alpha (Etc.etc2Rgba1Texel blk i) = 255
    rw [alpha_etc2Rgba1Texel]; split <;> simp

theorem texel_redOnly {fmt : Format} (hf : fmt.RedOnly) (blk : List UInt8) (i : Nat) :
    green (fmt.texel blk i) = 0 ∧ blue (fmt.texel blk i) = 0 := by
  have z : (0 : Nat) < 256 := by decide
  have f : (255 : Nat) < 256 := by decide
  unfold Format.RedOnly at hf
  simp only [List.mem_cons, List.not_mem_nil, or_false] at hf
  rcases hf with rfl | rfl | rfl
  · exact ⟨green_px (bc3Value_lt _ _) z z f, blue_px (bc3Value_lt _ _) z z f⟩
  · exact ⟨green_px (eac8_lt _ _ _) z z f, blue_px (eac8_lt _ _ _) z z f⟩
  · exact ⟨green_px (eac8_lt _ _ _) z z f, blue_px (eac8_lt _ _ _) z z f⟩

theorem texel_redGreenOnly {fmt : Format} (hf : fmt.RedGreenOnly) (blk : List UInt8) (i : Nat) :
    blue (fmt.texel blk i) = 0 := by
  have z : (0 : Nat) < 256 := by decide
  have f : (255 : Nat) < 256 := by decide
  unfold Format.RedGreenOnly at hf
  simp only [List.mem_cons, List.not_mem_nil, or_false] at hf
  rcases hf with rfl | rfl | rfl
  · exact blue_px (bc3Value_lt _ _) (bc3Value_lt _ _) z f
  · exact blue_px (eac8_lt _ _ _) (eac8_lt _ _ _) z f
  · exact blue_px (eac8_lt _ _ _) (eac8_lt _ _ _) z f

theorem legal_of {fmt : Format} (h : fmt ≠ .bc6s ∧ fmt ≠ .bc6u) (data : List UInt8) (w ht : Nat) :
    fmt.AllLegal data w ht := by
  intro k _
  cases fmt <;> first | trivial | (exact absurd rfl h.1) | (exact absurd rfl h.2)

end Verif.Proofs
