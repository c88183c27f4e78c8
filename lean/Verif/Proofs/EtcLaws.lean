import Verif.Proofs.Eac

/-! # Consequences of the ETC colour definitions -/

namespace Verif.Proofs

open Verif Verif.Spec.Etc

theorem alpha_shade (c : Nat → Nat) (m : Int) {a : Nat} (ha : a < 256) :
    Spec.alpha (shade c m a) = a :=
  alpha_px (clamp255_lt _) (clamp255_lt _) (clamp255_lt _) ha

theorem alpha_tPaint (blk : List UInt8) (idx : Nat) {a : Nat} (ha : a < 256) :
    Spec.alpha (tPaint blk idx a) = a := by
  unfold tPaint
  simp only
  repeat' split
  all_goals exact alpha_shade _ _ ha

theorem alpha_hPaint (blk : List UInt8) (idx : Nat) {a : Nat} (ha : a < 256) :
    Spec.alpha (hPaint blk idx a) = a := by
  unfold hPaint
  simp only
  repeat' split
  all_goals exact alpha_shade _ _ ha

theorem alpha_planarTexel (blk : List UInt8) (i : Nat) : Spec.alpha (planarTexel blk i) = 255 :=
  alpha_px (clamp255_lt _) (clamp255_lt _) (clamp255_lt _) (by decide)

theorem alpha_etc1Texel (blk : List UInt8) (i : Nat) : Spec.alpha (etc1Texel blk i) = 255 :=
  alpha_shade _ _ (by decide)

theorem alpha_etc2RgbTexel (blk : List UInt8) (i : Nat) : Spec.alpha (etc2RgbTexel blk i) = 255 := by
  unfold etc2RgbTexel
  split
  · exact alpha_tPaint _ _ (by decide)
  · exact alpha_hPaint _ _ (by decide)
  · exact alpha_planarTexel _ _
  · exact alpha_etc1Texel _ _
  · exact alpha_etc1Texel _ _

theorem alpha_etc2Rgba1Texel (blk : List UInt8) (i : Nat) :
    Spec.alpha (etc2Rgba1Texel blk i) = if transparent blk i then 0 else 255 := by
  have ha : (if transparent blk i then 0 else 255) < 256 := by split <;> decide
  unfold etc2Rgba1Texel
  simp only
  split
  · exact alpha_tPaint _ _ ha
  · exact alpha_hPaint _ _ ha
  · rename_i h
    rw [alpha_planarTexel, if_neg (fun t => t.2.1 h)]
  · exact alpha_shade _ _ ha
  · exact alpha_shade _ _ ha

theorem etc2Rgba1Texel_opaque (blk : List UInt8) (i : Nat) (h : diffBit blk = true) :
    etc2Rgba1Texel blk i = etc2RgbTexel blk i := by
  have ht : ¬ transparent blk i := fun t => absurd (h.symm.trans t.1) Bool.noConfusion
  have hm : ∀ c k, modifierA true c k = modifier c k := fun c k => by
    unfold modifierA; rw [if_neg (fun t => absurd t.1 Bool.noConfusion)]
  unfold etc2Rgba1Texel etc2RgbTexel etc1Texel
  simp only [h, if_true, if_neg ht, hm]

theorem etc2RgbTexel_legacy (blk : List UInt8) (i : Nat)
    (hb : diffBit blk = false ∨ ∀ ch, ch < 3 → ¬ overflows blk ch) :
    etc2RgbTexel blk i = etc1Texel blk i := by
  unfold etc2RgbTexel mode
  rcases hb with hb | hb
  · rw [if_pos hb]
  · rw [if_neg (hb 0 (by decide)), if_neg (hb 1 (by decide)), if_neg (hb 2 (by decide))]
    cases diffBit blk <;> rfl

theorem eacIndexLE_palindrome (blk : List UInt8) (i : Nat) (hi : i < 16) (h : blk.reverse = blk) :
    eacIndexLE blk i = eacIndex blk i := by
  have ho : order i < 16 := by unfold order; omega
  unfold eacIndexLE eacIndex Spec.field bits Spec.beNat
  rw [h, show 47 - 3 * order i + 1 - (45 - 3 * order i) = 3 by omega]

end Verif.Proofs
