import Verif.Proofs.Channels

/-!
# Property C77: channels that a format does not have

The pixels written are the first `w * h` words of the image; `Spec.alpha` and so on are the channels of a
pixel word.
-/

namespace Verif.Props

open Verif Verif.Spec Verif.Proofs

variable [Build]

/-- **C77** Formats without an alpha channel decode to opaque pixels. -/
theorem C77_opaque (fmt : Format) (hf : fmt.NoAlpha) (data : List UInt8) (w h : Nat)
    (image out : List UInt32) (hs : fmt.SizesOk w h image)
    (hok : decoder fmt data w h image = .ok (.ok (), out)) (k : Nat) (hk : k < w * h) :
    ∃ p, out[k]? = some p ∧ alpha p = 255 := by
  have hw : 0 < w := Nat.pos_of_ne_zero fun e => by subst e; simp at hk
  have hb : fmt ≠ .bc6s ∧ fmt ≠ .bc6u := by
    constructor <;> (rintro rfl; revert hf; unfold Format.NoAlpha; decide)
  obtain ⟨_, _, d⟩ := ok_inv hs (legal_of hb data w h) hok
  have e := d.pixel (k % w) (k / w) (Nat.mod_lt _ hw) (Nat.div_lt_of_lt_mul hk)
  rw [Nat.div_add_mod' k w] at e
  exact ⟨_, e, texel_noAlpha hf _ _⟩

/-- **C77** Formats with one bit of alpha decode to pixels that are opaque or fully transparent. -/
theorem C77_one_bit_alpha (fmt : Format) (hf : fmt.OneBitAlpha) (data : List UInt8) (w h : Nat)
    (image out : List UInt32) (hs : fmt.SizesOk w h image)
    (hok : decoder fmt data w h image = .ok (.ok (), out)) (k : Nat) (hk : k < w * h) :
    ∃ p, out[k]? = some p ∧ (alpha p = 0 ∨ alpha p = 255) := by
  have hw : 0 < w := Nat.pos_of_ne_zero fun e => by subst e; simp at hk
  have hb : fmt ≠ .bc6s ∧ fmt ≠ .bc6u := by
    constructor <;> (rintro rfl; revert hf; unfold Format.OneBitAlpha; decide)
  obtain ⟨_, _, d⟩ := ok_inv hs (legal_of hb data w h) hok
  have e := d.pixel (k % w) (k / w) (Nat.mod_lt _ hw) (Nat.div_lt_of_lt_mul hk)
  rw [Nat.div_add_mod' k w] at e
  exact ⟨_, e, texel_oneBitAlpha hf _ _⟩

/-- **C77** Formats with a red channel only leave green and blue 0. -/
theorem C77_red_only (fmt : Format) (hf : fmt.RedOnly) (data : List UInt8) (w h : Nat)
    (image out : List UInt32) (hs : fmt.SizesOk w h image)
    (hok : decoder fmt data w h image = .ok (.ok (), out)) (k : Nat) (hk : k < w * h) :
    ∃ p, out[k]? = some p ∧ green p = 0 ∧ blue p = 0 := by
  have hw : 0 < w := Nat.pos_of_ne_zero fun e => by subst e; simp at hk
  have hb : fmt ≠ .bc6s ∧ fmt ≠ .bc6u := by
    constructor <;> (rintro rfl; revert hf; unfold Format.RedOnly; decide)
  obtain ⟨_, _, d⟩ := ok_inv hs (legal_of hb data w h) hok
  have e := d.pixel (k % w) (k / w) (Nat.mod_lt _ hw) (Nat.div_lt_of_lt_mul hk)
  rw [Nat.div_add_mod' k w] at e
  exact ⟨_, e, texel_redOnly hf _ _⟩

/-- **C77** Formats with red and green only leave blue 0. -/
theorem C77_red_green_only (fmt : Format) (hf : fmt.RedGreenOnly) (data : List UInt8) (w h : Nat)
    (image out : List UInt32) (hs : fmt.SizesOk w h image)
    (hok : decoder fmt data w h image = .ok (.ok (), out)) (k : Nat) (hk : k < w * h) :
    ∃ p, out[k]? = some p ∧ blue p = 0 := by
  have hw : 0 < w := Nat.pos_of_ne_zero fun e => by subst e; simp at hk
  have hb : fmt ≠ .bc6s ∧ fmt ≠ .bc6u := by
    constructor <;> (rintro rfl; revert hf; unfold Format.RedGreenOnly; decide)
  obtain ⟨_, _, d⟩ := ok_inv hs (legal_of hb data w h) hok
  have e := d.pixel (k % w) (k / w) (Nat.mod_lt _ hw) (Nat.div_lt_of_lt_mul hk)
  rw [Nat.div_add_mod' k w] at e
  exact ⟨_, e, texel_redGreenOnly hf _ _⟩

/-- A 5 × 3 image over a buffer full of ones: the hypotheses hold for all these formats. -/
example (fmt : Format) (hf : fmt.NoAlpha ∨ fmt.OneBitAlpha) :
    fmt.SizesOk 5 3 (List.replicate 15 0xffffffff) ∧
    ∃ out, decoder fmt (List.replicate 32 0xa7) 5 3 (List.replicate 15 0xffffffff) = .ok (.ok (), out) := by
  have hb : fmt ≠ .bc6s ∧ fmt ≠ .bc6u := by
    constructor <;> (rintro rfl; revert hf; unfold Format.NoAlpha Format.OneBitAlpha; decide)
  have hs : fmt.SizesOk 5 3 (List.replicate 15 0xffffffff) := by
    cases fmt <;> exact ⟨by decide, by decide, by decide⟩
  refine ⟨hs, ?_⟩
  obtain ⟨o, e, _⟩ := (decoder_spec fmt).success (List.replicate 32 0xa7) 5 3
    (List.replicate 15 0xffffffff) hs (by cases fmt <;> decide) (by decide) (legal_of hb _ _ _)
  exact ⟨o, e⟩

end Verif.Props
