import Verif.Props.Image
import Verif.Props.Astc
import Verif.Props.Pvrtc
import Verif.Proofs.Oversize
import Verif.Proofs.PvrtcOversize

/-!
# Property C65 and the ASTC and PVRTC parts of C10: dimensions of any size

Here nothing is assumed about the dimensions: the products the decoders compute may overflow. The
bounds on the lengths are those of Rust, where no slice has `2 ^ 63` bytes or more; for ASTC, where a
block of 16 bytes holds up to 144 texels, the data is assumed to be shorter than `2 ^ 60` bytes, and for
PVRTC shorter than `2 ^ 62`.
-/

namespace Verif.Props

open Verif Verif.Proofs

/-- **C10** (violated, ASTC) With overflow checks `decode_astc` panics whenever the number of bytes the
image needs does not fit in `usize`. -/
theorem C10_astc_debug (bw bh : Nat) (hbw : 0 < bw) (hbh : 0 < bh) (data : List UInt8) (w h : Nat)
    (image : List UInt32) (hn : 2 ^ 64 ≤ Spec.bytesNeeded bw bh 16 w h) :
    @Model.decodeAstc Build.debug data w h bw bh image = .panic :=
  astc_debug hbw hbh data w h image hn

example : 2 ^ 64 ≤ Spec.bytesNeeded 12 12 16 (12 * 2 ^ 60) 5 := by decide

/-- **C10** (violated, ASTC) Without overflow checks the two checks see the products modulo `2 ^ 64`;
images that pass them make `decode_astc` panic. -/
theorem C10_astc_release (bw bh : Nat) (hbw : 0 < bw) (hbh : 0 < bh) (hb : bw * bh ≤ 144)
    (data : List UInt8) (w h : Nat) (image : List UInt32) (hd : data.length < 2 ^ 63)
    (hn : 2 ^ 64 ≤ Spec.bytesNeeded bw bh 16 w h) :
    @Model.decodeAstc Build.release data w h bw bh image =
      if data.length < Spec.bytesNeeded bw bh 16 w h % 2 ^ 64 then
        .ok (.error "Not enough data to decode image!", image)
      else if image.length < w * h % 2 ^ 64 then .ok (.error "Image buffer is too small!", image)
      else .panic :=
  astc_release hbw hbh hb data w h image (by omega) hn

example : @Model.decodeAstc Build.release [] (8 * 2 ^ 60) 8 8 8 [] = .panic ∧
    @Model.decodeAstc Build.release [] (8 * 2 ^ 60 + 8) 8 8 8 [] =
      .ok (.error "Not enough data to decode image!", []) := by
  constructor
  · rw [C10_astc_release 8 8 (by decide) (by decide) (by decide) _ _ _ _ (by decide) (by decide)]
    rfl
  · rw [C10_astc_release 8 8 (by decide) (by decide) (by decide) _ _ _ _ (by decide) (by decide)]
    rfl

/-- **C65** Block formats: a decoder that returns `Ok` was given enough data and a large enough image,
as exact numbers, whatever the dimensions and the contents are. -/
theorem C65_ok_means_sizes_fit [Build] (fmt : Spec.Format) (data : List UInt8) (w h : Nat)
    (image image' : List UInt32) (hd : data.length < 2 ^ 63) (hi : image.length < 2 ^ 61)
    (hok : decoder fmt data w h image = .ok (.ok (), image')) :
    fmt.need w h ≤ data.length ∧ w * h ≤ image.length :=
  decoder_ok_sizes hd hi hok

example [Build] : Spec.Format.bc3.need 5 3 ≤ demoData.length ∧ 5 * 3 ≤ demoImage.length := by
  obtain ⟨o, e⟩ := C01_outcome_by_sizes .bc3 demoData 5 3 demoImage demoSizes demoLegal
  exact C65_ok_means_sizes_fit .bc3 demoData 5 3 demoImage o (by decide) (by decide) e

/-- **C65** Block formats: so success means that the image was decoded, with no assumption on the
dimensions. -/
theorem C65_ok_means_decoded [Build] (fmt : Spec.Format) (data : List UInt8) (w h : Nat)
    (image image' : List UInt32) (hd : data.length < 2 ^ 63) (hi : image.length < 2 ^ 61)
    (hl : fmt.AllLegal data w h) (hok : decoder fmt data w h image = .ok (.ok (), image')) :
    Spec.IsDecoded 4 4 fmt.blockSize fmt.texel data w h image image' := by
  obtain ⟨h1, h2⟩ := decoder_ok_sizes hd hi hok
  exact (ok_inv ⟨hi, Nat.lt_of_le_of_lt h1 (by omega), by omega⟩ hl hok).2.2

/-- **C65** ASTC, all block sizes up to 144 texels. -/
theorem C65_astc_ok_means_sizes_fit [Build] (bw bh : Nat) (hbw : 0 < bw) (hbh : 0 < bh)
    (hb : bw * bh ≤ 144) (data : List UInt8) (w h : Nat) (image image' : List UInt32)
    (hd : data.length < 2 ^ 60) (hi : image.length < 2 ^ 61)
    (hok : Model.decodeAstc data w h bw bh image = .ok (.ok (), image')) :
    Spec.bytesNeeded bw bh 16 w h ≤ data.length ∧ w * h ≤ image.length :=
  astc_ok_sizes hbw hbh hb hd hi hok

example [Build] : ∃ image', Model.decodeAstc astcRgb 4 4 4 4 (List.replicate 16 0) =
    .ok (.ok (), image') := by
  obtain ⟨o, e, -⟩ := (C35_astc 4 4 (by decide) (by decide) (by decide)).success astcRgb 4 4
    (List.replicate 16 0) ⟨by decide, by decide, by decide⟩ (by decide) (by decide)
    (fun k hk => by
      have : k = 0 := by
        have : Spec.numBlocks 4 4 4 4 = 1 := rfl
        omega
      subst this; decide +kernel)
  exact ⟨o, e⟩

/-! ## PVRTC -/

open Verif.Spec.Pvrtc (IsPow2 bw)

/-- **C10** (violated, PVRTC) With overflow checks: the outcome for all sizes beyond `usize`. -/
theorem C10_pvrtc_debug (w2 : Bool) (data : List UInt8) (w h : Nat) (image : List UInt32)
    (hd : data.length < 2 ^ 62)
    (ho : 2 ^ 64 ≤ Spec.bytesNeeded (bw w2) 4 8 w h ∨ 2 ^ 64 ≤ w * h) :
    @pvrtc Build.debug w2 data w h image =
      if 2 ^ 64 ≤ Spec.numBlocks (bw w2) 4 w h * bw w2 then .panic
      else .ok (.error "The data buffer is too small!", image) := by
  rw [@pvrtc_eq Build.debug]
  exact Pvrtc.pv_oversize_debug hd ho

open Classical in
/-- **C10** (violated, PVRTC) Without overflow checks: the outcome for all sizes beyond `usize`. The checks
see the products modulo `2 ^ 64`; images that pass them make the decoder panic. -/
theorem C10_pvrtc_release (w2 : Bool) (data : List UInt8) (w h : Nat) (image : List UInt32)
    (hw : w < 2 ^ 64) (hh : h < 2 ^ 64) (hd : data.length < 2 ^ 62)
    (ho : 2 ^ 64 ≤ Spec.bytesNeeded (bw w2) 4 8 w h ∨ 2 ^ 64 ≤ w * h) :
    @pvrtc Build.release w2 data w h image =
      if data.length < Spec.numBlocks (bw w2) 4 w h * bw w2 % 2 ^ 64 then
        .ok (.error "The data buffer is too small!", image)
      else if image.length < w * h % 2 ^ 64 then .ok (.error "The image buffer is too small!", image)
      else if ¬ (IsPow2 (Spec.ceilDiv w (bw w2)) ∧ IsPow2 (Spec.ceilDiv h 4)) then
        .ok (.error "The number of blocks of each side must be a power of 2!", image)
      else .panic := by
  rw [@pvrtc_eq Build.release]
  exact Pvrtc.pv_oversize_release hw hh hd ho

/-- `2^63 × 2^63` pixels: the number of blocks is a power of two that wraps to zero. -/
example : @pvrtc Build.release false [] (2 ^ 63) (2 ^ 63) [] = .panic := by
  rw [C10_pvrtc_release _ _ _ _ _ (by decide) (by decide) (by decide) (.inr (by decide)),
    if_neg (by decide), if_neg (by decide), if_neg (fun h => h ⟨⟨61, by decide⟩, ⟨61, by decide⟩⟩)]

/-- `2^62 × 12` blocks wide and high: refused without overflow checks, a panic with them. -/
example : @pvrtc Build.release false [] (2 ^ 63) (48 * 4) [] =
      .ok (.error "The number of blocks of each side must be a power of 2!", []) ∧
    @pvrtc Build.debug false [] (2 ^ 63) (48 * 4) [] = .panic := by
  constructor
  · rw [C10_pvrtc_release _ _ _ _ _ (by decide) (by decide) (by decide) (.inr (by decide)),
      if_neg (by decide), if_neg (by decide), if_pos]
    rintro ⟨-, p, hp⟩
    have hp : 48 = 2 ^ p := hp
    have h5 : 5 < p := (Nat.pow_lt_pow_iff_right (a := 2) (by decide)).mp (by omega)
    have h6 : p < 6 := (Nat.pow_lt_pow_iff_right (a := 2) (by decide)).mp (by omega)
    omega
  · rw [C10_pvrtc_debug _ _ _ _ _ (by decide) (.inr (by decide)), if_pos (by decide)]

/-- **C65** PVRTC. -/
theorem C65_pvrtc_ok_means_sizes_fit [Build] (w2 : Bool) (data : List UInt8) (w h : Nat)
    (image image' : List UInt32) (hw : w < 2 ^ 64) (hh : h < 2 ^ 64) (hd : data.length < 2 ^ 62)
    (hi : image.length < 2 ^ 61) (hok : pvrtc w2 data w h image = .ok (.ok (), image')) :
    Spec.bytesNeeded (bw w2) 4 8 w h ≤ data.length ∧ w * h ≤ image.length := by
  by_cases ho : 2 ^ 64 ≤ Spec.bytesNeeded (bw w2) 4 8 w h ∨ 2 ^ 64 ≤ w * h
  · exfalso
    rename_i inst
    obtain ⟨ck⟩ := inst
    cases ck
    · have e := C10_pvrtc_release w2 data w h image hw hh hd ho
      have hok : @pvrtc Build.release w2 data w h image = .ok (.ok (), image') := hok
      rw [e] at hok
      split at hok
      · injection hok with hok; injection hok with a b; cases a
      split at hok
      · injection hok with hok; injection hok with a b; cases a
      split at hok
      · injection hok with hok; injection hok with a b; cases a
      · cases hok
    · have e := C10_pvrtc_debug w2 data w h image hd ho
      have hok : @pvrtc Build.debug w2 data w h image = .ok (.ok (), image') := hok
      rw [e] at hok
      split at hok
      · cases hok
      · injection hok with hok; injection hok with a b; cases a
  · have e := C32_as_is w2 data w h image hw hh ⟨hi, by omega, by omega⟩
    rw [hok] at e
    have e : Out.ok (Except.ok ()) = _ := e
    split at e
    · injection e with e; cases e
    split at e
    · injection e with e; cases e
    next h2 =>
    split at e
    · cases e
    split at e
    · injection e with e; cases e
    split at e
    · cases e
    next h5 => exact ⟨Nat.not_lt.mp h5, Nat.not_lt.mp h2⟩

example [Build] : ∃ image', pvrtc false (List.replicate 8 0xa5) 4 4 (List.replicate 16 0) =
    .ok (.ok (), image') := by
  rcases C32_pvrtc_no_panic_partial false (List.replicate 8 0xa5) 4 4 (List.replicate 16 0)
    ⟨by decide, by decide, by decide⟩ (by decide) (by decide) (by decide) with h | h | h
  · exact absurd h.1 (by decide)
  · exact absurd ⟨⟨0, by decide⟩, ⟨0, by decide⟩⟩ h.2.1
  · exact h.2.2.2

end Verif.Props
