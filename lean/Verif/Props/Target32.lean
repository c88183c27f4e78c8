import Verif.Proofs.Target32
import Verif.Proofs.ImageLaws

/-!
# Property C64: decoding on targets with a 32-bit `usize`

`decoder32 fmt` is the model of the whole-image decoders on such a target, `decoder fmt` the one on
64-bit targets.
-/

namespace Verif.Props

open Verif.Proofs

/-- The formats whose indices take 48 bits. -/
def WideIndices (fmt : Spec.Format) : Prop :=
  fmt = .bc3 ∨ fmt = .bc4 ∨ fmt = .bc5 ∨ fmt = .atcrgba ∨ fmt = .etc2rgba8 ∨
    fmt = .eacr ∨ fmt = .eacrs ∨ fmt = .eacrg ∨ fmt = .eacrgs

instance (fmt : Spec.Format) : Decidable (WideIndices fmt) := by unfold WideIndices; infer_instance

/-- One block in which the last texels have other values than the first. -/
def wideBlock (fmt : Spec.Format) : List UInt8 :=
  [100, 0x12, 255, 255, 255, 255, 255, 255] ++ List.replicate (fmt.blockSize - 8) 0

/-- **C64** (violated) A 4×4 image of one block decodes to different images on 32-bit and 64-bit
targets, in every format with 48 index bits. -/
theorem C64_differs [Build] (fmt : Spec.Format) (hf : WideIndices fmt) :
    ∃ data image image64 image32,
      decoder fmt data 4 4 image = .ok (.ok (), image64) ∧
      decoder32 fmt data 4 4 image = .ok (.ok (), image32) ∧ image64 ≠ image32 := by
  have hleg : ∀ blk, fmt.Legal blk := by
    intro blk; rcases hf with rfl | rfl | rfl | rfl | rfl | rfl | rfl | rfl | rfl <;> trivial
  have hlen : (wideBlock fmt).length = fmt.blockSize := by cases fmt <;> rfl
  have hneed : Spec.bytesNeeded 4 4 fmt.blockSize 4 4 = fmt.blockSize := by
    cases fmt <;> rfl
  have hb : fmt.blockSize ≤ 16 := by cases fmt <;> decide
  obtain ⟨o, e, hd⟩ := (decoder_spec fmt).success (wideBlock fmt) 4 4 (List.replicate 16 0)
    ⟨by decide, by omega, by decide⟩ (by omega) (by decide) (fun k _ => hleg _)
  obtain ⟨o2, e2, hd2⟩ := (decoder32_spec fmt).success (wideBlock fmt) 4 4 (List.replicate 16 0)
    ⟨by decide, by omega, by decide⟩ (by omega) (by decide) (fun k _ => hleg _)
  refine ⟨_, _, o, o2, e, e2, ?_⟩
  intro h
  have key : ∃ x y, x < 4 ∧ y < 4 ∧ Spec.pixelAt 4 4 fmt.blockSize fmt.texel (wideBlock fmt) 4 x y ≠
      Spec.pixelAt 4 4 fmt.blockSize (fun blk => fmt.texel (fmt.visible32 blk)) (wideBlock fmt)
        4 x y := by
    rcases hf with rfl | rfl | rfl | rfl | rfl | rfl | rfl | rfl | rfl
    · exact ⟨3, 3, by decide, by decide, by decide +kernel⟩
    · exact ⟨3, 3, by decide, by decide, by decide +kernel⟩
    · exact ⟨3, 3, by decide, by decide, by decide +kernel⟩
    · exact ⟨3, 3, by decide, by decide, by decide +kernel⟩
    · exact ⟨0, 0, by decide, by decide, by decide +kernel⟩
    · exact ⟨0, 0, by decide, by decide, by decide +kernel⟩
    · exact ⟨0, 0, by decide, by decide, by decide +kernel⟩
    · exact ⟨0, 0, by decide, by decide, by decide +kernel⟩
    · exact ⟨0, 0, by decide, by decide, by decide +kernel⟩
  obtain ⟨x, y, hx, hy, hne⟩ := key
  have h1 := hd.pixel x y hx hy
  have h2 := hd2.pixel x y hx hy
  rw [← h, h1] at h2
  exact hne (Option.some.inj h2)

/-- **C64** (what holds) All other formats decode as on 64-bit targets, including errors, for all
sizes that fit in a 32-bit `usize`. -/
theorem C64_same_partial [Build] (fmt : Spec.Format) (hf : ¬ WideIndices fmt) (data : List UInt8)
    (w h : Nat) (image : List UInt32) (hs : Spec.SizesOk32 4 4 fmt.blockSize w h image)
    (hl : fmt.AllLegal data w h) :
    decoder32 fmt data w h image = decoder fmt data w h image := by
  have hs64 : Spec.SizesOk 4 4 fmt.blockSize w h image :=
    ⟨by have := hs.image_len; omega, by have := hs.bytes_fit; omega, by have := hs.pixels_fit; omega⟩
  have hv : (fun blk => fmt.texel (fmt.visible32 blk)) = fmt.texel := by
    cases fmt
    case bc3 | bc4 | bc5 | atcrgba | etc2rgba8 | eacr | eacrs | eacrg | eacrgs =>
      exact absurd (by unfold WideIndices; simp) hf
    all_goals rfl
  have s32 := decoder32_spec fmt
  have s64 := decoder_spec fmt
  rw [hv] at s32
  rcases Nat.lt_or_ge data.length (Spec.bytesNeeded 4 4 fmt.blockSize w h) with hd | hd
  · rw [s32.not_enough_data _ _ _ _ hs hd, s64.not_enough_data _ _ _ _ hs64 hd]
  · rcases Nat.lt_or_ge image.length (w * h) with hi | hi
    · rw [s32.image_too_small _ _ _ _ hs hd hi, s64.image_too_small _ _ _ _ hs64 hd hi]
    · obtain ⟨o, e, h1⟩ := s32.success _ _ _ _ hs hd hi hl
      obtain ⟨o', e', h2⟩ := s64.success _ _ _ _ hs64 hd hi hl
      rw [e, e', isDecoded_unique h1 h2]

example : ¬ WideIndices .bc7 ∧ Spec.SizesOk32 4 4 16 5 3 (List.replicate 15 0) :=
  ⟨by decide, by decide, by decide, by decide⟩

/-- **C64** (exact) On a 32-bit target every format decodes each block as if the bytes with the upper
index bits were zero; errors and sizes are as on 64-bit targets. -/
theorem C64_as_is [Build] (fmt : Spec.Format) :
    Spec.DecodesLegal32 (decoder32 fmt) 4 4 fmt.blockSize fmt.Legal
      (fun blk => fmt.texel (fmt.visible32 blk)) :=
  decoder32_spec fmt

/-- **C64** (what holds) In BC3, BC4, BC5 and ATC RGBA8 the first ten texels of each block are right. -/
theorem C64_first_texels_partial (fmt : Spec.Format)
    (hf : fmt = .bc3 ∨ fmt = .bc4 ∨ fmt = .bc5 ∨ fmt = .atcrgba) (blk : List UInt8)
    (hb : blk.length = fmt.blockSize) (i : Nat) (hi : i < 10) :
    fmt.texel (fmt.visible32 blk) i = fmt.texel blk i := by
  have key : ∀ b0 b1 b2 b3 b4 b5 l l', Spec.bc3Value (b0 :: b1 :: b2 :: b3 :: b4 :: b5 :: l) i =
      Spec.bc3Value (b0 :: b1 :: b2 :: b3 :: b4 :: b5 :: l') i := by
    intro b0 b1 b2 b3 b4 b5 l l'
    have t : ∀ m : List UInt8, Spec.bc3Value ((b0 :: b1 :: b2 :: b3 :: b4 :: b5 :: m).take 6) i =
        Spec.bc3Value (b0 :: b1 :: b2 :: b3 :: b4 :: b5 :: m) i := by
      intro m
      unfold Spec.bc3Value Spec.byteAt
      rw [field_take (show 8 * 0 + 8 ≤ 8 * 6 by omega),
        field_take (show 8 * 1 + 8 ≤ 8 * 6 by omega),
        field_take (show 16 + 3 * i + 3 ≤ 8 * 6 by omega)]
      rfl
    exact (t l).symm.trans (t l')
  rcases hf with rfl | rfl | rfl | rfl
  · obtain ⟨b0, b1, b2, b3, b4, b5, b6, b7, c0, c1, c2, c3, c4, c5, c6, c7, r, rfl⟩ :=
      sixteen (Nat.le_of_eq hb.symm)
    show Spec.withAlpha (Spec.bc1Texel false (c0 :: c1 :: c2 :: c3 :: c4 :: c5 :: c6 :: c7 :: r) i)
        (Spec.bc3Value (b0 :: b1 :: b2 :: b3 :: b4 :: b5 :: 0 :: 0 :: c0 :: c1 :: c2 :: c3 :: c4 :: c5 :: c6 :: c7 :: r) i) =
      Spec.withAlpha (Spec.bc1Texel false (c0 :: c1 :: c2 :: c3 :: c4 :: c5 :: c6 :: c7 :: r) i) _
    rw [key b0 b1 b2 b3 b4 b5 _ (b6 :: b7 :: c0 :: c1 :: c2 :: c3 :: c4 :: c5 :: c6 :: c7 :: r)]
  · obtain ⟨b0, b1, b2, b3, b4, b5, b6, b7, r, rfl⟩ := eight (Nat.le_of_eq hb.symm)
    exact congrArg (fun v => Spec.px v 0 0 255) (key b0 b1 b2 b3 b4 b5 _ _)
  · obtain ⟨b0, b1, b2, b3, b4, b5, b6, b7, c0, c1, c2, c3, c4, c5, c6, c7, r, rfl⟩ :=
      sixteen (Nat.le_of_eq hb.symm)
    show Spec.px (Spec.bc3Value (b0 :: b1 :: b2 :: b3 :: b4 :: b5 :: 0 :: 0 :: c0 :: c1 :: c2 :: c3 :: c4 :: c5 :: 0 :: 0 :: r) i)
        (Spec.bc3Value (c0 :: c1 :: c2 :: c3 :: c4 :: c5 :: 0 :: 0 :: r) i) 0 255 =
      Spec.px (Spec.bc3Value (b0 :: b1 :: b2 :: b3 :: b4 :: b5 :: b6 :: b7 :: c0 :: c1 :: c2 :: c3 :: c4 :: c5 :: c6 :: c7 :: r) i)
        (Spec.bc3Value (c0 :: c1 :: c2 :: c3 :: c4 :: c5 :: c6 :: c7 :: r) i) 0 255
    rw [key b0 b1 b2 b3 b4 b5 _ (b6 :: b7 :: c0 :: c1 :: c2 :: c3 :: c4 :: c5 :: c6 :: c7 :: r), key c0 c1 c2 c3 c4 c5 _ (c6 :: c7 :: r)]
  · obtain ⟨b0, b1, b2, b3, b4, b5, b6, b7, c0, c1, c2, c3, c4, c5, c6, c7, r, rfl⟩ :=
      sixteen (Nat.le_of_eq hb.symm)
    show Spec.withAlpha (Spec.Atc.rgbTexelAsIs (c0 :: c1 :: c2 :: c3 :: c4 :: c5 :: c6 :: c7 :: r) i)
        (Spec.bc3Value (b0 :: b1 :: b2 :: b3 :: b4 :: b5 :: 0 :: 0 :: c0 :: c1 :: c2 :: c3 :: c4 :: c5 :: c6 :: c7 :: r) i) =
      Spec.withAlpha (Spec.Atc.rgbTexelAsIs (c0 :: c1 :: c2 :: c3 :: c4 :: c5 :: c6 :: c7 :: r) i) _
    rw [key b0 b1 b2 b3 b4 b5 _ (b6 :: b7 :: c0 :: c1 :: c2 :: c3 :: c4 :: c5 :: c6 :: c7 :: r)]

example : (wideBlock .bc5).length = Spec.Format.blockSize .bc5 ∧
    Spec.Format.texel .bc5 (Spec.Format.visible32 .bc5 (wideBlock .bc5)) 9 =
      Spec.Format.texel .bc5 (wideBlock .bc5) 9 :=
  ⟨rfl, C64_first_texels_partial .bc5 (by decide) _ rfl 9 (by decide)⟩

end Verif.Props
