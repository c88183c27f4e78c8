import Verif.Proofs.ImageLaws
import Verif.Props.Etc

/-!
# Properties C30 and C31: ATC
-/

namespace Verif.Props

open Verif Verif.Proofs

variable [Build]

/-- An alternate-mode block: red 31 and 4, all indices 1. -/
def atcAlternate : List UInt8 := [0x00, 0xfc, 0x00, 0x20, 0x55, 0x55, 0x55, 0x55]

/-- **C30** (violated) This alternate-mode block decodes to something else than the ATC colour. -/
theorem C30_atc_differs :
    ∃ out, Model.decodeAtcRgb4 atcAlternate 4 4 (List.replicate 16 0) = .ok (.ok (), out) ∧
      out[0]? = some (Spec.px 55 0 0 255) ∧
      Spec.Atc.rgbTexel atcAlternate 0 = Spec.px 247 0 0 255 := by
  obtain ⟨o, e, d⟩ := (decoder_spec .atcrgb).success atcAlternate 4 4 (List.replicate 16 0)
    ⟨by decide, by decide, by decide⟩ (by decide) (by decide) (fun _ _ => trivial)
  exact ⟨o, e, (d.pixel 0 0 (by decide) (by decide)).trans (by decide +kernel), by decide +kernel⟩

/-- **C30** (what holds) Every pixel whose block has the mode bit clear, or whose index is not 1, has
exactly the ATC colour. -/
theorem C30_atc_rgb_partial (data : List UInt8) (w h : Nat) (image out : List UInt32)
    (hs : Spec.SizesOk 4 4 8 w h image)
    (hok : Model.decodeAtcRgb4 data w h image = .ok (.ok (), out))
    (x y : Nat) (hx : x < w) (hy : y < h)
    (hb : Spec.Atc.alternate (blockAt 8 data w x y) = false ∨
      Spec.Atc.index (blockAt 8 data w x y) (texelNo x y) ≠ 1) :
    out[y * w + x]? = some (Spec.Atc.rgbTexel (blockAt 8 data w x y) (texelNo x y)) := by
  obtain ⟨_, _, d⟩ := ok_inv (fmt := .atcrgb) hs (fun _ _ => trivial) hok
  rw [d.pixel x y hx hy]
  exact congrArg some (atc_texel_same _ _ hb)

/-- **C30** The complete contract of `decode_atc_rgb4` with the colours the code computes: in
alternate-mode blocks, entry 1 is a quarter of the difference of the endpoints, modulo 256. -/
theorem C30_atc_rgb_as_is : Spec.Decodes Model.decodeAtcRgb4 4 4 8 Spec.Atc.rgbTexelAsIs :=
  decoder_spec .atcrgb

example : Spec.Atc.alternate [0xff, 0x7f, 0, 0, 0x1b, 0, 0, 0] = false ∧
    (List.range 4).map (Spec.Atc.rgbTexel [0xff, 0x7f, 0, 0, 0xe4, 0, 0, 0]) =
      [Spec.px 255 255 255 255, Spec.px 159 159 159 255, Spec.px 95 95 95 255,
       Spec.px 0 0 0 255] := by decide +kernel

/-- **C31** `decode_atc_rgba8`: the colour is the one `decode_atc_rgb4` gives for bytes 8..16 of each
block, alpha is the BC3 alpha of bytes 0..8. -/
theorem C31_atc_rgba8 : Spec.Decodes Model.decodeAtcRgba8 4 4 16
    (fun blk i => Spec.withAlpha (Spec.Atc.rgbTexelAsIs (blk.drop 8) i) (Spec.bc3Value blk i)) :=
  decoder_spec .atcrgba

/-- **C31** The same in terms of the three decoders: a pixel of `decode_atc_rgba8` has the red, green
and blue of `decode_atc_rgb4` on the colour halves, and the alpha of `decode_bc3` on the same data. -/
theorem C31_atc_rgba8_from_parts (data colours : List UInt8) (w h : Nat)
    (image out outC outB : List UInt32)
    (hs : Spec.SizesOk 4 4 16 w h image)
    (hok : Model.decodeAtcRgba8 data w h image = .ok (.ok (), out))
    (hokC : Model.decodeAtcRgb4 colours w h image = .ok (.ok (), outC))
    (hokB : Model.decodeBc3 data w h image = .ok (.ok (), outB))
    (x y : Nat) (hx : x < w) (hy : y < h)
    (hc : blockAt 8 colours w x y = (blockAt 16 data w x y).drop 8) :
    ∃ p c b, out[y * w + x]? = some p ∧ outC[y * w + x]? = some c ∧ outB[y * w + x]? = some b ∧
      Spec.red p = Spec.red c ∧ Spec.green p = Spec.green c ∧ Spec.blue p = Spec.blue c ∧
      Spec.alpha p = Spec.alpha b := by
  have hsC : Spec.SizesOk 4 4 8 w h image := by
    refine ⟨hs.image_len, ?_, hs.pixels_fit⟩
    have := hs.bytes_fit
    unfold Spec.bytesNeeded at *
    omega
  obtain ⟨_, _, d⟩ := ok_inv (fmt := .atcrgba) hs (fun _ _ => trivial) hok
  obtain ⟨_, _, dC⟩ := ok_inv (fmt := .atcrgb) hsC (fun _ _ => trivial) hokC
  obtain ⟨_, _, dB⟩ := ok_inv (fmt := .bc3) hs (fun _ _ => trivial) hokB
  have eC : outC[y * w + x]? = some (Spec.Atc.rgbTexelAsIs (blockAt 8 colours w x y) (texelNo x y)) :=
    dC.pixel x y hx hy
  rw [hc] at eC
  refine ⟨_, _, _, d.pixel x y hx hy, eC, dB.pixel x y hx hy, ?_⟩
  exact withAlpha_channels _ _ _ (bc3Value_lt (blockAt 16 data w x y) (texelNo x y))

example : Spec.SizesOk 4 4 16 4 4 (List.replicate 16 0) ∧
    blockAt 8 atcAlternate 4 2 2 = (blockAt 16 ([1, 2, 3, 4, 5, 6, 7, 8] ++ atcAlternate) 4 2 2).drop 8 :=
  ⟨⟨by decide, by decide, by decide⟩, by decide⟩

end Verif.Props
