import Verif.Proofs.ImageLaws
import Verif.Proofs.EtcLaws

/-!
# Properties C24 – C29 and C48: ETC1, ETC2 and EAC

The whole-image theorems give the complete contract `Spec.Decodes` for the texel colours of
`Verif/Spec/Etc.lean`.
-/

namespace Verif.Props

open Verif Verif.Proofs

variable [Build]

/-- The block that covers pixel (`x`, `y`), and the number of the pixel in it. -/
abbrev blockAt (raw : Nat) (data : List UInt8) (w x y : Nat) : List UInt8 :=
  Spec.blockBytes raw data (y / 4 * Spec.ceilDiv w 4 + x / 4)
abbrev texelNo (x y : Nat) : Nat := y % 4 * 4 + x % 4

/-! ## C24 -/

/-- **C24** `decode_etc1` decodes exactly the ETC1 colours. -/
theorem C24_etc1 : Spec.Decodes Model.decodeEtc1 4 4 8 Spec.Etc.etc1Texel :=
  decoder_spec .etc1

omit [Build] in
/-- **C24** On a block without differential overflow, the base colours in `C24_etc1` are the 5-bit
replicated sums themselves (no reduction modulo 32). -/
theorem C24_no_overflow (blk : List UInt8) (ch : Nat) (h : ¬ Spec.Etc.overflows blk ch) :
    Spec.Etc.differential blk true ch = Spec.expand5 (Spec.Etc.diffSum blk ch).toNat := by
  unfold Spec.Etc.overflows at h
  unfold Spec.Etc.differential
  rw [if_pos rfl, Int.emod_eq_of_lt (by omega) (by omega)]

/-- A differential block, red 16 and 16 - 4, flip clear, tables 0 and 7, indices 0 and 3. -/
def etc1Demo : List UInt8 := [0x84, 0, 0, 0x1e, 0x80, 0, 0x80, 0]

example : (∀ ch, ch < 3 → ¬ Spec.Etc.overflows etc1Demo ch) ∧
    Spec.Etc.etc1Texel etc1Demo 0 = Spec.px 134 2 2 255 ∧
    Spec.Etc.etc1Texel etc1Demo 3 = Spec.px 146 47 47 255 ∧
    Spec.Etc.etc1Texel etc1Demo 15 = Spec.px 0 0 0 255 := by
  decide +kernel

example : ∃ o, Model.decodeEtc1 etc1Demo 4 1 [0, 0, 0, 0] = .ok (.ok (), o) ∧
    o[3]? = some (Spec.px 146 47 47 255) := by
  obtain ⟨o, e, d⟩ := C24_etc1.success etc1Demo 4 1 [0, 0, 0, 0] ⟨by decide, by decide, by decide⟩
    (by decide) (by decide) (fun _ _ => trivial)
  exact ⟨o, e, (d.pixel 3 0 (by decide) (by decide)).trans (by decide +kernel)⟩

/-! ## C25, C26 -/

/-- **C25** Where the block is in individual mode, or differential without overflow in any channel,
`decode_etc2_rgb` and `decode_etc1` give the same pixels. -/
theorem C25_etc2_extends_etc1 (data : List UInt8) (w h : Nat) (image out1 out2 : List UInt32)
    (hs : Spec.SizesOk 4 4 8 w h image)
    (hok1 : Model.decodeEtc1 data w h image = .ok (.ok (), out1))
    (hok2 : Model.decodeEtc2Rgb data w h image = .ok (.ok (), out2))
    (x y : Nat) (hx : x < w) (hy : y < h)
    (hb : Spec.Etc.diffBit (blockAt 8 data w x y) = false ∨
      ∀ ch, ch < 3 → ¬ Spec.Etc.overflows (blockAt 8 data w x y) ch) :
    out2[y * w + x]? = out1[y * w + x]? := by
  obtain ⟨_, _, d1⟩ := ok_inv (fmt := .etc1) hs (fun _ _ => trivial) hok1
  obtain ⟨_, _, d2⟩ := ok_inv (fmt := .etc2rgb) hs (fun _ _ => trivial) hok2
  rw [d1.pixel x y hx hy, d2.pixel x y hx hy]
  exact congrArg some (etc2RgbTexel_legacy _ _ hb)

/-- **C25** An image made of such blocks decodes identically. -/
theorem C25_etc2_extends_etc1_image (data : List UInt8) (w h : Nat) (image : List UInt32)
    (hs : Spec.SizesOk 4 4 8 w h image)
    (hb : ∀ k, k < Spec.numBlocks 4 4 w h → Spec.Etc.diffBit (Spec.blockBytes 8 data k) = false ∨
      ∀ ch, ch < 3 → ¬ Spec.Etc.overflows (Spec.blockBytes 8 data k) ch) :
    Model.decodeEtc2Rgb data w h image = Model.decodeEtc1 data w h image := by
  have S1 := decoder_spec .etc1
  have S2 := decoder_spec .etc2rgb
  by_cases h1 : data.length < Spec.bytesNeeded 4 4 8 w h
  · exact (S2.not_enough_data _ _ _ _ hs h1).trans (S1.not_enough_data _ _ _ _ hs h1).symm
  by_cases h2 : image.length < w * h
  · exact (S2.image_too_small _ _ _ _ hs (Nat.not_lt.mp h1) h2).trans
      (S1.image_too_small _ _ _ _ hs (Nat.not_lt.mp h1) h2).symm
  obtain ⟨o1, e1, d1⟩ := S1.success _ _ _ _ hs (Nat.not_lt.mp h1) (Nat.not_lt.mp h2)
    (fun _ _ => trivial)
  obtain ⟨o2, e2, d2⟩ := S2.success _ _ _ _ hs (Nat.not_lt.mp h1) (Nat.not_lt.mp h2)
    (fun _ _ => trivial)
  change Model.decodeEtc1 data w h image = _ at e1
  change Model.decodeEtc2Rgb data w h image = _ at e2
  have : o2 = o1 := by
    apply List.ext_getElem?
    intro j
    by_cases hj : j < w * h
    · obtain ⟨x, y, hx, hy, rfl⟩ := pixel_index hj
      exact C25_etc2_extends_etc1 data w h image o1 o2 hs e1 e2 x y hx hy
        (hb _ (numBlocks_idx hx hy))
    · rw [d1.rest j (by omega), d2.rest j (by omega)]
  rw [e1, e2, this]

example : Spec.SizesOk 4 4 8 4 4 (List.replicate 16 0) ∧
    ∀ k, k < Spec.numBlocks 4 4 4 4 → Spec.Etc.diffBit (Spec.blockBytes 8 etc1Demo k) = false ∨
      ∀ ch, ch < 3 → ¬ Spec.Etc.overflows (Spec.blockBytes 8 etc1Demo k) ch :=
  ⟨⟨by decide, by decide, by decide⟩, by decide +kernel⟩

/-- **C26** `decode_etc2_rgb` decodes exactly the ETC2 colours, in all five modes. -/
theorem C26_etc2_rgb : Spec.Decodes Model.decodeEtc2Rgb 4 4 8 Spec.Etc.etc2RgbTexel :=
  decoder_spec .etc2rgb

/-- **C26** Every pixel is opaque. -/
theorem C26_opaque (data : List UInt8) (w h : Nat) (image out : List UInt32)
    (hs : Spec.SizesOk 4 4 8 w h image)
    (hok : Model.decodeEtc2Rgb data w h image = .ok (.ok (), out))
    (x y : Nat) (hx : x < w) (hy : y < h) :
    ∃ p, out[y * w + x]? = some p ∧ Spec.alpha p = 255 := by
  obtain ⟨_, _, d⟩ := ok_inv (fmt := .etc2rgb) hs (fun _ _ => trivial) hok
  exact ⟨_, d.pixel x y hx hy, alpha_etc2RgbTexel _ _⟩

/-- Blocks in T and planar mode. -/
def etc2T : List UInt8 := [0x04, 0, 0, 0x02, 0, 0, 0, 0]
def etc2P : List UInt8 := [0x00, 0x00, 0x04, 0x02, 0, 0, 0, 0xff]
example : Spec.Etc.mode true etc2T = .t ∧ Spec.Etc.mode true etc2P = .planar ∧
    Spec.Etc.mode true [0x00, 0x04, 0, 0x02, 0, 0, 0, 0] = .h ∧
    Spec.Etc.mode true etc1Demo = .differential := by decide +kernel
example : Spec.Etc.etc2RgbTexel [0x15, 0x23, 0x45, 0x62, 0, 0, 0x12, 0x34] 6 ≠
    Spec.Etc.etc1Texel [0x15, 0x23, 0x45, 0x62, 0, 0, 0x12, 0x34] 6 := by decide +kernel

/-! ## C27, C48 -/

/-- **C27** `decode_etc2_rgba1` decodes the ETC2 colours with punch-through alpha. -/
theorem C27_etc2_rgba1 : Spec.Decodes Model.decodeEtc2Rgba1 4 4 8 Spec.Etc.etc2Rgba1Texel :=
  decoder_spec .etc2rgba1

/-- **C27** A pixel is transparent (alpha 0) exactly when the opaque bit is clear, the block is not
planar and its index is 2; all other pixels have alpha 255. -/
theorem C27_alpha (data : List UInt8) (w h : Nat) (image out : List UInt32)
    (hs : Spec.SizesOk 4 4 8 w h image)
    (hok : Model.decodeEtc2Rgba1 data w h image = .ok (.ok (), out))
    (x y : Nat) (hx : x < w) (hy : y < h) :
    ∃ p, out[y * w + x]? = some p ∧
      Spec.alpha p =
        if Spec.Etc.diffBit (blockAt 8 data w x y) = false ∧
          Spec.Etc.mode true (blockAt 8 data w x y) ≠ .planar ∧
          Spec.Etc.index (blockAt 8 data w x y) (texelNo x y) = 2 then 0 else 255 := by
  obtain ⟨_, _, d⟩ := ok_inv (fmt := .etc2rgba1) hs (fun _ _ => trivial) hok
  refine ⟨_, d.pixel x y hx hy, ?_⟩
  exact alpha_etc2Rgba1Texel _ _

/-- **C27** Where the opaque bit is set, the pixel is the one `decode_etc2_rgb` gives. -/
theorem C27_opaque_block (data : List UInt8) (w h : Nat) (image outA out : List UInt32)
    (hs : Spec.SizesOk 4 4 8 w h image)
    (hokA : Model.decodeEtc2Rgba1 data w h image = .ok (.ok (), outA))
    (hok : Model.decodeEtc2Rgb data w h image = .ok (.ok (), out))
    (x y : Nat) (hx : x < w) (hy : y < h)
    (hb : Spec.Etc.diffBit (blockAt 8 data w x y) = true) :
    outA[y * w + x]? = out[y * w + x]? := by
  obtain ⟨_, _, dA⟩ := ok_inv (fmt := .etc2rgba1) hs (fun _ _ => trivial) hokA
  obtain ⟨_, _, d⟩ := ok_inv (fmt := .etc2rgb) hs (fun _ _ => trivial) hok
  rw [dA.pixel x y hx hy, d.pixel x y hx hy]
  exact congrArg some (etc2Rgba1Texel_opaque _ _ hb)

/-- A differential block with the opaque bit clear; texel 0 has index 2, texel 1 has index 0. -/
def etc2Punch : List UInt8 := [0x84, 0x10, 0x20, 0x1c, 0, 1, 0, 0]
example : Spec.alpha (Spec.Etc.etc2Rgba1Texel etc2Punch 0) = 0 ∧
    Spec.alpha (Spec.Etc.etc2Rgba1Texel etc2Punch 1) = 255 ∧
    Spec.Etc.diffBit etc1Demo = true ∧
    Spec.SizesOk 4 4 8 4 4 (List.replicate 16 0) :=
  ⟨by decide +kernel, by decide +kernel, by decide +kernel, by decide, by decide, by decide⟩

/-- **C48** (violated) Transparent pixels are not black: this block has one. -/
theorem C48_transparent_keeps_colour :
    ∃ out, Model.decodeEtc2Rgba1 etc2Punch 4 4 (List.replicate 16 0) = .ok (.ok (), out) ∧
      out[0]? = some (Spec.px 132 16 33 0) ∧ Spec.Etc.etc2Rgba1Std etc2Punch 0 = Spec.px 0 0 0 0 := by
  obtain ⟨o, e, d⟩ := C27_etc2_rgba1.success etc2Punch 4 4 (List.replicate 16 0)
    ⟨by decide, by decide, by decide⟩ (by decide) (by decide) (fun _ _ => trivial)
  exact ⟨o, e, (d.pixel 0 0 (by decide) (by decide)).trans (by decide +kernel), by decide +kernel⟩

/-- **C48** (the part that holds) Every pixel that is not transparent has the standard's colour, and
every pixel has the standard's alpha. -/
theorem C48_etc2_rgba1_standard_partial (data : List UInt8) (w h : Nat) (image out : List UInt32)
    (hs : Spec.SizesOk 4 4 8 w h image)
    (hok : Model.decodeEtc2Rgba1 data w h image = .ok (.ok (), out))
    (x y : Nat) (hx : x < w) (hy : y < h) :
    ∃ p, out[y * w + x]? = some p ∧
      Spec.alpha p = Spec.alpha (Spec.Etc.etc2Rgba1Std (blockAt 8 data w x y) (texelNo x y)) ∧
      (Spec.alpha p ≠ 0 → p = Spec.Etc.etc2Rgba1Std (blockAt 8 data w x y) (texelNo x y)) := by
  obtain ⟨_, _, d⟩ := ok_inv (fmt := .etc2rgba1) hs (fun _ _ => trivial) hok
  refine ⟨_, d.pixel x y hx hy, ?_⟩
  show Spec.alpha (Spec.Etc.etc2Rgba1Texel (blockAt 8 data w x y) (texelNo x y)) = _ ∧
    (Spec.alpha (Spec.Etc.etc2Rgba1Texel (blockAt 8 data w x y) (texelNo x y)) ≠ 0 →
      Spec.Etc.etc2Rgba1Texel (blockAt 8 data w x y) (texelNo x y) = _)
  generalize blockAt 8 data w x y = blk
  generalize texelNo x y = i
  have ha := alpha_etc2Rgba1Texel blk i
  unfold Spec.Etc.etc2Rgba1Std
  by_cases ht : Spec.Etc.transparent blk i
  · rw [if_pos ht] at ha
    rw [if_pos ht, ha]
    exact ⟨by decide, fun h => absurd rfl h⟩
  · rw [if_neg ht]
    exact ⟨rfl, fun _ => rfl⟩

example : Spec.alpha (Spec.Etc.etc2Rgba1Texel etc2Punch 1) ≠ 0 := by decide +kernel

/-! ## C28, C29 -/

/-- **C28** `decode_etc2_rgba8`: ETC2 RGB colour of bytes 8..16 with EAC alpha of bytes 0..8. -/
theorem C28_etc2_rgba8 : Spec.Decodes Model.decodeEtc2Rgba8 4 4 16 Spec.Etc.etc2Rgba8Texel :=
  decoder_spec .etc2rgba8

example : Spec.Etc.etc2Rgba8Texel ([100, 0x2d, 0x20, 0, 0, 0, 0, 0] ++ etc1Demo) 0 =
    Spec.px 134 2 2 96 := by decide +kernel

/-- **C29** (violated) These blocks decode to something else than the standard's value. -/
theorem C29_eacr_differs :
    ∃ out, Model.decodeEacr [100, 0x10, 0x20, 0, 0, 0, 0, 0] 4 4 (List.replicate 16 0) =
        .ok (.ok (), out) ∧
      out[0]? ≠ some (Spec.Etc.eacrTexel false [100, 0x10, 0x20, 0, 0, 0, 0, 0] 0) := by
  obtain ⟨o, e, d⟩ := (decoder_spec .eacr).success [100, 0x10, 0x20, 0, 0, 0, 0, 0] 4 4
    (List.replicate 16 0) ⟨by decide, by decide, by decide⟩ (by decide) (by decide)
    (fun _ _ => trivial)
  refine ⟨o, e, ?_⟩
  rw [(d.pixel 0 0 (by decide) (by decide) : o[0]? = _)]
  decide +kernel

/-- **C29** (what holds) The exact value of every pixel, with the indices taken from the
little-endian word; green and blue (respectively blue) are 0 and alpha is 255. -/
theorem C29_eacr_partial :
    Spec.Decodes Model.decodeEacr 4 4 8 (Spec.Etc.eacrTexelAsIs false) ∧
    Spec.Decodes Model.decodeEacrSigned 4 4 8 (Spec.Etc.eacrTexelAsIs true) ∧
    Spec.Decodes Model.decodeEacrg 4 4 16 (Spec.Etc.eacrgTexelAsIs false) ∧
    Spec.Decodes Model.decodeEacrgSigned 4 4 16 (Spec.Etc.eacrgTexelAsIs true) :=
  ⟨decoder_spec .eacr, decoder_spec .eacrs, decoder_spec .eacrg, decoder_spec .eacrgs⟩

omit [Build] in
/-- **C29** The result is the standard's on blocks that are the same in both byte orders. -/
theorem C29_palindromic_partial (signed : Bool) (blk : List UInt8) (i : Nat) (hi : i < 16)
    (h : blk.reverse = blk) :
    Spec.Etc.eacrTexelAsIs signed blk i = Spec.Etc.eacrTexel signed blk i := by
  unfold Spec.Etc.eacrTexelAsIs Spec.Etc.eacrTexel
  rw [eacIndexLE_palindrome blk i hi h]

example : [1, 2, 3, 4, 4, 3, 2, (1 : UInt8)].reverse = [1, 2, 3, 4, 4, 3, 2, 1] := by decide

end Verif.Props
