import Verif.Proofs.Halves

/-!
# Property C93: the halves of the blocks are independent

How the data are put together and what the pictures show is in Spec/Halves.lean.
-/

namespace Verif.Props

open Verif Verif.Spec Verif.Proofs

section
variable [Build]

/-- **C93** BC2, BC3, ETC2 RGBA8 and ATC RGBA: the first halves of the blocks of one texture with the second halves
of another one show the alpha of the first texture and the colours of the second one. -/
theorem C93_alpha (fmt : Format) (hf : fmt ∈ [.bc2, .bc3, .etc2rgba8, .atcrgba]) (first second : List UInt8)
    (w h : Nat) (image1 image2 image out1 out2 : List UInt32) (hs1 : fmt.SizesOk w h image1)
    (hs2 : fmt.SizesOk w h image2) (hs : fmt.SizesOk w h image) (hi : w * h ≤ image.length)
    (hok1 : decoder fmt first w h image1 = .ok (.ok (), out1))
    (hok2 : decoder fmt second w h image2 = .ok (.ok (), out2)) :
    ∃ out, decoder fmt (splice (numBlocks 4 4 w h) first second) w h image = .ok (.ok (), out) ∧
      Combines alphaAndColour w h out1 out2 out := by
  have hn : fmt ≠ .bc6s ∧ fmt ≠ .bc6u := by constructor <;> (rintro rfl; revert hf; decide)
  have h16 : fmt.blockSize = 16 := by
    simp only [List.mem_cons, List.not_mem_nil, or_false] at hf
    rcases hf with rfl | rfl | rfl | rfl <;> rfl
  have := Halves.picture (g := fun a c => a.take 8 ++ c.drop 8) (f := alphaAndColour) hn hn hn hs1 hs2 hs hi hok1 hok2
    fun a c ha hc => ⟨by rw [List.length_append, List.length_take, List.length_drop]; omega,
      fun i hi => Halves.alpha hf (ha.trans h16) hi⟩
  rwa [h16] at this

/-- **C93** BC5 and EAC RG11: in the same way, the red of the first texture and the green of the second one. -/
theorem C93_red_green (fmt : Format) (hf : fmt ∈ [.bc5, .eacrg, .eacrgs]) (first second : List UInt8)
    (w h : Nat) (image1 image2 image out1 out2 : List UInt32) (hs1 : fmt.SizesOk w h image1)
    (hs2 : fmt.SizesOk w h image2) (hs : fmt.SizesOk w h image) (hi : w * h ≤ image.length)
    (hok1 : decoder fmt first w h image1 = .ok (.ok (), out1))
    (hok2 : decoder fmt second w h image2 = .ok (.ok (), out2)) :
    ∃ out, decoder fmt (splice (numBlocks 4 4 w h) first second) w h image = .ok (.ok (), out) ∧
      Combines redAndGreen w h out1 out2 out := by
  have hn : fmt ≠ .bc6s ∧ fmt ≠ .bc6u := by constructor <;> (rintro rfl; revert hf; decide)
  have h16 : fmt.blockSize = 16 := by
    simp only [List.mem_cons, List.not_mem_nil, or_false] at hf
    rcases hf with rfl | rfl | rfl <;> rfl
  have := Halves.picture (g := fun a c => a.take 8 ++ c.drop 8) (f := redAndGreen) hn hn hn hs1 hs2 hs hi hok1 hok2
    fun a c ha hc => ⟨by rw [List.length_append, List.length_take, List.length_drop]; omega,
      fun i hi => Halves.redGreen hf (ha.trans h16) hi⟩
  rwa [h16] at this

/-- **C93** The blocks of a BC4 texture joined with those of a BC1 (ATC RGB) texture are a BC3 (ATC RGBA) texture
with the red of the first texture as alpha and the colours of the second one. -/
theorem C93_joined_alpha (fmt colour : Format)
    (hf : (fmt, colour) ∈ [(Format.bc3, Format.bc1), (.atcrgba, .atcrgb)]) (first second : List UInt8)
    (w h : Nat) (image1 image2 image out1 out2 : List UInt32) (hs1 : Format.SizesOk .bc4 w h image1)
    (hs2 : colour.SizesOk w h image2) (hs : fmt.SizesOk w h image) (hi : w * h ≤ image.length)
    (hok1 : decoder .bc4 first w h image1 = .ok (.ok (), out1))
    (hok2 : decoder colour second w h image2 = .ok (.ok (), out2)) :
    ∃ out, decoder fmt (join (numBlocks 4 4 w h) first second) w h image = .ok (.ok (), out) ∧
      Combines redAsAlpha w h out1 out2 out := by
  have h0 : (fmt ≠ .bc6s ∧ fmt ≠ .bc6u) ∧ (colour ≠ .bc6s ∧ colour ≠ .bc6u) ∧
      fmt.blockSize = 16 ∧ colour.blockSize = 8 := by
    have hf := hf
    simp only [List.mem_cons, List.not_mem_nil, or_false, Prod.mk.injEq] at hf
    rcases hf with ⟨rfl, rfl⟩ | ⟨rfl, rfl⟩ <;> decide
  obtain ⟨hn, hn2, h16, h8⟩ := h0
  have := Halves.picture (g := fun a c => a ++ c) (f := redAsAlpha) hn (by decide) hn2 hs1 hs2 hs hi hok1 hok2
    fun a c ha hc => ⟨by rw [List.length_append, ha, hc, h16, h8]; rfl, fun i hi => Halves.joinedAlpha hf ha hi⟩
  rwa [h8] at this

/-- **C93** The blocks of two BC4 (EAC R11) textures joined are a BC5 (EAC RG11) texture with the red of the first
texture as red and the red of the second one as green. -/
theorem C93_joined_red_green (fmt single : Format)
    (hf : (fmt, single) ∈ [(Format.bc5, Format.bc4), (.eacrg, .eacr), (.eacrgs, .eacrs)])
    (first second : List UInt8) (w h : Nat) (image1 image2 image out1 out2 : List UInt32)
    (hs1 : single.SizesOk w h image1) (hs2 : single.SizesOk w h image2) (hs : fmt.SizesOk w h image)
    (hi : w * h ≤ image.length) (hok1 : decoder single first w h image1 = .ok (.ok (), out1))
    (hok2 : decoder single second w h image2 = .ok (.ok (), out2)) :
    ∃ out, decoder fmt (join (numBlocks 4 4 w h) first second) w h image = .ok (.ok (), out) ∧
      Combines redAsGreen w h out1 out2 out := by
  have h0 : (fmt ≠ .bc6s ∧ fmt ≠ .bc6u) ∧ (single ≠ .bc6s ∧ single ≠ .bc6u) ∧
      fmt.blockSize = 16 ∧ single.blockSize = 8 := by
    have hf := hf
    simp only [List.mem_cons, List.not_mem_nil, or_false, Prod.mk.injEq] at hf
    rcases hf with ⟨rfl, rfl⟩ | ⟨rfl, rfl⟩ | ⟨rfl, rfl⟩ <;> decide
  obtain ⟨hn, hn1, h16, h8⟩ := h0
  have := Halves.picture (g := fun a c => a ++ c) (f := redAsGreen) hn hn1 hn1 hs1 hs2 hs hi hok1 hok2
    fun a c ha hc => ⟨by rw [List.length_append, ha, hc, h16, h8],
      fun i hi => Halves.joinedGreen hf (ha.trans h8) hi⟩
  rwa [h8] at this

end

/-- Two textures of 5 × 3 pixels in blocks of 16 bytes. -/
def halvesDemo : List UInt8 × List UInt8 :=
  ([200, 10, 0x88, 0xc6, 0xfa, 0x88, 0xc6, 0xfa, 0x00, 0xf8, 0x1f, 0x00, 0xe4, 0x1b, 0xe4, 0x1b,
    3, 90, 0x12, 0x34, 0x56, 0x78, 0x9a, 0xbc, 0x1f, 0x00, 0x00, 0xf8, 0x55, 0xaa, 0x00, 0xff],
   [77, 20, 0x01, 0x23, 0x45, 0x67, 0x89, 0xab, 0xe0, 0x07, 0x1f, 0xf8, 0x1b, 0xe4, 0x1b, 0xe4,
    9, 250, 0xfe, 0xdc, 0xba, 0x98, 0x76, 0x54, 0x34, 0x12, 0x78, 0x56, 0x9c, 0xde, 0x12, 0xf0])

/-- Whether both textures of the demo decode, the joined or spliced one too, and pixel (4, 2) is as claimed. -/
def halvesCheck [Build] (f : UInt32 → UInt32 → UInt32) (fmt fmt1 fmt2 : Format) (first second both : List UInt8) :
    Bool :=
  match decoder fmt1 first 5 3 (List.replicate 15 0), decoder fmt2 second 5 3 (List.replicate 15 0),
    decoder fmt both 5 3 (List.replicate 15 0) with
  | .ok (.ok (), o1), .ok (.ok (), o2), .ok (.ok (), o) =>
    o[14]? == some (f (o1[14]?.getD 0) (o2[14]?.getD 0)) && o1[14]? != o2[14]? && o[14]? != o1[14]?
  | _, _, _ => false

/- The sizes are fine and the textures decode, with different pixels. -/
example : Format.SizesOk .bc3 5 3 (List.replicate 15 0) ∧ Format.SizesOk .eacrg 5 3 (List.replicate 15 0) ∧
    Format.SizesOk .bc4 5 3 (List.replicate 15 0) := by
  refine ⟨⟨?_, ?_, ?_⟩, ⟨?_, ?_, ?_⟩, ⟨?_, ?_, ?_⟩⟩ <;> decide

example : ∀ fmt ∈ [Format.bc2, .bc3, .etc2rgba8, .atcrgba],
    @halvesCheck Build.debug alphaAndColour fmt fmt fmt halvesDemo.1 halvesDemo.2
      (splice 2 halvesDemo.1 halvesDemo.2) = true := by decide +kernel

example : ∀ fmt ∈ [Format.bc5, .eacrg, .eacrgs],
    @halvesCheck Build.debug redAndGreen fmt fmt fmt halvesDemo.1 halvesDemo.2
      (splice 2 halvesDemo.1 halvesDemo.2) = true := by decide +kernel

example : ∀ p ∈ [(Format.bc3, Format.bc1), (.atcrgba, .atcrgb)],
    @halvesCheck Build.debug redAsAlpha p.1 .bc4 p.2 halvesDemo.1 halvesDemo.2
      (join 2 halvesDemo.1 halvesDemo.2) = true := by decide +kernel

example : ∀ p ∈ [(Format.bc5, Format.bc4), (.eacrg, .eacr), (.eacrgs, .eacrs)],
    @halvesCheck Build.debug redAsGreen p.1 p.2 p.2 halvesDemo.1 halvesDemo.2
      (join 2 halvesDemo.1 halvesDemo.2) = true := by decide +kernel

end Verif.Props
