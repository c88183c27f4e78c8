import Verif.Spec.CrnPictures
import Verif.Props.StoreMore
import Verif.Props.CrnRoundTrip
import Verif.Props.UnityRoundTrip
import Verif.Props.UnityEtcRoundTrip

/-!
# Property C88: pictures that can be shipped in Crunch files

`Verif.Spec.Crn.Ships builds crunch code w h colour` says that some Crunch file is decoded to the picture
`colour`. Block (`x / 4`, `y / 4`) covers pixel (`x`, `y`).
-/

namespace Verif.Props

open Verif Verif.Spec Verif.Spec.Crn Verif.Proofs Verif.Proofs.Store

/-- Data that show a picture in one build show it in all of them. -/
theorem shows_everyBuild {dec : Build → List UInt8 → Nat → Nat → List UInt32 → Out (Except String Unit × List UInt32)}
    {raw w h : Nat} {texel : List UInt8 → Nat → UInt32} (D : ∀ b, Decodes (dec b) 4 4 raw texel)
    (hfit : bytesNeeded 4 4 raw w h < 2 ^ 64) {colour : Nat → Nat → UInt32}
    (hS : Shows (dec Build.release) (bytesNeeded 4 4 raw w h) w h colour) :
    ∃ data : List UInt8, data.length = bytesNeeded 4 4 raw w h ∧
      ∀ (b : Build) (image : List UInt32), image.length < 2 ^ 61 → w * h ≤ image.length →
        ∃ image', dec b data w h image = .ok (.ok (), image') ∧
          ∀ x y, x < w → y < h → image'[y * w + x]? = some (colour x y) := by
  obtain ⟨data, hl, hd⟩ := hS
  refine ⟨data, hl, fun b image hi hr => ?_⟩
  have hs : SizesOk 4 4 raw w h image := ⟨hi, hfit, by omega⟩
  obtain ⟨i1, e1, d1⟩ := hd image hi hr
  obtain ⟨i2, e2, d2⟩ := (D Build.release).success data w h image hs (by omega) hr (fun _ _ => trivial)
  obtain ⟨i3, e3, d3⟩ := (D b).success data w h image hs (by omega) hr (fun _ _ => trivial)
  refine ⟨i3, e3, fun x y hx hy => ?_⟩
  rw [e1] at e2
  cases e2
  rw [d3.pixel x y hx hy, ← d2.pixel x y hx hy, d1 x y hx hy]

/-- A file with the data of a picture ships the picture. -/
theorem ships_of {builds : Build → Prop} {crunch dec : Build → List UInt8 → Nat → Nat → List UInt32 →
      Out (Except String Unit × List UInt32)} {code w h : Nat} {data : List UInt8}
    {colour : Nat → Nat → UInt32} (hF : Stores builds crunch dec code data w h)
    (hd : ∀ (b : Build) (image : List UInt32), image.length < 2 ^ 61 → w * h ≤ image.length →
        ∃ image', dec b data w h image = .ok (.ok (), image') ∧
          ∀ x y, x < w → y < h → image'[y * w + x]? = some (colour x y)) :
    Ships builds crunch code w h colour := by
  obtain ⟨file, h1, h2, h3, h4, h5⟩ := hF
  refine ⟨file, h1, h2, h3, h4, fun b hb image hi hr => ?_⟩
  rw [h5 b hb w h image]
  exact hd b image hi hr

section
variable (w h : Nat) (hw : 0 < w) (hh : 0 < h) (hw' : w < 65536) (hh' : h < 65536)
  (hn : numBlocks 4 4 w h ≤ 8192)
include hw hh hw' hh' hn

/-- **C88** BC1: two RGB565 colours per block, one of them for every pixel. -/
theorem C88_bc1 (c : Nat → Nat → Bool → Nat) (hc : ∀ a b s, c a b s < 2 ^ 16) (pick : Nat → Nat → Bool) :
    Ships everyBuild @Model.Crn.decodeCrunch 0 w h (fun x y => rgb565 (c (x / 4) (y / 4) (pick x y))) ∧
    Ships (panicFree w) @Model.Crn.Unity.decodeUnityCrunch 0 w h
      (fun x y => rgb565 (c (x / 4) (y / 4) (pick x y))) := by
  have hfit : bytesNeeded 4 4 8 w h < 2 ^ 64 := by unfold bytesNeeded; omega
  obtain ⟨data, hl, hd⟩ := shows_everyBuild (dec := @Model.decodeBc1) (fun b => @decoder_spec b .bc1) hfit
    (@C81_bc1 Build.release w h hfit c hc pick)
  exact ⟨ships_of ((C82_small w h data hw hh hw' hh' hn).1 hl).1 hd,
    ships_of ((C83_small_partial w h data hw hh hw' hh' hn).1 hl).1 hd⟩

/-- **C88** BC3: two RGB565 colours and two alpha values per block, one of each for every pixel. -/
theorem C88_bc3 (c v : Nat → Nat → Bool → Nat) (hc : ∀ a b s, c a b s < 2 ^ 16)
    (hv : ∀ a b s, v a b s < 2 ^ 8) (pick pickAlpha : Nat → Nat → Bool) :
    Ships everyBuild @Model.Crn.decodeCrunch 2 w h
      (fun x y => rgb565 (c (x / 4) (y / 4) (pick x y)) (v (x / 4) (y / 4) (pickAlpha x y))) ∧
    Ships (panicFree w) @Model.Crn.Unity.decodeUnityCrunch 2 w h
      (fun x y => rgb565 (c (x / 4) (y / 4) (pick x y)) (v (x / 4) (y / 4) (pickAlpha x y))) := by
  have hfit : bytesNeeded 4 4 16 w h < 2 ^ 64 := by unfold bytesNeeded; omega
  obtain ⟨data, hl, hd⟩ := shows_everyBuild (dec := @Model.decodeBc3) (fun b => @decoder_spec b .bc3) hfit
    (@C81_bc3 Build.release w h hfit c v hc hv pick pickAlpha)
  exact ⟨ships_of ((C82_small w h data hw hh hw' hh' hn).2 hl).1 hd,
    ships_of ((C83_small_partial w h data hw hh hw' hh' hn).2 hl).1 hd⟩

/-- **C88** BC4: two values of red per block, one of them for every pixel. -/
theorem C88_bc4 (v : Nat → Nat → Bool → Nat) (hv : ∀ a b s, v a b s < 2 ^ 8) (pick : Nat → Nat → Bool) :
    Ships everyBuild @Model.Crn.decodeCrunch 9 w h (fun x y => px (v (x / 4) (y / 4) (pick x y)) 0 0 255) ∧
    Ships (panicFree w) @Model.Crn.Unity.decodeUnityCrunch 9 w h
      (fun x y => px (v (x / 4) (y / 4) (pick x y)) 0 0 255) := by
  have hfit : bytesNeeded 4 4 8 w h < 2 ^ 64 := by unfold bytesNeeded; omega
  obtain ⟨data, hl, hd⟩ := shows_everyBuild (dec := @Model.decodeBc4) (fun b => @decoder_spec b .bc4) hfit
    (@C81_bc4 Build.release w h hfit v hv pick)
  exact ⟨ships_of ((C82_small w h data hw hh hw' hh' hn).1 hl).2 hd,
    ships_of ((C83_small_partial w h data hw hh hw' hh' hn).1 hl).2 hd⟩

/-- **C88** BC5, for at most 4096 blocks: two values of red and two of green per block, one of each for
every pixel. -/
theorem C88_bc5 (h4 : numBlocks 4 4 w h ≤ 4096) (v u : Nat → Nat → Bool → Nat)
    (hv : ∀ a b s, v a b s < 2 ^ 8) (hu : ∀ a b s, u a b s < 2 ^ 8) (pick pick' : Nat → Nat → Bool) :
    Ships everyBuild @Model.Crn.decodeCrunch 7 w h
      (fun x y => px (v (x / 4) (y / 4) (pick x y)) (u (x / 4) (y / 4) (pick' x y)) 0 255) ∧
    Ships (panicFree w) @Model.Crn.Unity.decodeUnityCrunch 7 w h
      (fun x y => px (v (x / 4) (y / 4) (pick x y)) (u (x / 4) (y / 4) (pick' x y)) 0 255) := by
  have hfit : bytesNeeded 4 4 16 w h < 2 ^ 64 := by unfold bytesNeeded; omega
  obtain ⟨data, hl, hd⟩ := shows_everyBuild (dec := @Model.decodeBc5) (fun b => @decoder_spec b .bc5) hfit
    (@C81_bc5 Build.release w h hfit v u hv hu pick pick')
  exact ⟨ships_of (((C82_small w h data hw hh hw' hh' hn).2 hl).2 h4) hd,
    ships_of (((C83_small_partial w h data hw hh hw' hh' hn).2 hl).2 h4) hd⟩

end

theorem beNat_eight (b0 b1 b2 b3 b4 b5 b6 b7 : UInt8) :
    beNat [b0, b1, b2, b3, b4, b5, b6, b7] = ((((((b0.toNat * 256 + b1.toNat) * 256 + b2.toNat) * 256 +
      b3.toNat) * 256 + b4.toNat) * 256 + b5.toNat) * 256 + b6.toNat) * 256 + b7.toNat := by
  simp only [beNat, List.reverse_cons, List.reverse_nil, List.nil_append, List.cons_append, leNat]
  omega

/-- The conditions of `OneColour` on the fields of a block. -/
theorem oneColour_bits {b : List UInt8} (hl : b.length = 8) {t : Nat}
    (h0 : Spec.Etc.bits b 58 56 = 0) (h1 : Spec.Etc.bits b 50 48 = 0) (h2 : Spec.Etc.bits b 42 40 = 0)
    (h3 : Spec.Etc.bits b 33 32 = 2) (h4 : Spec.Etc.bits b 39 37 = t) (h5 : Spec.Etc.bits b 36 34 = t) :
    Unity.OneColour (b.take 4) := by
  match b, hl with
  | [b0, b1, b2, b3, b4, b5, b6, b7], _ =>
    have l0 := b0.toNat_lt
    have l1 := b1.toNat_lt
    have l2 := b2.toNat_lt
    have l3 := b3.toNat_lt
    have l4 := b4.toNat_lt
    have l5 := b5.toNat_lt
    have l6 := b6.toNat_lt
    have l7 := b7.toNat_lt
    unfold Unity.OneColour
    simp only [List.take_succ_cons, List.take_zero, List.getD_cons_zero, List.getD_cons_succ]
    unfold Spec.Etc.bits at h0 h1 h2 h3 h4 h5
    have hN := beNat_eight b0 b1 b2 b3 b4 b5 b6 b7
    generalize beNat [b0, b1, b2, b3, b4, b5, b6, b7] = N at *
    refine ⟨?_, ?_, ?_, ?_, ?_⟩
    · clear h1 h2 h3 h4 h5; omega
    · clear h0 h2 h3 h4 h5; omega
    · clear h0 h1 h3 h4 h5; omega
    · clear h0 h1 h2 h4 h5; omega
    · have e1 : b3.toNat / 32 = t := by clear h0 h1 h2 h3 h5; omega
      have e2 : b3.toNat / 4 % 8 = t := by clear h0 h1 h2 h3 h4; omega
      rw [e1, e2]

/-- The blocks of ETC1 with one base colour can be stored. -/
theorem oneBlock_oneColour {c : Nat → Nat} {t : Nat} {f : Nat → Nat} (hc : HasBits 5 c) (ht : t < 8) :
    Unity.OneColour ((oneBlock c t f).take 4) := by
  have h3 := one_codeword (c := c) (f := f) ht false
  have h4 := one_codeword (c := c) (f := f) ht true
  unfold Spec.Etc.codeword at h3 h4
  simp only [if_true, Bool.false_eq_true, if_false] at h3 h4
  exact oneColour_bits (oneBlock_length c t f) (one_base hc (ch := 0) (by decide)).2
    (one_base hc (ch := 1) (by decide)).2 (one_base hc (ch := 2) (by decide)).2
    (by rw [one_bits c t f 33 32 2 2 (by decide) (by decide)]; rfl) h3 h4

section
variable (w h : Nat) (hw : 0 < w) (hh : 0 < h) (hw' : w < 65536) (hh' : h < 65536)
  (hn : numBlocks 4 4 w h ≤ 8192)
include hw hh hw' hh' hn

/-- **C88** ETC1: one colour of 5:5:5 bits and one table of modifiers per block, and any modifier of the
table for every pixel. -/
theorem C88_etc1 (c : Nat → Nat → Nat → Nat)
    (hc : ∀ a b, HasBits 5 (c a b)) (t : Nat → Nat → Nat) (ht : ∀ a b, t a b < 8) (f : Nat → Nat → Nat)
    (hf : ∀ x y, f x y < 4) :
    Ships (panicFree w) @Model.Crn.Unity.decodeUnityCrunch 13 w h (fun x y =>
      Etc.shade (fun ch => expand5 (c (x / 4) (y / 4) ch)) (Etc.modifier (t (x / 4) (y / 4)) (f x y)) 255) := by
  have hfit : bytesNeeded 4 4 8 w h < 2 ^ 64 := by unfold bytesNeeded; omega
  have hlen := fun a b => oneBlock_length (c a b) (t a b) (inBlock f a b)
  have hd := fun b => @shows_blocks _ 4 4 8 _ _ (@decoder_spec b .etc1) (by decide) (by decide) w h hfit
    (fun x y => Etc.shade (fun ch => expand5 (c (x / 4) (y / 4) ch)) (Etc.modifier (t (x / 4) (y / 4)) (f x y)) 255)
    (fun a b => oneBlock (c a b) (t a b) (inBlock f a b)) hlen (fun _ _ => trivial) (fun x y => by
      refine (one_texel (hc _ _) (ht _ _) (inBlock_lt hf _ _) (by omega)).trans ?_
      rw [inBlock_eq])
  refine ships_of (C86_etc1s w h ⟨hw, hh, hw', hh', by omega⟩ _ (blocks_length fun k => hlen _ _) (fun k hk => ?_)
    (atMost_of_le _ hn) (atMost_of_le _ hn)) hd
  rw [blocks_get (fun k => hlen _ _) hk]
  exact oneBlock_oneColour (hc _ _) (ht _ _)

/-- **C88** ETC2 with alpha: the same, and any alpha value for every block. -/
theorem C88_etc2a (c : Nat → Nat → Nat → Nat)
    (hc : ∀ a b, HasBits 5 (c a b)) (t : Nat → Nat → Nat) (ht : ∀ a b, t a b < 8) (f : Nat → Nat → Nat)
    (hf : ∀ x y, f x y < 4) (al : Nat → Nat → Nat) (hal : ∀ a b, al a b < 256) :
    Ships (panicFree w) @Model.Crn.Unity.decodeUnityCrunch 14 w h (fun x y =>
      Etc.shade (fun ch => expand5 (c (x / 4) (y / 4) ch)) (Etc.modifier (t (x / 4) (y / 4)) (f x y))
        (al (x / 4) (y / 4))) := by
  have hfit : bytesNeeded 4 4 16 w h < 2 ^ 64 := by unfold bytesNeeded; omega
  have hlen : ∀ a b, (eacFlat (al a b) ++ oneBlock (c a b) (t a b) (inBlock f a b)).length = 16 := fun a b => by
    rw [List.length_append, eacFlat_length, oneBlock_length]
  have hd := fun b => @shows_blocks _ 4 4 16 _ _ (@decoder_spec b .etc2rgba8) (by decide) (by decide) w h hfit
    (fun x y => Etc.shade (fun ch => expand5 (c (x / 4) (y / 4) ch)) (Etc.modifier (t (x / 4) (y / 4)) (f x y))
      (al (x / 4) (y / 4)))
    (fun a b => eacFlat (al a b) ++ oneBlock (c a b) (t a b) (inBlock f a b)) hlen (fun _ _ => trivial)
    (fun x y => by
      show Etc.etc2Rgba8Texel _ _ = _
      unfold Etc.etc2Rgba8Texel
      rw [List.drop_left' (eacFlat_length _), List.take_left' (eacFlat_length _), eacAlpha_flat (hal _ _),
        one_etc2 (hc _ _), one_texel (hc _ _) (ht _ _) (inBlock_lt hf _ _) (by omega), inBlock_eq]
      exact withAlpha_px (Store.clamp255_lt _) (Store.clamp255_lt _) (Store.clamp255_lt _) (by decide))
  refine ships_of (C86_etc2as w h ⟨hw, hh, hw', hh', by omega⟩ _ (blocks_length fun k => hlen _ _) (fun k hk => ?_)
    (atMost_of_le _ hn) (atMost_of_le _ hn) (atMost_of_le _ hn) (atMost_of_le _ hn)) hd
  have e : ∀ data : List UInt8, Spec.blockBytes 8 data (2 * k + 1) = (Spec.blockBytes 16 data k).drop 8 := by
    intro data
    unfold Spec.blockBytes
    rw [List.drop_take, List.drop_drop, show (2 * k + 1) * 8 = k * 16 + 8 by omega]
  rw [e, blocks_get (fun k => hlen _ _) hk, List.drop_left' (eacFlat_length _)]
  exact oneBlock_oneColour (hc _ _) (ht _ _)

end

/- A picture of 360 × 360 pixels, 8100 blocks: a checkerboard of black and of a colour that differs from
block to block. -/
example : Ships everyBuild @Model.Crn.decodeCrunch 0 360 360
    (fun x y => rgb565 (if (x + y) % 2 == 0 then (x / 4 * 90 + y / 4) % 65536 else 0)) := by
  have := (C88_bc1 360 360 (by decide) (by decide) (by decide) (by decide) (by decide)
    (fun a b s => if s then (a * 90 + b) % 65536 else 0) (fun a b s => by cases s <;> simp <;> omega)
    (fun x y => (x + y) % 2 == 0)).1
  exact this

/- The same size in a file of Unity's variant, in builds without overflow checks and with them: a shade of
grey for every block, with a checkerboard of its brighter and darker versions. -/
example : Ships everyBuild @Model.Crn.Unity.decodeUnityCrunch 13 360 360
    (fun x y => Etc.shade (fun _ => expand5 ((x / 4 + y / 4) % 32)) (Etc.modifier 3 ((x + y) % 4)) 255) := by
  obtain ⟨file, h1, h2, h3, h4, h5⟩ := C88_etc1 360 360 (by decide) (by decide) (by decide) (by decide) (by decide)
    (fun a b _ => (a + b) % 32) (fun a b ch => Nat.mod_lt _ (by decide)) (fun _ _ => 3) (fun _ _ => by decide)
    (fun x y => (x + y) % 4) (fun x y => Nat.mod_lt _ (by decide))
  exact ⟨file, h1, h2, h3, h4, fun b _ => h5 b (Or.inr (by decide))⟩

end Verif.Props
