import Verif.Proofs.StoreEtc
import Verif.Proofs.StoreEac
import Verif.Proofs.StorePvrtc
import Verif.Props.Pvrtc
import Verif.Props.Store

/-!
# Property C84: which pictures of ETC, EAC, ATC and PVRTC textures come out exactly

As C81. For EAC R11 and RG11 it is false of the code: most flat pictures cannot be shown by any data.
-/

namespace Verif.Props

open Verif Verif.Spec Verif.Proofs Verif.Proofs.Store

theorem inBlock_lt {f : Nat → Nat → Nat} {n : Nat} (h : ∀ x y, f x y < n) (a b i : Nat) : inBlock f a b i < n :=
  h _ _

section
variable [Build] (w h : Nat)

/-! ## ETC -/

/-- **C84** ETC1: a colour of 5:5:5 bits and a table of four modifiers per block, any of the modifiers for
every pixel. -/
theorem C84_etc1_partial (hfit : bytesNeeded 4 4 8 w h < 2 ^ 64) (c : Nat → Nat → Nat → Nat)
    (hc : ∀ a b, HasBits 5 (c a b)) (t : Nat → Nat → Nat) (ht : ∀ a b, t a b < 8) (f : Nat → Nat → Nat)
    (hf : ∀ x y, f x y < 4) :
    Shows Model.decodeEtc1 (bytesNeeded 4 4 8 w h) w h (fun x y =>
      Etc.shade (fun ch => expand5 (c (x / 4) (y / 4) ch)) (Etc.modifier (t (x / 4) (y / 4)) (f x y)) 255) := by
  refine shows_of (decoder_spec .etc1) (by decide) (by decide) hfit
    (fun a b => oneBlock (c a b) (t a b) (inBlock f a b)) (fun _ _ => oneBlock_length _ _ _)
    (fun _ _ => trivial) (fun x y => ?_)
  refine (one_texel (hc _ _) (ht _ _) (inBlock_lt hf _ _) (by omega)).trans ?_
  rw [inBlock_eq]

/-- **C84** ETC1: two colours of 4:4:4 bits per block, side by side or one above the other, each with a
table of modifiers. -/
theorem C84_etc1_halves_partial (hfit : bytesNeeded 4 4 8 w h < 2 ^ 64) (c : Nat → Nat → Bool → Nat → Nat)
    (hc : ∀ a b s, HasBits 4 (c a b s)) (t : Nat → Nat → Bool → Nat) (ht : ∀ a b s, t a b s < 8)
    (flip : Nat → Nat → Bool) (f : Nat → Nat → Nat) (hf : ∀ x y, f x y < 4) :
    Shows Model.decodeEtc1 (bytesNeeded 4 4 8 w h) w h (fun x y =>
      let s := halfAt (flip (x / 4) (y / 4)) x y
      Etc.shade (fun ch => Etc.expand4 (c (x / 4) (y / 4) s ch)) (Etc.modifier (t (x / 4) (y / 4) s) (f x y)) 255) := by
  refine shows_of (decoder_spec .etc1) (by decide) (by decide) hfit
    (fun a b => twoBlock (c a b) (t a b) (flip a b) (inBlock f a b)) (fun _ _ => twoBlock_length _ _ _ _)
    (fun _ _ => trivial) (fun x y => ?_)
  refine (two_texel (hc _ _) (ht _ _) (inBlock_lt hf _ _) (by omega)).trans ?_
  rw [inBlock_eq]
  have e : halfOf (flip (x / 4) (y / 4)) (y % 4 * 4 + x % 4) = halfAt (flip (x / 4) (y / 4)) x y := by
    unfold halfOf halfAt
    rw [show (y % 4 * 4 + x % 4) / 4 = y % 4 by omega, show (y % 4 * 4 + x % 4) % 4 = x % 4 by omega]
  simp only [e]

/-- **C84** ETC2 RGB: any gradient between three colours of 6:7:6 bits for every block. -/
theorem C84_etc2_rgb_partial (hfit : bytesNeeded 4 4 8 w h < 2 ^ 64) (c : Nat → Nat → Nat → Nat → Nat)
    (hc : ∀ a b k, Is676 (c a b k)) :
    Shows Model.decodeEtc2Rgb (bytesNeeded 4 4 8 w h) w h
      (fun x y => gradientColour (c (x / 4) (y / 4)) (x % 4) (y % 4) 255) := by
  refine shows_of (decoder_spec .etc2rgb) (by decide) (by decide) hfit
    (fun a b => planarBlock (c a b)) (fun _ _ => planarBlock_length _) (fun _ _ => trivial) (fun x y => ?_)
  refine (etc2RgbTexel_planar (hc _ _) _).trans ?_
  rw [show (y % 4 * 4 + x % 4) / 4 = y % 4 by omega, show (y % 4 * 4 + x % 4) % 4 = x % 4 by omega]

/-- **C84** ETC2 RGBA1: the same, opaque. -/
theorem C84_etc2_rgba1_partial (hfit : bytesNeeded 4 4 8 w h < 2 ^ 64) (c : Nat → Nat → Nat → Nat → Nat)
    (hc : ∀ a b k, Is676 (c a b k)) :
    Shows Model.decodeEtc2Rgba1 (bytesNeeded 4 4 8 w h) w h
      (fun x y => gradientColour (c (x / 4) (y / 4)) (x % 4) (y % 4) 255) := by
  refine shows_of (decoder_spec .etc2rgba1) (by decide) (by decide) hfit
    (fun a b => planarBlock (c a b)) (fun _ _ => planarBlock_length _) (fun _ _ => trivial) (fun x y => ?_)
  refine (etc2Rgba1Texel_planar (hc _ _) _).trans ?_
  rw [show (y % 4 * 4 + x % 4) / 4 = y % 4 by omega, show (y % 4 * 4 + x % 4) % 4 = x % 4 by omega]

/-- **C84** ETC2 RGBA8: the same, with any alpha value for every block. -/
theorem C84_etc2_rgba8_partial (hfit : bytesNeeded 4 4 16 w h < 2 ^ 64) (c : Nat → Nat → Nat → Nat → Nat)
    (hc : ∀ a b k, Is676 (c a b k)) (al : Nat → Nat → Nat) (hal : ∀ a b, al a b < 256) :
    Shows Model.decodeEtc2Rgba8 (bytesNeeded 4 4 16 w h) w h
      (fun x y => gradientColour (c (x / 4) (y / 4)) (x % 4) (y % 4) (al (x / 4) (y / 4))) := by
  refine shows_of (decoder_spec .etc2rgba8) (by decide) (by decide) hfit
    (fun a b => eacFlat (al a b) ++ planarBlock (c a b))
    (fun _ _ => by
      rw [List.length_append, eacFlat_length, planarBlock_length]; rfl)
    (fun _ _ => trivial) (fun x y => ?_)
  show Etc.etc2Rgba8Texel _ _ = _
  unfold Etc.etc2Rgba8Texel
  rw [List.drop_left' (eacFlat_length _), List.take_left' (eacFlat_length _), eacAlpha_flat (hal _ _),
    etc2RgbTexel_planar (hc _ _),
    show (y % 4 * 4 + x % 4) / 4 = y % 4 by omega, show (y % 4 * 4 + x % 4) % 4 = x % 4 by omega]
  exact withAlpha_px (gradient_lt _ _ _ _) (gradient_lt _ _ _ _) (gradient_lt _ _ _ _) (by decide)

/-- **C84** ETC2 RGBA8: any picture with one colour of 6:7:6 bits and one alpha value per block. -/
theorem C84_etc2_flat_partial (hfit : bytesNeeded 4 4 16 w h < 2 ^ 64) (c : Nat → Nat → Nat → Nat)
    (hc : ∀ a b, Is676 (c a b)) (al : Nat → Nat → Nat) (hal : ∀ a b, al a b < 256) :
    Shows Model.decodeEtc2Rgba8 (bytesNeeded 4 4 16 w h) w h
      (fun x y => px (expand6 (c (x / 4) (y / 4) 0)) (Etc.expand7 (c (x / 4) (y / 4) 1))
        (expand6 (c (x / 4) (y / 4) 2)) (al (x / 4) (y / 4))) := by
  have hS := C84_etc2_rgba8_partial w h hfit (fun a b _ => c a b) (fun a b _ => hc a b) al hal
  have e : (fun x y => gradientColour (fun _ => c (x / 4) (y / 4)) (x % 4) (y % 4) (al (x / 4) (y / 4))) =
      fun x y => px (expand6 (c (x / 4) (y / 4) 0)) (Etc.expand7 (c (x / 4) (y / 4) 1))
        (expand6 (c (x / 4) (y / 4) 2)) (al (x / 4) (y / 4)) := by
    funext x y
    unfold gradientColour
    rw [gradient_flat (hc _ _) _ _ (by decide), gradient_flat (hc _ _) _ _ (by decide),
      gradient_flat (hc _ _) _ _ (by decide)]
    rfl
  rw [← e]
  exact hS

/-! ## ATC -/

/-- **C84** ATC RGB: a colour of 5:5:5 bits and one of 5:6:5 bits per block, one of them for every pixel. -/
theorem C84_atc_rgb_partial (hfit : bytesNeeded 4 4 8 w h < 2 ^ 64) (c : Nat → Nat → Bool → Nat → Nat)
    (h0 : ∀ a b, HasBits 5 (c a b false))
    (h1 : ∀ a b, c a b true 0 < 32 ∧ c a b true 1 < 64 ∧ c a b true 2 < 32) (pick : Nat → Nat → Bool) :
    Shows Model.decodeAtcRgb4 (bytesNeeded 4 4 8 w h) w h (fun x y =>
      if pick x y then opaque565 (c (x / 4) (y / 4) true) else opaque555 (c (x / 4) (y / 4) false)) := by
  refine shows_of (decoder_spec .atcrgb) (by decide) (by decide) hfit
    (fun a b => bytesLe 8 (atcBlock (c a b) (inBlock pick a b))) (fun _ _ => bytesLe_length _ _)
    (fun _ _ => trivial) (fun x y => ?_)
  refine (atc_texel (h0 _ _) (h1 _ _) (leNat_bytesLe _ _ (atcBlock_lt _ _)) (by omega)).trans ?_
  rw [inBlock_eq]
  cases pick x y <;> rfl

/-- **C84** ATC RGBA8: the same, with two alpha values per block, one of them for every pixel. -/
theorem C84_atc_rgba_partial (hfit : bytesNeeded 4 4 16 w h < 2 ^ 64) (c : Nat → Nat → Bool → Nat → Nat)
    (h0 : ∀ a b, HasBits 5 (c a b false))
    (h1 : ∀ a b, c a b true 0 < 32 ∧ c a b true 1 < 64 ∧ c a b true 2 < 32) (v : Nat → Nat → Bool → Nat)
    (hv : ∀ a b s, v a b s < 2 ^ 8) (pick pickAlpha : Nat → Nat → Bool) :
    Shows Model.decodeAtcRgba8 (bytesNeeded 4 4 16 w h) w h (fun x y =>
      if pick x y then opaque565 (c (x / 4) (y / 4) true) (v (x / 4) (y / 4) (pickAlpha x y))
      else opaque555 (c (x / 4) (y / 4) false) (v (x / 4) (y / 4) (pickAlpha x y))) := by
  refine shows_of (decoder_spec .atcrgba) (by decide) (by decide) hfit
    (fun a b => pair (valueBlock (v a b) (inBlock pickAlpha a b)) (atcBlock (c a b) (inBlock pick a b)))
    (fun _ _ => pair_length _ _) (fun _ _ => trivial) (fun x y => ?_)
  show Atc.rgbaTexelAsIs _ _ = _
  unfold Atc.rgbaTexelAsIs
  have hlt := atcBlock_lt (c (x / 4) (y / 4)) (inBlock pick (x / 4) (y / 4))
  have k0 : ∀ ch, c (x / 4) (y / 4) false ch < 32 := h0 (x / 4) (y / 4)
  obtain ⟨k1, k2, k3⟩ := h1 (x / 4) (y / 4)
  rw [pair_drop, atc_texel (h0 _ _) (h1 _ _) (leNat_bytesLe _ _ hlt) (by omega),
    bc3Value_block (hv _ _) (leNat_pair (valueBlock_lt (hv _ _) _) hlt) (by omega), inBlock_eq, inBlock_eq]
  unfold atcEnd
  have m0 := k0 0
  have m1 := k0 1
  have m2 := k0 2
  cases pick x y
  · simp only [Bool.false_eq_true, false_and, if_false]
    exact withAlpha_px (by unfold expand5; omega) (by unfold expand5; omega) (by unfold expand5; omega) (by decide)
  · rw [if_neg (by decide), if_pos ⟨rfl, rfl⟩, if_neg (by decide), if_pos rfl]
    exact withAlpha_px (by unfold expand5; omega) (by unfold expand6; omega) (by unfold expand5; omega) (by decide)

/-! ## EAC -/

/-- **C84** EAC R11: one of the levels in the list for every block. -/
theorem C84_eacr_partial (signed : Bool) (hfit : bytesNeeded 4 4 8 w h < 2 ^ 64) (v : Nat → Nat → Nat)
    (hv : ∀ a b, v a b ∈ Etc.levels signed) :
    Shows (if signed then Model.decodeEacrSigned else Model.decodeEacr) (bytesNeeded 4 4 8 w h) w h
      (fun x y => px (v (x / 4) (y / 4)) 0 0 255) := by
  have D : DecodesLegal (if signed then Model.decodeEacrSigned else Model.decodeEacr) 4 4 8 (fun _ => True)
      (Etc.eacrTexelAsIs signed) := by
    cases signed
    · exact decoder_spec .eacr
    · exact decoder_spec .eacrs
  refine shows_of D (by decide) (by decide) hfit (fun a b => Eac.flatBlock signed (v a b))
    (fun _ _ => Eac.flatBlock_length _ _) (fun _ _ => trivial) (fun x y => ?_)
  unfold Etc.eacrTexelAsIs
  rw [Eac.flatBlock_level (hv _ _) (by omega)]

/-- **C84** EAC RG11: one of the levels in the list for each channel of every block. -/
theorem C84_eacrg_partial (signed : Bool) (hfit : bytesNeeded 4 4 16 w h < 2 ^ 64) (u v : Nat → Nat → Nat)
    (hu : ∀ a b, u a b ∈ Etc.levels signed) (hv : ∀ a b, v a b ∈ Etc.levels signed) :
    Shows (if signed then Model.decodeEacrgSigned else Model.decodeEacrg) (bytesNeeded 4 4 16 w h) w h
      (fun x y => px (u (x / 4) (y / 4)) (v (x / 4) (y / 4)) 0 255) := by
  have D : DecodesLegal (if signed then Model.decodeEacrgSigned else Model.decodeEacrg) 4 4 16 (fun _ => True)
      (Etc.eacrgTexelAsIs signed) := by
    cases signed
    · exact decoder_spec .eacrg
    · exact decoder_spec .eacrgs
  refine shows_of D (by decide) (by decide) hfit
    (fun a b => Eac.flatBlock signed (u a b) ++ Eac.flatBlock signed (v a b))
    (fun _ _ => by rw [List.length_append, Eac.flatBlock_length, Eac.flatBlock_length])
    (fun _ _ => trivial) (fun x y => ?_)
  unfold Etc.eacrgTexelAsIs
  rw [List.take_left' (Eac.flatBlock_length _ _), List.drop_left' (Eac.flatBlock_length _ _),
    Eac.flatBlock_level (hu _ _) (by omega), Eac.flatBlock_level (hv _ _) (by omega)]

/-- **C84, violated.** A picture of one red level that is not in the list is shown by no data at all,
although the standard has a block for it. -/
theorem C84_eacr_violated (signed : Bool) (v : Nat) (hv : v < 256) (hout : v ∉ Etc.levels signed)
    (hw : 4 ≤ w) (hh : 4 ≤ h) (hpix : w * h < 2 ^ 61) :
    (∃ blk, blk.length = 8 ∧ ∀ i, i < 16 → Etc.eacrTexel signed blk i = px v 0 0 255) ∧
    ¬ Shows (if signed then Model.decodeEacrSigned else Model.decodeEacr) (bytesNeeded 4 4 8 w h) w h
      (fun _ _ => px v 0 0 255) := by
  refine ⟨⟨Eac.standardBlock signed v, by unfold Eac.standardBlock; split <;> (try split) <;> rfl,
    fun i hi => Eac.standardBlock_table signed ⟨v, hv⟩ ⟨i, hi⟩⟩, ?_⟩
  rintro ⟨data, hlen, hall⟩
  have D : DecodesLegal (if signed then Model.decodeEacrSigned else Model.decodeEacr) 4 4 8 (fun _ => True)
      (Etc.eacrTexelAsIs signed) := by
    cases signed
    · exact decoder_spec .eacr
    · exact decoder_spec .eacrs
  have hn : numBlocks 4 4 w h ≤ w * h := by
    unfold numBlocks ceilDiv
    exact Nat.mul_le_mul (by omega) (by omega)
  have hn0 : 0 < numBlocks 4 4 w h := by
    unfold numBlocks ceilDiv
    exact Nat.mul_pos (by omega) (by omega)
  obtain ⟨out, e, hp⟩ := hall (List.replicate (w * h) 0) (by simpa using hpix) (by simp)
  obtain ⟨out', e', d⟩ := D.success data w h (List.replicate (w * h) 0)
    ⟨by simpa using hpix, by unfold bytesNeeded; omega, by omega⟩ (by omega) (by simp) (fun _ _ => trivial)
  rw [e] at e'
  cases e'
  refine hout (Eac.level_mem (blk := blockBytes 8 data 0) ?_ fun i hi => ?_)
  · unfold bytesNeeded at hlen
    unfold blockBytes
    rw [List.length_take, List.length_drop]
    omega
  · have h1 := hp (i % 4) (i / 4) (by omega) (by omega)
    rw [d.pixel (i % 4) (i / 4) (by omega) (by omega)] at h1
    unfold pixelAt at h1
    rw [show i / 4 / 4 = 0 by omega, show i % 4 / 4 = 0 by omega, Nat.zero_mul, Nat.zero_add,
      show i / 4 % 4 * 4 + i % 4 % 4 = i by omega] at h1
    have h2 := congrArg red (Option.some.inj h1)
    unfold Etc.eacrTexelAsIs at h2
    rw [red_px (Eac.eac8_lt _ _ _) (by decide) (by decide) (by decide), red_px hv (by decide) (by decide) (by decide)]
      at h2
    exact h2

/-- **C84** PVRTC with 2 (`w2`) or 4 bits per pixel: two colours for the whole texture and a free choice
between them for every pixel. -/
theorem C84_pvrtc_partial (w2 : Bool) (hw : 0 < w) (hh : 0 < h)
    (hx : Pvrtc.IsPow2 (ceilDiv w (Pvrtc.bw w2))) (hy : Pvrtc.IsPow2 (ceilDiv h 4))
    (hfit : bytesNeeded (Pvrtc.bw w2) 4 8 w h < 2 ^ 64) (c : Bool → Nat → Nat) (hc : IsTwoTone c)
    (pick : Nat → Nat → Bool) :
    Shows (pvrtc w2) (bytesNeeded (Pvrtc.bw w2) 4 8 w h) w h (fun x y => twoToneColour c (pick x y)) := by
  obtain ⟨data, hd, hall⟩ := Pv.texture_exists w2 hx hy hc.1 hc.2 pick
  have hlen : data.length = bytesNeeded (Pvrtc.bw w2) 4 8 w h := by
    rw [hd]; rfl
  refine ⟨data, hlen, fun image h1 h2 => ?_⟩
  have hb : 0 < Pvrtc.bw w2 := by cases w2 <;> decide
  obtain ⟨out, e, d⟩ := C49_pvrtc_exact w2 data w h image ⟨h1, hfit, by omega⟩ hw hh (Nat.le_of_eq hlen.symm) h2
    hx hy
  refine ⟨out, e, fun x y hxw hyh => ?_⟩
  have g1 : x / Pvrtc.bw w2 < ceilDiv w (Pvrtc.bw w2) := div_lt_ceilDiv hb hxw
  have g2 : y / 4 < ceilDiv h 4 := div_lt_ceilDiv (by omega) hyh
  rw [d.pixel x y hxw hyh, hall x y (by rw [Nat.mul_comm]; exact (Nat.div_lt_iff_lt_mul hb).mp g1) (by omega)]
  show _ = some (twoToneColour c (pick x y))
  unfold twoToneColour Pv.colour Pvrtc.widen4
  cases pick x y <;> simp

end

/- 145 levels of unsigned and 241 of signed blocks are missing, among them half the largest one. -/
example : ((List.range 256).filter fun v => !(Etc.levels false).contains v).length = 145 ∧
    ((List.range 256).filter fun v => !(Etc.levels true).contains v).length = 241 ∧
    127 ∉ Etc.levels false ∧ 64 ∉ Etc.levels true := by decide +kernel

/- A picture of 10 × 7 pixels with a level per block. -/
example [Build] : Shows Model.decodeEacr 48 10 7 (fun x y => px (x / 4 % 2) 0 0 255) := by
  have := C84_eacr_partial 10 7 false (by decide) (fun a _ => a % 2) (fun a _ => by
    rcases Nat.mod_two_eq_zero_or_one a with h | h <;> rw [h] <;> decide)
  exact this

/- A gradient of 10 × 7 pixels that goes on from block to block. -/
example [Build] : Shows Model.decodeEtc2Rgb 48 10 7 (fun x y => gradientColour
    (fun k ch => if ch = 1 then 64 else if k = 1 then 20 * (x / 4 + 1) else 20 * (x / 4)) (x % 4) (y % 4) 255) := by
  have hS := C84_etc2_rgb_partial 10 7 (by decide)
    (fun a _ k ch => if ch = 1 then 64 else if k = 1 then 20 * (a + 1) % 64 else 20 * a % 64)
    (fun a b k => ⟨by simp; split <;> omega, by simp, by simp; split <;> omega⟩)
  obtain ⟨data, hd, hall⟩ := hS
  refine ⟨data, hd, fun image h1 h2 => ?_⟩
  obtain ⟨out, e, hp⟩ := hall image h1 h2
  refine ⟨out, e, fun x y hx hy => ?_⟩
  rw [hp x y hx hy]
  have e1 : 20 * (x / 4 + 1) % 64 = 20 * (x / 4 + 1) := Nat.mod_eq_of_lt (by omega)
  have e2 : 20 * (x / 4) % 64 = 20 * (x / 4) := Nat.mod_eq_of_lt (by omega)
  simp only [e1, e2]

/- Red and green in turn, by ETC1 and ATC. -/
example [Build] : Shows Model.decodeAtcRgb4 48 10 7
    (fun x y => if (x + y) % 2 = 1 then px 0 255 0 255 else px 255 0 0 255) := by
  have hS := C84_atc_rgb_partial 10 7 (by decide)
    (fun _ _ s ch => if s then (if ch = 1 then 63 else 0) else (if ch = 0 then 31 else 0))
    (fun _ _ ch => by simp; split <;> decide) (fun _ _ => by decide) (fun x y => (x + y) % 2 == 1)
  have e : (fun x y => if ((x + y) % 2 == 1) = true
      then opaque565 (fun ch => if true = true then (if ch = 1 then 63 else 0) else (if ch = 0 then 31 else 0))
      else opaque555 (fun ch => if false = true then (if ch = 1 then 63 else 0) else (if ch = 0 then 31 else 0))) =
      fun x y => if (x + y) % 2 = 1 then px 0 255 0 255 else px 255 0 0 255 := by
    funext x y
    by_cases h : (x + y) % 2 = 1 <;> simp [h] <;> decide
  rw [← e]
  exact hS

/- A chequered PVRTC texture of 15 × 16 pixels. -/
example [Build] : Shows (pvrtc false) 128 15 16
    (fun x y => twoToneColour (fun s ch => if s then 31 else ch) ((x + y) % 2 == 1)) :=
  C84_pvrtc_partial 15 16 false (by decide) (by decide) ⟨2, rfl⟩ ⟨2, rfl⟩ (by decide) _ (by unfold IsTwoTone; decide) _

end Verif.Props
