import Verif.Spec.Halves
import Verif.Proofs.Recolour
import Verif.Proofs.FewColours
import Verif.Proofs.Cut

/-! # Taking the halves of the blocks from different textures -/

namespace Verif.Proofs.Halves

open Verif Verif.Spec Verif.Proofs

/-- Blocks made from the blocks of two textures show what is made from their texels. -/
theorem picture [Build] {fmt fmt1 fmt2 : Format} {f : UInt32 → UInt32 → UInt32}
    {g : List UInt8 → List UInt8 → List UInt8} (hf : fmt ≠ .bc6s ∧ fmt ≠ .bc6u)
    (hf1 : fmt1 ≠ .bc6s ∧ fmt1 ≠ .bc6u) (hf2 : fmt2 ≠ .bc6s ∧ fmt2 ≠ .bc6u)
    {first second : List UInt8} {w h : Nat} {image1 image2 image out1 out2 : List UInt32}
    (hs1 : fmt1.SizesOk w h image1) (hs2 : fmt2.SizesOk w h image2) (hs : fmt.SizesOk w h image)
    (hi : w * h ≤ image.length)
    (hok1 : decoder fmt1 first w h image1 = .ok (.ok (), out1))
    (hok2 : decoder fmt2 second w h image2 = .ok (.ok (), out2))
    (hg : ∀ a c, a.length = fmt1.blockSize → c.length = fmt2.blockSize → (g a c).length = fmt.blockSize ∧
      ∀ i, i < 16 → fmt.texel (g a c) i = f (fmt1.texel a i) (fmt2.texel c i)) :
    ∃ out, decoder fmt ((List.range (numBlocks 4 4 w h)).flatMap fun k =>
      g (blockBytes fmt1.blockSize first k) (blockBytes fmt2.blockSize second k)) w h image = .ok (.ok (), out) ∧
      Combines f w h out1 out2 out := by
  obtain ⟨n1, _, d1⟩ := ok_inv hs1 (legal_of hf1 first w h) hok1
  obtain ⟨n2, _, d2⟩ := ok_inv hs2 (legal_of hf2 second w h) hok2
  have l1 : ∀ k, k < numBlocks 4 4 w h → (blockBytes fmt1.blockSize first k).length = fmt1.blockSize :=
    fun k hk => Cut.block_full n1 hk
  have l2 : ∀ k, k < numBlocks 4 4 w h → (blockBytes fmt2.blockSize second k).length = fmt2.blockSize :=
    fun k hk => Cut.block_full n2 hk
  obtain ⟨hl, hb⟩ := Cut.blocks_bounded (raw := fmt.blockSize) (n := numBlocks 4 4 w h)
    (g := fun k => g (blockBytes fmt1.blockSize first k) (blockBytes fmt2.blockSize second k))
    fun k hk => (hg _ _ (l1 k hk) (l2 k hk)).1
  obtain ⟨out, e, d⟩ := (decoder_spec fmt).success _ w h image hs (Nat.le_of_eq hl.symm) hi (legal_of hf _ w h)
  refine ⟨out, e, fun x y hx hy => ⟨_, _, d1.pixel x y hx hy, d2.pixel x y hx hy, ?_⟩⟩
  rw [d.pixel x y hx hy]
  have hk : y / 4 * ceilDiv w 4 + x / 4 < numBlocks 4 4 w h :=
    Cut.idx_lt (Cut.div_lt_ceil (by decide) hx) (Cut.div_lt_ceil (by decide) hy)
  unfold pixelAt
  rw [hb _ hk]
  exact congrArg some ((hg _ _ (l1 _ hk) (l2 _ hk)).2 _ (by omega))

/-! ## Texels -/

theorem take_append {a c : List UInt8} (ha : a.length = 8) : (a ++ c).take 8 = a := by
  rw [← ha]; exact List.take_left

theorem drop_append {a c : List UInt8} (ha : a.length = 8) : (a ++ c).drop 8 = c := by
  rw [← ha]; exact List.drop_left

theorem bc3Value_append {a c : List UInt8} (ha : a.length = 8) {i : Nat} (hi : i < 16) :
    bc3Value (a ++ c) i = bc3Value a i := by
  rw [← Recolour.bc3Value_take _ hi, take_append ha]

/-- A pixel with its alpha replaced, from a pixel with this alpha and a pixel with this colour. -/
theorem combine {p : UInt32} {a a' : Nat} (q : UInt32) (ha : a < 256) (ha' : a' < 256) :
    withAlpha p a = alphaAndColour (withAlpha q a) (withAlpha p a') := by
  unfold alphaAndColour
  rw [withAlpha_alpha q ha]
  unfold withAlpha
  rw [red_px (red_lt p) (green_lt p) (blue_lt p) ha', green_px (red_lt p) (green_lt p) (blue_lt p) ha',
    blue_px (red_lt p) (green_lt p) (blue_lt p) ha']

theorem alpha {fmt : Format} (hf : fmt ∈ [.bc2, .bc3, .etc2rgba8, .atcrgba]) {a c : List UInt8}
    (ha : a.length = 16) {i : Nat} (hi : i < 16) :
    fmt.texel (a.take 8 ++ c.drop 8) i = alphaAndColour (fmt.texel a i) (fmt.texel c i) := by
  have h8 : (a.take 8).length = 8 := by rw [List.length_take]; omega
  have f4 : ∀ l : List UInt8, 17 * field l (4 * i) 4 < 256 := fun l => by
    have := field_lt l (4 * i) 4
    omega
  simp only [List.mem_cons, List.not_mem_nil, or_false] at hf
  rcases hf with rfl | rfl | rfl | rfl
  · show bc2Texel _ i = alphaAndColour (bc2Texel a i) (bc2Texel c i)
    unfold bc2Texel
    rw [drop_append h8, ← Recolour.field_take (l := a.take 8 ++ c.drop 8) (k := 8) (by omega), take_append h8,
      Recolour.field_take (by omega)]
    exact combine _ (f4 a) (f4 c)
  · show bc3Texel _ i = alphaAndColour (bc3Texel a i) (bc3Texel c i)
    unfold bc3Texel
    rw [drop_append h8, bc3Value_append h8 hi, Recolour.bc3Value_take _ hi]
    exact combine _ (bc3Value_lt _ _) (bc3Value_lt _ _)
  · show Etc.etc2Rgba8Texel _ i = alphaAndColour (Etc.etc2Rgba8Texel a i) (Etc.etc2Rgba8Texel c i)
    unfold Etc.etc2Rgba8Texel
    rw [drop_append h8, take_append h8]
    exact combine _ (eacAlpha_lt _ _) (eacAlpha_lt _ _)
  · show Atc.rgbaTexelAsIs _ i = alphaAndColour (Atc.rgbaTexelAsIs a i) (Atc.rgbaTexelAsIs c i)
    unfold Atc.rgbaTexelAsIs
    rw [drop_append h8, bc3Value_append h8 hi, Recolour.bc3Value_take _ hi]
    exact combine _ (bc3Value_lt _ _) (bc3Value_lt _ _)

theorem two {r g r' g' : Nat} (hr : r < 256) (hg : g < 256) (hr' : r' < 256) (hg' : g' < 256) :
    px r g' 0 255 = redAndGreen (px r g 0 255) (px r' g' 0 255) := by
  unfold redAndGreen
  rw [red_px hr hg (by decide) (by decide), green_px hr' hg' (by decide) (by decide)]

theorem redGreen {fmt : Format} (hf : fmt ∈ [.bc5, .eacrg, .eacrgs]) {a c : List UInt8}
    (ha : a.length = 16) {i : Nat} (hi : i < 16) :
    fmt.texel (a.take 8 ++ c.drop 8) i = redAndGreen (fmt.texel a i) (fmt.texel c i) := by
  have h8 : (a.take 8).length = 8 := by rw [List.length_take]; omega
  have eac : ∀ s, Etc.eacrgTexelAsIs s (a.take 8 ++ c.drop 8) i
      = redAndGreen (Etc.eacrgTexelAsIs s a i) (Etc.eacrgTexelAsIs s c i) := fun s => by
    unfold Etc.eacrgTexelAsIs
    rw [drop_append h8, take_append h8]
    exact two (eac8_lt _ _ _) (eac8_lt _ _ _) (eac8_lt _ _ _) (eac8_lt _ _ _)
  simp only [List.mem_cons, List.not_mem_nil, or_false] at hf
  rcases hf with rfl | rfl | rfl
  · show bc5Texel _ i = redAndGreen (bc5Texel a i) (bc5Texel c i)
    unfold bc5Texel
    rw [drop_append h8, bc3Value_append h8 hi, Recolour.bc3Value_take _ hi]
    exact two (bc3Value_lt _ _) (bc3Value_lt _ _) (bc3Value_lt _ _) (bc3Value_lt _ _)
  · exact eac false
  · exact eac true

theorem joinedAlpha {fmt colour : Format} (hf : (fmt, colour) ∈ [(Format.bc3, Format.bc1), (.atcrgba, .atcrgb)])
    {a c : List UInt8} (ha : a.length = 8) {i : Nat} (hi : i < 16) :
    fmt.texel (a ++ c) i = redAsAlpha (Format.texel .bc4 a i) (colour.texel c i) := by
  have hr : red (Format.texel .bc4 a i) = bc3Value a i :=
    red_px (bc3Value_lt _ _) (by decide) (by decide) (by decide)
  unfold redAsAlpha
  rw [hr]
  simp only [List.mem_cons, List.not_mem_nil, or_false, Prod.mk.injEq] at hf
  rcases hf with ⟨rfl, rfl⟩ | ⟨rfl, rfl⟩
  · show bc3Texel _ i = _
    unfold bc3Texel
    rw [drop_append ha, bc3Value_append ha hi]
    rfl
  · show Atc.rgbaTexelAsIs _ i = _
    unfold Atc.rgbaTexelAsIs
    rw [drop_append ha, bc3Value_append ha hi]
    rfl

theorem joinedGreen {fmt single : Format}
    (hf : (fmt, single) ∈ [(Format.bc5, Format.bc4), (.eacrg, .eacr), (.eacrgs, .eacrs)])
    {a c : List UInt8} (ha : a.length = 8) {i : Nat} (hi : i < 16) :
    fmt.texel (a ++ c) i = redAsGreen (single.texel a i) (single.texel c i) := by
  have eac : ∀ s, Etc.eacrgTexelAsIs s (a ++ c) i
      = redAsGreen (Etc.eacrTexelAsIs s a i) (Etc.eacrTexelAsIs s c i) := fun s => by
    unfold redAsGreen Etc.eacrgTexelAsIs Etc.eacrTexelAsIs
    rw [drop_append ha, take_append ha, red_px (eac8_lt _ _ _) (by decide) (by decide) (by decide),
      red_px (eac8_lt _ _ _) (by decide) (by decide) (by decide)]
  simp only [List.mem_cons, List.not_mem_nil, or_false, Prod.mk.injEq] at hf
  rcases hf with ⟨rfl, rfl⟩ | ⟨rfl, rfl⟩ | ⟨rfl, rfl⟩
  · show bc5Texel _ i = redAsGreen (bc4Texel a i) (bc4Texel c i)
    unfold redAsGreen bc5Texel bc4Texel
    rw [drop_append ha, bc3Value_append ha hi, red_px (bc3Value_lt _ _) (by decide) (by decide) (by decide),
      red_px (bc3Value_lt _ _) (by decide) (by decide) (by decide)]
  · exact eac false
  · exact eac true

end Verif.Proofs.Halves
