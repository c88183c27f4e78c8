import Verif.Proofs.ImageLaws
import Verif.Spec.S3tc

/-!
# Property C67: BC2 and BC3 colours and the S3TC specification
-/

namespace Verif.Props

open Verif Verif.Proofs

variable [Build]

/-- A block with a white second colour, in which all texels have index 3. The alpha part is zero. -/
def whiteBlock : List UInt8 := List.replicate 8 0 ++ [0, 0, 255, 255, 255, 255, 255, 255]

/-- **C67** (violated) The white texels of this block come out black, in BC2 and in BC3. -/
theorem C67_violated : ∃ data image out2 out3,
    Model.decodeBc2 data 4 4 image = .ok (.ok (), out2) ∧
    ¬ Spec.IsDecoded 4 4 16 Spec.bc2TexelS3tc data 4 4 image out2 ∧
    Model.decodeBc3 data 4 4 image = .ok (.ok (), out3) ∧
    ¬ Spec.IsDecoded 4 4 16 Spec.bc3TexelS3tc data 4 4 image out3 := by
  obtain ⟨o2, e2, d2⟩ := (decoder_spec .bc2).success whiteBlock 4 4 (List.replicate 16 0)
    ⟨by decide, by decide, by decide⟩ (by decide) (by decide) (fun _ _ => trivial)
  obtain ⟨o3, e3, d3⟩ := (decoder_spec .bc3).success whiteBlock 4 4 (List.replicate 16 0)
    ⟨by decide, by decide, by decide⟩ (by decide) (by decide) (fun _ _ => trivial)
  refine ⟨_, _, o2, o3, e2, fun h => ?_, e3, fun h => ?_⟩
  · have a := (d2.pixel 0 0 (by decide) (by decide)).symm.trans (h.pixel 0 0 (by decide) (by decide))
    exact absurd a (by decide +kernel)
  · have a := (d3.pixel 0 0 (by decide) (by decide)).symm.trans (h.pixel 0 0 (by decide) (by decide))
    exact absurd a (by decide +kernel)

example : Spec.bc2TexelS3tc whiteBlock 0 = Spec.px 170 170 170 0 ∧
    Spec.bc2Texel whiteBlock 0 = Spec.px 0 0 0 0 ∧ ¬ Spec.FirstColourLarger whiteBlock := by
  decide +kernel

omit [Build] in
theorem s3tcColour_of_larger {blk : List UInt8} (h : Spec.field blk 16 16 < Spec.field blk 0 16)
    (i : Nat) : Spec.bc1Texel false blk i = Spec.s3tcColour blk i := by
  unfold Spec.bc1Texel Spec.s3tcColour
  simp [h]

/-- **C67** (what holds) When the first colour of every block is larger than the second, `decode_bc2`
decodes exactly the S3TC colours. -/
theorem C67_bc2_partial :
    Spec.DecodesLegal Model.decodeBc2 4 4 16 Spec.FirstColourLarger Spec.bc2TexelS3tc where
  not_enough_data := (decoder_spec .bc2).not_enough_data
  image_too_small := (decoder_spec .bc2).image_too_small
  success := by
    intro data w h image hs hd hi hl
    obtain ⟨o, e, d⟩ := (decoder_spec .bc2).success data w h image hs hd hi (fun _ _ => trivial)
    refine ⟨o, e, d.length_eq, fun x y hx hy => (d.pixel x y hx hy).trans ?_, d.rest⟩
    have hk := hl _ (numBlocks_idx hx hy)
    exact congrArg (fun c => some (Spec.withAlpha c _)) (s3tcColour_of_larger hk _)

/-- **C67** (what holds) The same for `decode_bc3`. -/
theorem C67_bc3_partial :
    Spec.DecodesLegal Model.decodeBc3 4 4 16 Spec.FirstColourLarger Spec.bc3TexelS3tc where
  not_enough_data := (decoder_spec .bc3).not_enough_data
  image_too_small := (decoder_spec .bc3).image_too_small
  success := by
    intro data w h image hs hd hi hl
    obtain ⟨o, e, d⟩ := (decoder_spec .bc3).success data w h image hs hd hi (fun _ _ => trivial)
    refine ⟨o, e, d.length_eq, fun x y hx hy => (d.pixel x y hx hy).trans ?_, d.rest⟩
    have hk := hl _ (numBlocks_idx hx hy)
    exact congrArg (fun c => some (Spec.withAlpha c _)) (s3tcColour_of_larger hk _)

/-- A block with the first colour white and the second black, indices 0, 1, 2, 3. -/
example : Spec.FirstColourLarger (List.replicate 8 0 ++ [255, 255, 0, 0, 0xe4, 0xe4, 0xe4, 0xe4]) ∧
    (List.range 4).map (Spec.bc2TexelS3tc (List.replicate 8 255 ++
        [255, 255, 0, 0, 0xe4, 0xe4, 0xe4, 0xe4])) =
      [Spec.px 255 255 255 255, Spec.px 0 0 0 255, Spec.px 170 170 170 255,
        Spec.px 85 85 85 255] := by
  decide +kernel

omit [Build] in
theorem px_withAlpha_inj {r g b a r' g' b' v : Nat} (hr : r < 256) (hg : g < 256) (hb : b < 256)
    (ha : a < 256) (hr' : r' < 256) (hg' : g' < 256) (hb' : b' < 256) (hv : v < 256) :
    Spec.withAlpha (Spec.px r g b a) v = Spec.withAlpha (Spec.px r' g' b' a) v ↔
      r = r' ∧ g = g' ∧ b = b' := by
  unfold Spec.withAlpha
  rw [red_px hr hg hb ha, green_px hr hg hb ha, blue_px hr hg hb ha, red_px hr' hg' hb' ha,
    green_px hr' hg' hb' ha, blue_px hr' hg' hb' ha]
  constructor
  · intro h
    have h1 := congrArg Spec.red h
    have h2 := congrArg Spec.green h
    have h3 := congrArg Spec.blue h
    rw [red_px hr hg hb hv, red_px hr' hg' hb' hv] at h1
    rw [green_px hr hg hb hv, green_px hr' hg' hb' hv] at h2
    rw [blue_px hr hg hb hv, blue_px hr' hg' hb' hv] at h3
    exact ⟨h1, h2, h3⟩
  · rintro ⟨rfl, rfl, rfl⟩; rfl

omit [Build] in
/-- One channel has the right value: the palette has four colours, or the index is that of one of the
two colours themselves, or the mean happens to equal the mixture (index 2), or the mixture is black
(index 3). -/
def ChannelRight (q0 q1 c0 c1 k : Nat) : Prop :=
  q1 < q0 ∨ k < 2 ∨ (k = 2 ∧ (c0 + c1) / 2 = (2 * c0 + c1) / 3) ∨ (k = 3 ∧ c0 + 2 * c1 < 3)

omit [Build] in
theorem channelRight_iff {q0 q1 c0 c1 k : Nat} (hk : k < 4) :
    Spec.bc1Channel (decide (q0 > q1)) c0 c1 k = Spec.bc1Channel true c0 c1 k ↔
      ChannelRight q0 q1 c0 c1 k := by
  unfold ChannelRight
  by_cases h : q0 > q1
  · simp [h]
  · have : k = 0 ∨ k = 1 ∨ k = 2 ∨ k = 3 := by omega
    rcases this with rfl | rfl | rfl | rfl <;> simp [Spec.bc1Channel, h] <;> omega

/-- **C67** (exact) In a decoded BC2 or BC3 image a pixel has the colour of the S3TC specification if
and only if its three channels are right in the sense of `ChannelRight`. -/
theorem C67_exact (data : List UInt8) (w h : Nat) (image out2 out3 : List UInt32)
    (hs : Spec.SizesOk 4 4 16 w h image)
    (hok2 : Model.decodeBc2 data w h image = .ok (.ok (), out2))
    (hok3 : Model.decodeBc3 data w h image = .ok (.ok (), out3))
    (x y : Nat) (hx : x < w) (hy : y < h) :
    let blk := (data.drop ((y / 4 * ((w + 3) / 4) + x / 4) * 16)).take 16
    let i := y % 4 * 4 + x % 4
    let q0 := Spec.field (blk.drop 8) 0 16
    let q1 := Spec.field (blk.drop 8) 16 16
    let k := Spec.field (blk.drop 8) (32 + 2 * i) 2
    let right := ChannelRight q0 q1 (Spec.red565 q0) (Spec.red565 q1) k ∧
      ChannelRight q0 q1 (Spec.green565 q0) (Spec.green565 q1) k ∧
      ChannelRight q0 q1 (Spec.blue565 q0) (Spec.blue565 q1) k
    (out2[y * w + x]? = some (Spec.bc2TexelS3tc blk i) ↔ right) ∧
      (out3[y * w + x]? = some (Spec.bc3TexelS3tc blk i) ↔ right) := by
  intro blk i q0 q1 k right
  obtain ⟨_, _, d2⟩ := ok_inv (fmt := .bc2) hs (fun _ _ => trivial) hok2
  obtain ⟨_, _, d3⟩ := ok_inv (fmt := .bc3) hs (fun _ _ => trivial) hok3
  have p2 : out2[y * w + x]? = some (Spec.bc2Texel blk i) := d2.pixel x y hx hy
  have p3 : out3[y * w + x]? = some (Spec.bc3Texel blk i) := d3.pixel x y hx hy
  have hq0 : q0 < 2 ^ 16 := field_lt _ 0 16
  have hq1 : q1 < 2 ^ 16 := field_lt _ 16 16
  have hk : k < 4 := field_lt _ _ 2
  have key : ∀ v, v < 256 → (Spec.withAlpha (Spec.bc1Texel false (blk.drop 8) i) v =
      Spec.withAlpha (Spec.s3tcColour (blk.drop 8) i) v ↔ right) := by
    intro v hv
    have e1 : Spec.bc1Texel false (blk.drop 8) i =
        Spec.px (Spec.bc1Channel (decide (q0 > q1)) (Spec.red565 q0) (Spec.red565 q1) k)
          (Spec.bc1Channel (decide (q0 > q1)) (Spec.green565 q0) (Spec.green565 q1) k)
          (Spec.bc1Channel (decide (q0 > q1)) (Spec.blue565 q0) (Spec.blue565 q1) k) 255 := by
      unfold Spec.bc1Texel; simp [q0, q1, k]
    have e2 : Spec.s3tcColour (blk.drop 8) i =
        Spec.px (Spec.bc1Channel true (Spec.red565 q0) (Spec.red565 q1) k)
          (Spec.bc1Channel true (Spec.green565 q0) (Spec.green565 q1) k)
          (Spec.bc1Channel true (Spec.blue565 q0) (Spec.blue565 q1) k) 255 := rfl
    rw [e1, e2, px_withAlpha_inj (bc1Channel_lt (red565_lt hq0) (red565_lt hq1))
      (bc1Channel_lt (green565_lt q0) (green565_lt q1)) (bc1Channel_lt (blue565_lt q0) (blue565_lt q1))
      (by decide) (bc1Channel_lt (red565_lt hq0) (red565_lt hq1))
      (bc1Channel_lt (green565_lt q0) (green565_lt q1)) (bc1Channel_lt (blue565_lt q0) (blue565_lt q1))
      hv, channelRight_iff hk, channelRight_iff hk, channelRight_iff hk]
  have hn : Spec.field blk (4 * i) 4 < 16 := field_lt _ _ 4
  have hv : Spec.bc3Value blk i < 256 := bc3Value_lt blk i
  constructor
  · rw [p2]
    have := key (17 * Spec.field blk (4 * i) 4) (by omega)
    unfold Spec.bc2Texel Spec.bc2TexelS3tc
    exact ⟨fun h => this.mp (Option.some.inj h), fun h => congrArg some (this.mpr h)⟩
  · rw [p3]
    have := key (Spec.bc3Value blk i) hv
    unfold Spec.bc3Texel Spec.bc3TexelS3tc
    exact ⟨fun h => this.mp (Option.some.inj h), fun h => congrArg some (this.mpr h)⟩

/-- The theorem applies to the witness above. -/
example : Spec.SizesOk 4 4 16 4 4 (List.replicate 16 0) ∧
    Spec.bytesNeeded 4 4 16 4 4 ≤ whiteBlock.length ∧ ¬ ChannelRight 0 65535 0 255 3 := by
  refine ⟨⟨by decide, by decide, by decide⟩, by decide, ?_⟩
  unfold ChannelRight; omega

end Verif.Props
