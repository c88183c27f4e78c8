import Verif.Props.AnyBlocks
import Verif.Props.AstcLocality

/-!
# Property C68: an image can be decoded in horizontal bands

A `w × (b·m + h)` image whose blocks are `b` pixels high is the `w × (b·m)` image of its first `m` rows
of blocks, followed by the `w × h` image of the rest.
-/

namespace Verif.Props

open Verif Verif.Proofs Verif.Model

theorem ceilDiv_band {b : Nat} (hb : 0 < b) (m h : Nat) :
    Spec.ceilDiv (b * m + h) b = m + Spec.ceilDiv h b := by
  unfold Spec.ceilDiv
  rw [show b * m + h + b - 1 = (h + b - 1) + b * m by omega, Nat.add_mul_div_left _ _ hb, Nat.add_comm]

theorem ceilDiv_mul {b : Nat} (hb : 0 < b) (m : Nat) : Spec.ceilDiv (b * m) b = m := by
  have := ceilDiv_band hb m 0
  have h0 : Spec.ceilDiv 0 b = 0 := by
    unfold Spec.ceilDiv; exact Nat.div_eq_of_lt (by omega)
  rwa [h0] at this

/-- The number of blocks of an image is that of its bands. -/
theorem numBlocks_band {bw bh : Nat} (hbh : 0 < bh) (w m h : Nat) :
    Spec.numBlocks bw bh w (bh * m + h) =
      Spec.numBlocks bw bh w (bh * m) + Spec.numBlocks bw bh w h := by
  unfold Spec.numBlocks
  rw [ceilDiv_band hbh, ceilDiv_mul hbh, Nat.mul_add]

theorem bytesNeeded_band {bw bh raw : Nat} (hbh : 0 < bh) (w m h : Nat) :
    Spec.bytesNeeded bw bh raw w (bh * m + h) =
      Spec.bytesNeeded bw bh raw w (bh * m) + Spec.bytesNeeded bw bh raw w h := by
  unfold Spec.bytesNeeded
  rw [numBlocks_band hbh, Nat.add_mul]

/-- The number of the block that covers a pixel of the second band. -/
theorem block_second {bw bh w m x y : Nat} (hbh : 0 < bh) :
    (bh * m + y) / bh * Spec.ceilDiv w bw + x / bw =
      Spec.numBlocks bw bh w (bh * m) + (y / bh * Spec.ceilDiv w bw + x / bw) := by
  unfold Spec.numBlocks
  rw [ceilDiv_mul hbh, Nat.mul_add_div hbh, Nat.add_mul, Nat.mul_comm m]
  omega

theorem drop_second {raw n k : Nat} {d1 d2 : List UInt8} (hd : d1.length = n * raw) :
    (d1 ++ d2).drop ((n + k) * raw) = d2.drop (k * raw) := by
  rw [Nat.add_mul, ← hd, List.drop_append, List.drop_eq_nil_of_le (by omega)]
  simp

/-- A pixel of an image made of two bands. -/
theorem band_pixel {w h1 h2 : Nat} {o1 o2 : List UInt32} (hl : o1.length = w * h1)
    {p : Nat → Nat → Option UInt32}
    (p1 : ∀ x y, x < w → y < h1 → o1[y * w + x]? = p x y)
    (p2 : ∀ x y, x < w → y < h2 → o2[y * w + x]? = p x (h1 + y)) :
    ∀ x y, x < w → y < h1 + h2 → (o1 ++ o2)[y * w + x]? = p x y := by
  intro x y hx hy
  rcases Nat.lt_or_ge y h1 with h | h
  · have : y * w + x < w * h1 := by
      have := Nat.mul_le_mul_right w (show y + 1 ≤ h1 from h)
      rw [Nat.add_mul, Nat.mul_comm h1] at this
      omega
    rw [List.getElem?_append_left (by omega)]
    exact p1 x y hx h
  · obtain ⟨z, rfl⟩ := Nat.exists_eq_add_of_le h
    have e : (h1 + z) * w + x = o1.length + (z * w + x) := by
      rw [Nat.add_mul, hl, Nat.mul_comm h1]; omega
    rw [e, List.getElem?_append_right (by omega), Nat.add_sub_cancel_left]
    exact p2 x z hx (by omega)

/-- Two images with the same pixels and nothing else are equal. -/
theorem image_ext {w h : Nat} {a b : List UInt32} (ha : a.length = b.length)
    (hp : ∀ x y, x < w → y < h → a[y * w + x]? = b[y * w + x]?)
    (hr : ∀ i, w * h ≤ i → a[i]? = b[i]?) : a = b := by
  apply List.ext_getElem?
  intro j
  rcases Nat.lt_or_ge j (w * h) with hj | hj
  · obtain ⟨x, y, hx, hy, rfl⟩ := pixel_index hj
    exact hp x y hx hy
  · exact hr j hj

section
variable [Build]

/-- **C68** The block formats: the bands can be decoded one by one into the parts of the image. -/
theorem C68_bands (fmt : Spec.Format) (d1 d2 : List UInt8) (w m h : Nat)
    (i1 i2 o1 o2 : List UInt32) (hs : fmt.SizesOk w (4 * m + h) (i1 ++ i2))
    (hd : d1.length = fmt.need w (4 * m)) (hi : i1.length = w * (4 * m))
    (hok1 : decoder fmt d1 w (4 * m) i1 = .ok (.ok (), o1))
    (hok2 : decoder fmt d2 w h i2 = .ok (.ok (), o2)) :
    decoder fmt (d1 ++ d2) w (4 * m + h) (i1 ++ i2) = .ok (.ok (), o1 ++ o2) := by
  obtain ⟨Good, texel, A⟩ := decoder_any fmt
  have hneed := bytesNeeded_band (bw := 4) (raw := fmt.blockSize) (show 0 < 4 by omega) w m h
  have hpix : w * (4 * m + h) = w * (4 * m) + w * h := Nat.mul_add ..
  have hsl := hs.image_len
  have hsb := hs.bytes_fit
  have hsp := hs.pixels_fit
  rw [List.length_append] at hsl
  obtain ⟨-, -, g1, e1⟩ := A.ok_inv (show Spec.SizesOk 4 4 fmt.blockSize w (4 * m) i1 from
    ⟨by omega, by omega, by omega⟩) hok1
  obtain ⟨hd2, hi2, g2, e2⟩ := A.ok_inv (show Spec.SizesOk 4 4 fmt.blockSize w h i2 from
    ⟨by omega, by omega, by omega⟩) hok2
  have hb1 : ∀ k, k < Spec.numBlocks 4 4 w (4 * m) → Spec.blockBytes fmt.blockSize (d1 ++ d2) k =
      Spec.blockBytes fmt.blockSize d1 k := fun k hk => blockBytes_append hk (Nat.le_of_eq hd.symm)
  have hb2 : ∀ k, Spec.blockBytes fmt.blockSize (d1 ++ d2) (Spec.numBlocks 4 4 w (4 * m) + k) =
      Spec.blockBytes fmt.blockSize d2 k := fun k => by
    unfold Spec.blockBytes; rw [drop_second hd]
  obtain ⟨o, e, hdec⟩ := A.decodes.success (d1 ++ d2) w (4 * m + h) (i1 ++ i2) hs
    (by have hd' : d1.length = Spec.bytesNeeded 4 4 fmt.blockSize w (4 * m) := hd
        rw [List.length_append, hneed, hd']; omega)
    (by rw [List.length_append, hpix, hi]; omega) (by
      intro k hk
      rw [numBlocks_band (by omega)] at hk
      rcases Nat.lt_or_ge k (Spec.numBlocks 4 4 w (4 * m)) with hk1 | hk1
      · rw [hb1 k hk1]; exact g1 k hk1
      · obtain ⟨k2, rfl⟩ := Nat.exists_eq_add_of_le hk1
        rw [hb2]; exact g2 k2 (by omega))
  rw [e]
  have hl1 := e1.length_eq
  congr 2
  refine image_ext (w := w) (h := 4 * m + h) (by
      rw [hdec.length_eq, List.length_append, List.length_append, hl1, e2.length_eq]) ?_ ?_
  · intro x y hx hy
    refine (hdec.pixel x y hx hy).trans (band_pixel (p := fun x y =>
      some (Spec.pixelAt 4 4 fmt.blockSize texel (d1 ++ d2) w x y)) (by rw [hl1, hi]) ?_ ?_ x y hx hy).symm
    · intro x y hx hy
      rw [e1.pixel x y hx hy]
      unfold Spec.pixelAt
      rw [hb1 _ (numBlocks_idx hx hy)]
    · intro x y hx hy
      rw [e2.pixel x y hx hy]
      unfold Spec.pixelAt
      rw [block_second (by omega), hb2, Nat.mul_add_mod]
  · intro i hi3
    rw [hdec.rest i hi3, List.getElem?_append_right (by omega), List.getElem?_append_right (by omega),
      e2.rest _ (by omega), hl1]

/-- **C68** The converse: if the whole image decodes, then so do its bands, to the parts of the
image. -/
theorem C68_split (fmt : Spec.Format) (d1 d2 : List UInt8) (w m h : Nat)
    (i1 i2 out : List UInt32) (hs : fmt.SizesOk w (4 * m + h) (i1 ++ i2))
    (hd : d1.length = fmt.need w (4 * m)) (hi : i1.length = w * (4 * m))
    (hok : decoder fmt (d1 ++ d2) w (4 * m + h) (i1 ++ i2) = .ok (.ok (), out)) :
    ∃ o1 o2, decoder fmt d1 w (4 * m) i1 = .ok (.ok (), o1) ∧
      decoder fmt d2 w h i2 = .ok (.ok (), o2) ∧ out = o1 ++ o2 := by
  obtain ⟨Good, texel, A⟩ := decoder_any fmt
  have hneed := bytesNeeded_band (bw := 4) (raw := fmt.blockSize) (show 0 < 4 by omega) w m h
  have hpix : w * (4 * m + h) = w * (4 * m) + w * h := Nat.mul_add ..
  have hsl := hs.image_len
  have hsb := hs.bytes_fit
  have hsp := hs.pixels_fit
  rw [List.length_append] at hsl
  obtain ⟨hl, hil, g, -⟩ := A.ok_inv hs hok
  have hd' : d1.length = Spec.bytesNeeded 4 4 fmt.blockSize w (4 * m) := hd
  rw [List.length_append, hneed, hd'] at hl
  rw [List.length_append, hpix, hi] at hil
  have hb1 : ∀ k, k < Spec.numBlocks 4 4 w (4 * m) → Spec.blockBytes fmt.blockSize (d1 ++ d2) k =
      Spec.blockBytes fmt.blockSize d1 k := fun k hk => blockBytes_append hk (Nat.le_of_eq hd.symm)
  have hb2 : ∀ k, Spec.blockBytes fmt.blockSize (d1 ++ d2) (Spec.numBlocks 4 4 w (4 * m) + k) =
      Spec.blockBytes fmt.blockSize d2 k := fun k => by
    unfold Spec.blockBytes; rw [drop_second hd]
  have hn := numBlocks_band (bw := 4) (bh := 4) (by omega) w m h
  obtain ⟨o1, e1, -⟩ := A.decodes.success d1 w (4 * m) i1 ⟨by omega, by omega, by omega⟩
    (Nat.le_of_eq hd.symm) (Nat.le_of_eq hi.symm) (fun k hk => by
      rw [← hb1 k hk]; exact g k (by omega))
  obtain ⟨o2, e2, -⟩ := A.decodes.success d2 w h i2 ⟨by omega, by omega, by omega⟩ (by omega) (by omega)
    (fun k hk => by rw [← hb2 k]; exact g _ (by omega))
  have := C68_bands fmt d1 d2 w m h i1 i2 o1 o2 hs hd hi e1 e2
  rw [hok] at this
  cases this
  exact ⟨o1, o2, e1, e2, rfl⟩

/-- Two rows of BC1 blocks, the second one cut off after one pixel row. -/
example : Spec.Format.bc1.SizesOk 4 (4 * 1 + 1) (List.replicate 16 0 ++ List.replicate 4 0) ∧
    bc1Demo.length = Spec.Format.bc1.need 4 (4 * 1) ∧
    ∃ o1 o2, decoder .bc1 bc1Demo 4 (4 * 1) (List.replicate 16 0) = .ok (.ok (), o1) ∧
      decoder .bc1 bc1Demo 4 1 (List.replicate 4 0) = .ok (.ok (), o2) := by
  obtain ⟨o1, e1, -⟩ := (decoder_spec .bc1).success bc1Demo 4 (4 * 1) (List.replicate 16 0)
    ⟨by decide, by decide, by decide⟩ (by decide) (by decide) (fun _ _ => trivial)
  obtain ⟨o2, e2, -⟩ := (decoder_spec .bc1).success bc1Demo 4 1 (List.replicate 4 0)
    ⟨by decide, by decide, by decide⟩ (by decide) (by decide) (fun _ _ => trivial)
  exact ⟨⟨by decide, by decide, by decide⟩, by decide, o1, o2, e1, e2⟩

/-- **C68** ASTC: if the bands decode, then so does the whole image, to the same pixels. (The converse
fails for malformed blocks at the end of a band, which read what follows: C66.) -/
theorem C68_astc (d1 d2 : List UInt8) (bw bh w m h : Nat) (i1 i2 o1 o2 : List UInt32)
    (hbw : 0 < bw) (hbh : 0 < bh) (hb : bw * bh ≤ 144)
    (hs : Spec.SizesOk bw bh 16 w (bh * m + h) (i1 ++ i2))
    (hd : d1.length = Spec.bytesNeeded bw bh 16 w (bh * m)) (hi : i1.length = w * (bh * m))
    (hok1 : decodeAstc d1 w (bh * m) bw bh i1 = .ok (.ok (), o1))
    (hok2 : decodeAstc d2 w h bw bh i2 = .ok (.ok (), o2)) :
    decodeAstc (d1 ++ d2) w (bh * m + h) bw bh (i1 ++ i2) = .ok (.ok (), o1 ++ o2) := by
  have hneed := bytesNeeded_band (bw := bw) (raw := 16) hbh w m h
  have hpix : w * (bh * m + h) = w * (bh * m) + w * h := Nat.mul_add ..
  have hsl := hs.image_len
  have hsb := hs.bytes_fit
  have hsp := hs.pixels_fit
  rw [List.length_append] at hsl
  rw [hneed] at hsb
  rw [hpix] at hsp
  have s1 : Spec.SizesOk bw bh 16 w (bh * m) i1 := ⟨by omega, by omega, by omega⟩
  have s2 : Spec.SizesOk bw bh 16 w h i2 := ⟨by omega, by omega, by omega⟩
  obtain ⟨hd1, hi1, C1, hC1⟩ := Astc.blocks_of_image hbw hbh hb s1 hok1
  obtain ⟨hd2, hi2, C2, hC2⟩ := Astc.blocks_of_image hbw hbh hb s2 hok2
  obtain ⟨p1, e1, l1, x1, r1⟩ := Astc.image_of_blocks hbw hbh hb s1 hd1 hi1 hC1
  obtain ⟨p2, e2, l2, x2, r2⟩ := Astc.image_of_blocks hbw hbh hb s2 hd2 hi2 hC2
  rw [hok1] at e1
  cases e1
  rw [hok2] at e2
  cases e2
  have hd' : d1.length = Spec.numBlocks bw bh w (bh * m) * 16 := hd
  obtain ⟨o, e, l, px, r⟩ := Astc.image_of_blocks (data := d1 ++ d2) hbw hbh hb hs
    (by rw [List.length_append, hneed, hd]; omega) (by rw [List.length_append, hpix, hi]; omega)
    (C := fun k => if k < Spec.numBlocks bw bh w (bh * m) then C1 k
      else C2 (k - Spec.numBlocks bw bh w (bh * m))) (by
      intro k hk
      rw [numBlocks_band hbh] at hk
      split
      · next hk1 =>
        refine (hC1 k hk1).grow ⟨d2, ?_⟩
        rw [List.drop_append_of_le_length (by omega)]
      · next hk1 =>
        obtain ⟨k2, rfl⟩ := Nat.exists_eq_add_of_le (Nat.not_lt.mp hk1)
        rw [Nat.add_sub_cancel_left, Nat.mul_comm 16, drop_second hd', Nat.mul_comm k2]
        exact hC2 k2 (by omega))
  rw [e]
  congr 2
  refine image_ext (w := w) (h := bh * m + h) (by rw [l, List.length_append, List.length_append, l1, l2])
    ?_ ?_
  · intro x y hx hy
    refine (px x y hx hy).trans (band_pixel (p := fun x y => some ((if y / bh * Spec.ceilDiv w bw + x / bw <
        Spec.numBlocks bw bh w (bh * m) then C1 (y / bh * Spec.ceilDiv w bw + x / bw)
      else C2 (y / bh * Spec.ceilDiv w bw + x / bw - Spec.numBlocks bw bh w (bh * m)))
        (y % bh * bw + x % bw))) (by rw [l1, hi]) ?_ ?_ x y hx hy).symm
    · intro x y hx hy
      rw [x1 x y hx hy, if_pos (cover_idx hbw hbh hx hy)]
    · intro x y hx hy
      rw [x2 x y hx hy, block_second hbh, if_neg (Nat.not_lt.mpr (Nat.le_add_right _ _)), Nat.add_sub_cancel_left, Nat.mul_add_mod]
  · intro i hi3
    rw [r i hi3, List.getElem?_append_right (by omega), List.getElem?_append_right (by omega),
      r2 _ (by omega), l1]

/-- A row of two ASTC blocks, then a row cut off after three pixel rows. -/
example : Spec.SizesOk 4 4 16 5 (4 * 1 + 3) (List.replicate 20 7 ++ List.replicate 15 0) ∧
    (astcRgb ++ astcRgb).length = Spec.bytesNeeded 4 4 16 5 (4 * 1) ∧
    ∃ o1 o2, decodeAstc (astcRgb ++ astcRgb) 5 (4 * 1) 4 4 (List.replicate 20 7) = .ok (.ok (), o1) ∧
      decodeAstc (astcRgb ++ astcRgb) 5 3 4 4 (List.replicate 15 0) = .ok (.ok (), o2) := by
  obtain ⟨o1, e1, -⟩ := (C35_astc 4 4 (by decide) (by decide) (by decide)).success
    (astcRgb ++ astcRgb) 5 (4 * 1) (List.replicate 20 7) ⟨by decide, by decide, by decide⟩ (by decide)
    (by decide) (by decide +kernel)
  obtain ⟨o2, e2, -⟩ := (C35_astc 4 4 (by decide) (by decide) (by decide)).success
    (astcRgb ++ astcRgb) 5 3 (List.replicate 15 0) ⟨by decide, by decide, by decide⟩ (by decide)
    (by decide) (by decide +kernel)
  exact ⟨⟨by decide, by decide, by decide⟩, by decide, o1, o2, e1, e2⟩

end

end Verif.Props
