import Verif.Model.Target32
import Verif.Spec.Target32
import Verif.Proofs.Image

/-! # `copy_block_buffer` and `block_decoder!` with a 32-bit `usize`

The proofs are those of `Proofs/Image.lean`, with the other limits. -/

namespace Verif.Proofs

open Verif Verif.Model

theorem copyBlockBuffer32_spec [Build] {bx by' w h bw bh : Nat} {buffer image : List UInt32}
    (hbw : 0 < bw) (hbh : 0 < bh) (hx : bw * bx < w) (hy : by' * bh < h)
    (hbuf : bw * bh ≤ buffer.length) (himg : w * h ≤ image.length) (hwh : w * h < 2 ^ 32)
    (h1 : bw * (bx + 1) < 2 ^ 32) (h2 : bh * (by' + 1) < 2 ^ 32) (h3 : bw * bh < 2 ^ 32) :
    ∃ image', copyBlockBuffer32 bx by' w h bw bh buffer image = .ok image' ∧
      image'.length = image.length ∧
      (∀ i, w * h ≤ i → image'[i]? = image[i]?) ∧
      ∀ x y, x < w → y < h → image'[y * w + x]? =
        if x / bw = bx ∧ y / bh = by' then buffer[y % bh * bw + x % bw]?
        else image[y * w + x]? := by
  have hw : 0 < w := by omega
  have hbx1 : bx + 1 < 2 ^ 32 := by
    have := Nat.le_mul_of_pos_left (bx + 1) hbw; omega
  have hby1 : by' + 1 < 2 ^ 32 := by
    have := Nat.le_mul_of_pos_left (by' + 1) hbh; omega
  have e1 : bw * (bx + 1) = bw * bx + bw := by rw [Nat.mul_add, Nat.mul_one]
  have e2 : bh * (by' + 1) = by' * bh + bh := by rw [Nat.mul_add, Nat.mul_one, Nat.mul_comm]
  have hh32 : h < 2 ^ 32 := by
    have := Nat.le_mul_of_pos_left h hw; omega
  unfold copyBlockBuffer32
  rw [mulU_ok (by omega : bw * bx < 2 ^ 32), Out.ok_bind, addU_ok hbx1, Out.ok_bind, mulU_ok h1,
    Out.ok_bind]
  generalize hX : bw * bx = X at *
  obtain ⟨cw, hcw, hcw1, hcw2, hcw3⟩ : ∃ cw, (if bw * (bx + 1) > w then subU 32 w X else pure bw)
      = Out.ok cw ∧ X + cw ≤ w ∧ cw ≤ bw ∧ (cw < bw → X + cw = w) := by
    split
    · exact ⟨w - X, subU_ok (by omega), by omega, by omega, by omega⟩
    · exact ⟨bw, rfl, by omega, by omega, by omega⟩
  rw [hcw, Out.ok_bind, mulU_ok (by omega : by' * bh < 2 ^ 32), Out.ok_bind, addU_ok hby1,
    Out.ok_bind, mulU_ok h2, Out.ok_bind]
  generalize hY : by' * bh = Y at *
  obtain ⟨ch, hch, hch1, hch2, hch3⟩ : ∃ ch, (if bh * (by' + 1) > h then subU 32 h Y else pure bh)
      = Out.ok ch ∧ Y + ch ≤ h ∧ ch ≤ bh ∧ (ch < bh → Y + ch = h) := by
    split
    · exact ⟨h - Y, subU_ok (by omega), by omega, by omega, by omega⟩
    · exact ⟨bh, rfl, by omega, by omega, by omega⟩
  rw [hch, Out.ok_bind, addU_ok (by omega : Y + ch < 2 ^ 32), Out.ok_bind]
  rw [show Y + ch - Y = ch by omega]
  -- the row loop
  have loop := forRange_inv (n := ch) (s := ((0, image) : Nat × List UInt32))
    (f := fun i (s : Nat × List UInt32) => do
      let (bufferOffset, image) := s
      let y := Y + i
      let row ← mulU 32 y w
      let imageOffset ← addU 32 row X
      let imageEnd ← addU 32 imageOffset cw
      let bufferEnd ← addU 32 bufferOffset cw
      let src ← slice buffer bufferOffset bufferEnd
      let image ← copyFromSlice image imageOffset imageEnd src
      let bufferOffset ← addU 32 bufferOffset bw
      pure (bufferOffset, image))
    (P := fun i s => s.1 = i * bw ∧ s.2.length = image.length ∧
      (∀ j, w * h ≤ j → s.2[j]? = image[j]?) ∧
      ∀ x y, x < w → y < h → s.2[y * w + x]? =
        if X ≤ x ∧ x < X + cw ∧ Y ≤ y ∧ y < Y + i then buffer[(y - Y) * bw + (x - X)]?
        else image[y * w + x]?)
    (by
      refine ⟨by simp, rfl, fun _ _ => rfl, fun x y _ _ => ?_⟩
      rw [if_neg (by omega)])
    (by
      rintro i hi ⟨off, img⟩ ⟨ho, hlen, hrest, hpix⟩
      simp only at ho hlen hrest hpix
      subst ho
      have hyh : (Y + i + 1) * w ≤ w * h := by
        rw [Nat.mul_comm w h]; exact Nat.mul_le_mul_right w (by omega)
      have hrow : (Y + i + 1) * w = (Y + i) * w + w := by rw [Nat.add_mul, Nat.one_mul]
      have hboff : (i + 1) * bw ≤ bw * bh := by
        rw [Nat.mul_comm bw bh]; exact Nat.mul_le_mul_right bw (by omega)
      have hboff' : (i + 1) * bw = i * bw + bw := by rw [Nat.add_mul, Nat.one_mul]
      have hsrc : ((buffer.drop (i * bw)).take cw).length = cw := by
        simp; omega
      refine ⟨(i * bw + bw, img.take ((Y + i) * w + X) ++ (buffer.drop (i * bw)).take cw ++
        img.drop ((Y + i) * w + X + cw)), ?_, ?_, ?_, ?_, ?_⟩
      · simp only
        rw [mulU_ok (by omega), Out.ok_bind, addU_ok (by omega), Out.ok_bind, addU_ok (by omega),
          Out.ok_bind, addU_ok (by omega), Out.ok_bind, slice_ok (by omega) (by omega), Out.ok_bind,
          copyFromSlice_ok (by omega) (by omega) (by
            rw [Nat.add_sub_cancel_left, hsrc]; omega), Out.ok_bind, addU_ok (by omega), Out.ok_bind]
        rw [Nat.add_sub_cancel_left]
        rfl
      · simp only; omega
      · simp only [List.length_append, List.length_take, List.length_drop]; omega
      · intro j hj
        simp only
        rw [getElem?_splice (by omega) (by omega) (by rw [hsrc]; omega)]
        rw [if_neg (by omega), if_neg (by omega)]
        exact hrest j hj
      · intro x y hx' hy'
        simp only
        rw [getElem?_splice (by omega) (by omega) (by rw [hsrc]; omega)]
        have key := rowIdx (w := w) (x := x) (y := y) (X := X) (y1 := Y + i) (cw := cw) hx' hcw1
        by_cases hin : y = Y + i ∧ X ≤ x ∧ x < X + cw
        · have hk := key.mpr hin
          rw [if_neg (by omega), if_pos (by omega), if_pos (by omega)]
          rw [List.getElem?_take, if_pos (by omega), List.getElem?_drop]
          congr 1
          obtain ⟨rfl, _, _⟩ := hin
          rw [show Y + i - Y = i by omega]
          omega
        · have hk : ¬ ((Y + i) * w + X ≤ y * w + x ∧ y * w + x < (Y + i) * w + X + cw) :=
            fun hc => hin (key.mp hc)
          have heq : (if y * w + x < (Y + i) * w + X then img[y * w + x]?
              else if y * w + x < (Y + i) * w + X + cw then
                ((buffer.drop (i * bw)).take cw)[y * w + x - ((Y + i) * w + X)]?
              else img[y * w + x]?) = img[y * w + x]? := by
            split
            · rfl
            · rw [if_neg (by omega)]
          rw [heq, hpix x y hx' hy']
          by_cases hc : X ≤ x ∧ x < X + cw ∧ Y ≤ y ∧ y < Y + i
          · rw [if_pos hc, if_pos (by omega)]
          · rw [if_neg hc, if_neg (by omega)])
  obtain ⟨⟨off, img'⟩, hl, -, hlen, hrest, hpix⟩ := loop
  refine ⟨img', ?_, hlen, hrest, ?_⟩
  · rw [hl]; rfl
  · intro x y hx' hy'
    rw [hpix x y hx' hy']
    have hxd := Nat.div_add_mod x bw
    have hxm := Nat.mod_lt x hbw
    have hyd := Nat.div_add_mod y bh
    have hym := Nat.mod_lt y hbh
    have kx : (X ≤ x ∧ x < X + cw) ↔ x / bw = bx := by
      rw [Nat.div_eq_iff hbw, Nat.mul_comm bx bw, hX]; omega
    have ky : (Y ≤ y ∧ y < Y + ch) ↔ y / bh = by' := by
      rw [Nat.div_eq_iff hbh, hY]; omega
    by_cases hc : x / bw = bx ∧ y / bh = by'
    · rw [if_pos hc, if_pos (by have := kx.mpr hc.1; have := ky.mpr hc.2; omega)]
      rw [hc.1, hX] at hxd
      rw [hc.2, Nat.mul_comm bh by', hY] at hyd
      have a1 : y - Y = y % bh := by omega
      have a2 : x - X = x % bw := by omega
      rw [a1, a2]
    · rw [if_neg hc, if_neg]
      intro hh
      exact hc ⟨kx.mp (by omega), ky.mp (by omega)⟩


theorem blockDecoder32_spec [Build] {f : BlockFn} {bw bh raw : Nat} {Legal : List UInt8 → Prop}
    {texel : List UInt8 → Nat → UInt32} {Inv : List UInt32 → Prop}
    (hbw : 0 < bw) (hbh : 0 < bh) (hraw : 0 < raw) (hn : bw * bh < 2 ^ 29)
    (C : BlockContract f (bw * bh) raw Legal texel Inv) :
    Spec.DecodesLegal32 (blockDecoder32 bw bh raw f) bw bh raw Legal texel := by
  have hb1 : bw < 2 ^ 29 := by have := Nat.le_mul_of_pos_right bw hbh; omega
  have hb2 : bh < 2 ^ 29 := by have := Nat.le_mul_of_pos_left bh hbw; omega
  have hblocks : ∀ w h, Spec.bytesNeeded bw bh raw w h < 2 ^ 32 →
      Spec.ceilDiv w bw * Spec.ceilDiv h bh < 2 ^ 32 := by
    intro w h hb
    have := Nat.le_mul_of_pos_right (Spec.ceilDiv w bw * Spec.ceilDiv h bh) hraw
    unfold Spec.bytesNeeded Spec.numBlocks at hb
    omega
  have hpre : ∀ data w h image, Spec.bytesNeeded bw bh raw w h < 2 ^ 32 →
      blockDecoder32 bw bh raw f data w h image =
        (if data.length < Spec.bytesNeeded bw bh raw w h then
          pure (.error "Not enough data to decode image!", image)
        else do
          let pixels ← mulU 32 w h
          if image.length < pixels then
            pure (.error "Image buffer is too small!", image)
          else do
            let (_, _, image) ← forRange (Spec.ceilDiv h bh) (fun by' s =>
              forRange (Spec.ceilDiv w bw) (fun bx (s : List UInt32 × Nat × List UInt32) => do
                let (buffer, dataOffset, image) := s
                let block ← sliceFrom data dataOffset
                let buffer ← f block buffer
                let image ← copyBlockBuffer32 bx by' w h bw bh buffer image
                let dataOffset ← addU 32 dataOffset raw
                pure (buffer, dataOffset, image)) s)
              (List.replicate (bw * bh) (color 0 0 0 255), 0, image)
            pure (.ok (), image)) := by
    intro data w h image hb
    unfold blockDecoder32
    rw [divCeil_ok (by omega), Out.ok_bind, divCeil_ok (by omega), Out.ok_bind]
    have := hblocks w h hb
    change (do
      let blocks ← mulU 32 (Spec.ceilDiv w bw) (Spec.ceilDiv h bh)
      _) = _
    rw [mulU_ok this, Out.ok_bind, mulU_ok (a := Spec.ceilDiv w bw * Spec.ceilDiv h bh) (b := raw) hb,
      Out.ok_bind]
    rfl
  refine ⟨?_, ?_, ?_⟩
  · intro data w h image hs hlt
    rw [hpre _ _ _ _ hs.bytes_fit, if_pos hlt]; rfl
  · intro data w h image hs hge hlt
    rw [hpre _ _ _ _ hs.bytes_fit, if_neg (by omega), mulU_ok hs.pixels_fit, Out.ok_bind,
      if_pos hlt]; rfl
  · intro data w h image hs hge hge2 hlegal
    rw [hpre _ _ _ _ hs.bytes_fit, if_neg (by omega), mulU_ok hs.pixels_fit, Out.ok_bind,
      if_neg (by omega)]
    have hbytes := hs.bytes_fit
    have himl := hs.image_len
    unfold Spec.bytesNeeded Spec.numBlocks at hge hbytes
    generalize hnx : Spec.ceilDiv w bw = nx at *
    generalize hny : Spec.ceilDiv h bh = ny at *
    have outer := forRange_inv (n := ny)
      (s := (List.replicate (bw * bh) (color 0 0 0 255), 0, image))
      (f := fun by' s =>
        forRange nx (fun bx (s : List UInt32 × Nat × List UInt32) => do
          let (buffer, dataOffset, image) := s
          let block ← sliceFrom data dataOffset
          let buffer ← f block buffer
          let image ← copyBlockBuffer32 bx by' w h bw bh buffer image
          let dataOffset ← addU 32 dataOffset raw
          pure (buffer, dataOffset, image)) s)
      (P := fun by' s => Inv s.1 ∧ s.2.1 = by' * nx * raw ∧ s.2.2.length = image.length ∧
        (∀ i, w * h ≤ i → s.2.2[i]? = image[i]?) ∧
        ∀ x y, x < w → y < h → y / bh < by' →
          s.2.2[y * w + x]? = some (Spec.pixelAt bw bh raw texel data w x y))
      ⟨C.init, by simp, rfl, fun _ _ => rfl, fun _ _ _ _ hlt => absurd hlt (Nat.not_lt_zero _)⟩
      (by
        intro by' hby s ⟨hInv, hoff, hlen, hrest, hpix⟩
        have inner := forRange_inv (n := nx) (s := s)
          (f := fun bx (s : List UInt32 × Nat × List UInt32) => do
            let (buffer, dataOffset, image) := s
            let block ← sliceFrom data dataOffset
            let buffer ← f block buffer
            let image ← copyBlockBuffer32 bx by' w h bw bh buffer image
            let dataOffset ← addU 32 dataOffset raw
            pure (buffer, dataOffset, image))
          (P := fun bx s => Inv s.1 ∧ s.2.1 = (by' * nx + bx) * raw ∧
            s.2.2.length = image.length ∧
            (∀ i, w * h ≤ i → s.2.2[i]? = image[i]?) ∧
            ∀ x y, x < w → y < h → (y / bh < by' ∨ (y / bh = by' ∧ x / bw < bx)) →
              s.2.2[y * w + x]? = some (Spec.pixelAt bw bh raw texel data w x y))
          ⟨hInv, by simpa using hoff, hlen, hrest, fun x y hx hy hc =>
            hpix x y hx hy (hc.elim id fun h => absurd h.2 (Nat.not_lt_zero _))⟩
          (by
            rintro bx hbx ⟨buf, off, img⟩ ⟨hInv, hoff, hlen, hrest, hpix⟩
            simp only at hInv hoff hlen hrest hpix
            subst hoff
            have hk : by' * nx + bx < nx * ny := by
              have := Nat.mul_le_mul_right nx (show by' + 1 ≤ ny from hby)
              rw [Nat.add_mul, Nat.mul_comm ny nx] at this; omega
            have hk2 : (by' * nx + bx + 1) * raw ≤ nx * ny * raw :=
              Nat.mul_le_mul_right raw hk
            rw [Nat.add_mul _ 1 raw] at hk2
            generalize hkk : by' * nx + bx = k at *
            have hleg := hlegal k (by unfold Spec.numBlocks; rw [hnx, hny]; exact hk)
            obtain ⟨buf', hf, hInv', hbl, hbpx⟩ := C.step (data.drop (k * raw)) buf
              (by simp; omega) hleg hInv
            have hX : bw * bx < w := ceilDiv_bound hbw (by omega)
            have hY : by' * bh < h := by
              rw [Nat.mul_comm]; exact ceilDiv_bound hbh (by omega)
            have hw0 : w ≤ w * h := Nat.le_mul_of_pos_right w (by omega)
            have hh0 : h ≤ w * h := Nat.le_mul_of_pos_left h (by omega)
            obtain ⟨img', hc, hcl, hcr, hcp⟩ := copyBlockBuffer32_spec (bx := bx) (by' := by') (w := w)
              (h := h) (bw := bw) (bh := bh) (buffer := buf') (image := img) hbw hbh hX hY (by omega)
              (by omega) hs.pixels_fit
              (by rw [Nat.mul_add]; omega) (by rw [Nat.mul_add, Nat.mul_comm bh by']; omega)
              (by omega)
            refine ⟨(buf', k * raw + raw, img'), ?_, hInv', ?_, by simp [hcl, hlen], ?_, ?_⟩
            · simp only
              rw [sliceFrom_ok (by omega), Out.ok_bind, hf, Out.ok_bind, hc, Out.ok_bind,
                addU_ok (by omega)]
              rfl
            · simp only
              rw [show by' * nx + (bx + 1) = k + 1 by omega, Nat.add_mul, Nat.one_mul]
            · intro i hi; simp only; rw [hcr i hi, hrest i hi]
            · intro x y hx hy hxy
              simp only
              rw [hcp x y hx hy]
              split
              · next hin =>
                rw [hbpx _ (by
                  have h1 := Nat.mod_lt x hbw
                  have h2 := Nat.mul_le_mul_right bw (Nat.mod_lt y hbh)
                  rw [Nat.succ_mul, Nat.mul_comm bh bw] at h2
                  omega)]
                unfold Spec.pixelAt Spec.blockBytes
                rw [hnx, hin.1, hin.2, hkk]
              · next hout => exact hpix x y hx hy (by omega))
        obtain ⟨s', e, p1, p2, p3, p4, p5⟩ := inner
        refine ⟨s', e, p1, by rw [p2, Nat.add_mul by' 1 nx, Nat.one_mul], p3, p4, ?_⟩
        intro x y hx hy hlt
        refine p5 x y hx hy ?_
        have := div_lt_ceilDiv hbw hx
        omega)
    obtain ⟨⟨b', o', img'⟩, e, -, -, p3, p4, p5⟩ := outer
    refine ⟨img', ?_, p3, ?_, p4⟩
    · rw [e]; rfl
    · intro x y hx hy
      exact p5 x y hx hy (by have := div_lt_ceilDiv hbh hy; omega)

end Verif.Proofs
