import Verif.Proofs.AstcBlock
/-!
Proofs: whole ASTC images.
-/
namespace Verif.Proofs.Astc
open Verif Verif.Model Verif.Proofs Verif.Spec.Astc
variable [Build]

/-- The checks of `decode_astc`, for any block size. -/
theorem astc_checks {data : List UInt8} {w h bw bh : Nat} {image : List UInt32}
    (hs : Spec.SizesOk bw bh 16 w h image) (hbw : 0 < bw) (hbh : 0 < bh) :
    (data.length < Spec.bytesNeeded bw bh 16 w h →
      decodeAstc data w h bw bh image = .ok (.error "Not enough data to decode image!", image)) ∧
    (Spec.bytesNeeded bw bh 16 w h ≤ data.length → image.length < w * h →
      decodeAstc data w h bw bh image = .ok (.error "Image buffer is too small!", image)) ∧
    (Spec.bytesNeeded bw bh 16 w h ≤ data.length → w * h ≤ image.length →
      144 < bw * bh → bw * bh < 2 ^ 64 →
      decodeAstc data w h bw bh image = .ok (.error "Block size is too big!", image)) ∧
    (Spec.bytesNeeded bw bh 16 w h ≤ data.length → w * h ≤ image.length → bw * bh ≤ 144 →
      decodeAstc data w h bw bh image = (do
        let (_, _, image) ← forRange (Spec.ceilDiv h bh) (fun by' s =>
          forRange (Spec.ceilDiv w bw) (fun bx (s : List UInt32 × Nat × List UInt32) => do
            let (buffer, dataOffset, image) := s
            let block ← sliceFrom data dataOffset
            let buffer ← decodeAstcBlock block bw bh buffer
            let image ← copyBlockBuffer bx by' w h bw bh buffer image
            let dataOffset ← addU 64 dataOffset 16
            pure (buffer, dataOffset, image)) s) (List.replicate 144 0, 0, image)
        pure (.ok (), image))) := by
  have hb := hs.bytes_fit
  have hp := hs.pixels_fit
  unfold Spec.bytesNeeded at hb ⊢
  unfold Spec.numBlocks at hb ⊢
  have e : decodeAstc data w h bw bh image =
      (if data.length < Spec.ceilDiv w bw * Spec.ceilDiv h bh * 16 then
        pure (.error "Not enough data to decode image!", image)
      else if image.length < w * h then pure (.error "Image buffer is too small!", image)
      else do
        let size ← mulU 64 bw bh
        if size > 144 then pure (.error "Block size is too big!", image)
        else do
          let (_, _, image) ← forRange (Spec.ceilDiv h bh) (fun by' s =>
            forRange (Spec.ceilDiv w bw) (fun bx (s : List UInt32 × Nat × List UInt32) => do
              let (buffer, dataOffset, image) := s
              let block ← sliceFrom data dataOffset
              let buffer ← decodeAstcBlock block bw bh buffer
              let image ← copyBlockBuffer bx by' w h bw bh buffer image
              let dataOffset ← addU 64 dataOffset 16
              pure (buffer, dataOffset, image)) s) (List.replicate 144 0, 0, image)
          pure (.ok (), image)) := by
    unfold decodeAstc
    rw [divCeil_ok (by omega), Out.ok_bind, divCeil_ok (by omega), Out.ok_bind]
    simp only
    rw [← Spec.ceilDiv, ← Spec.ceilDiv, mulU_ok (by omega), Out.ok_bind, mulU_ok (by omega), Out.ok_bind,
      mulU_ok (by omega), Out.ok_bind]
  refine ⟨fun h1 => ?_, fun h1 h2 => ?_, fun h1 h2 h3 h4 => ?_, fun h1 h2 h3 => ?_⟩
  · rw [e, if_pos h1]; rfl
  · rw [e, if_neg (by omega), if_pos h2]; rfl
  · rw [e, if_neg (by omega), if_neg (by omega), mulU_ok h4, Out.ok_bind, if_pos h3]; rfl
  · rw [e, if_neg (by omega), if_neg (by omega), mulU_ok (by omega), Out.ok_bind, if_neg (by omega)]

/-- Whole images whose blocks all fit. -/
theorem decodeAstc_ok {bw bh : Nat} (hbw : 2 ≤ bw) (hbh : 2 ≤ bh) (hb : bw * bh ≤ 144) :
    Spec.DecodesLegal (fun data w h image => decodeAstc data w h bw bh image) bw bh 16 Fits
      (texel true bw bh) := by
  refine ⟨fun data w h image hs h1 => (astc_checks hs (by omega) (by omega)).1 h1,
    fun data w h image hs h1 h2 => (astc_checks hs (by omega) (by omega)).2.1 h1 h2, ?_⟩
  intro data w h image hs hdata himg hfits
  rw [(astc_checks hs (by omega) (by omega)).2.2.2 hdata himg hb]
  have hbf := hs.bytes_fit
  unfold Spec.bytesNeeded at hbf hdata
  unfold Spec.numBlocks at hbf hdata hfits
  generalize hnx : Spec.ceilDiv w bw = nx at *
  generalize hny : Spec.ceilDiv h bh = ny at *
  obtain ⟨s, e, -, hlen, hpix, hrest⟩ := tileLoop
    (S := List UInt32 × Nat × List UInt32) (fun s => s.2.2)
    (fun k s => s.1.length = 144 ∧ s.2.1 = 16 * k) (w := w) (h := h) (bw := bw) (bh := bh)
    (nx := nx) (ny := ny)
    (fun by' bx s => (do
            let (buffer, dataOffset, image) := s
            let block ← sliceFrom data dataOffset
            let buffer ← decodeAstcBlock block bw bh buffer
            let image ← copyBlockBuffer bx by' w h bw bh buffer image
            let dataOffset ← addU 64 dataOffset 16
            pure (buffer, dataOffset, image)))
    (fun bx by' t => texel true bw bh (Spec.blockBytes 16 data (by' * nx + bx)) t)
    (List.replicate 144 0, 0, image) (by omega) (by omega) (by omega)
    hnx.symm hny.symm himg hs.image_len ⟨List.length_replicate, rfl⟩
    (by
      rintro by' bx hby hbx ⟨buf, off, img⟩ ⟨hl, ho⟩
      simp only at hl ho ⊢
      have hk : by' * nx + bx < nx * ny := by
        have h1 := Nat.mul_le_mul_right nx (show by' + 1 ≤ ny from hby)
        rw [Nat.add_mul, Nat.mul_comm ny nx] at h1
        omega
      have hfit := hfits _ hk
      unfold Spec.blockBytes at hfit
      generalize hkk : by' * nx + bx = k at *
      have hoff : k * 16 = off := by omega
      rw [hoff] at hfit
      obtain ⟨o, e, hol, h1, h2⟩ := decodeAstcBlock_ok (buf := data.drop off)
        (by rw [List.length_drop]; omega) hfit hbw hbh hb buf (by omega)
      refine ⟨o, by omega, ?_, ?_⟩
      · intro i hi
        rw [h1 i hi]
        unfold Spec.blockBytes
        rw [hoff]
      · intro im hc
        rw [sliceFrom_ok (by omega), Out.ok_bind, e, Out.ok_bind, hc, Out.ok_bind, addU_ok (by omega),
          Out.ok_bind]
        exact ⟨_, rfl, rfl, by simp only; omega, by simp only; omega⟩)
  refine ⟨s.2.2, ?_, hlen, ?_, hrest⟩
  · rw [e, Out.ok_bind]; rfl
  · intro x y hx hy
    rw [hpix x y hx hy, Spec.pixelAt, hnx]

end Verif.Proofs.Astc
