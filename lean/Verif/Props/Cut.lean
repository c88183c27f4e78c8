import Verif.Props.AnyBlocks
import Verif.Proofs.Cut

/-!
# C92: cutting rectangles of blocks out of a texture
-/

namespace Verif.Props

open Verif Verif.Proofs Verif.Proofs.Cut Verif.Proofs.Astc Verif.Model

section
variable [Build]

/-- **C92** The block formats: the same bytes give the same pixels wherever the block stands, also in textures of
different sizes. -/
theorem C92_moved_block (fmt : Spec.Format) (data1 data2 : List UInt8) (w1 h1 w2 h2 : Nat)
    (image1 image2 out1 out2 : List UInt32) (hs1 : fmt.SizesOk w1 h1 image1) (hs2 : fmt.SizesOk w2 h2 image2)
    (hok1 : decoder fmt data1 w1 h1 image1 = .ok (.ok (), out1))
    (hok2 : decoder fmt data2 w2 h2 image2 = .ok (.ok (), out2)) (bx1 by1 bx2 by2 : Nat)
    (hsame : Spec.blockBytes fmt.blockSize data1 (by1 * Spec.ceilDiv w1 4 + bx1) =
      Spec.blockBytes fmt.blockSize data2 (by2 * Spec.ceilDiv w2 4 + bx2))
    (i j : Nat) (hi : i < 4) (hj : j < 4) (hx1 : 4 * bx1 + i < w1) (hy1 : 4 * by1 + j < h1)
    (hx2 : 4 * bx2 + i < w2) (hy2 : 4 * by2 + j < h2) :
    out1[(4 * by1 + j) * w1 + (4 * bx1 + i)]? = out2[(4 * by2 + j) * w2 + (4 * bx2 + i)]? := by
  obtain ⟨Good, texel, A⟩ := decoder_any fmt
  obtain ⟨-, -, -, d1⟩ := A.ok_inv hs1 hok1
  obtain ⟨-, -, -, d2⟩ := A.ok_inv hs2 hok2
  have e : ∀ b r : Nat, r < 4 → (4 * b + r) / 4 = b ∧ (4 * b + r) % 4 = r := fun b r hr => by omega
  rw [d1.pixel _ _ hx1 hy1, d2.pixel _ _ hx2 hy2]
  unfold Spec.pixelAt
  rw [(e bx1 i hi).1, (e bx1 i hi).2, (e by1 j hj).1, (e by1 j hj).2, (e bx2 i hi).1, (e bx2 i hi).2,
    (e by2 j hj).1, (e by2 j hj).2, hsame]

/-- **C92** The block formats: the blocks of a rectangle, copied out of a texture that can be decoded, are a texture
that can be decoded, and its picture is that part of the picture. -/
theorem C92_cut (fmt : Spec.Format) (data : List UInt8) (w h w' h' ox oy : Nat) (image image' out : List UInt32)
    (hs : fmt.SizesOk w h image) (hok : decoder fmt data w h image = .ok (.ok (), out))
    (hw : 4 * ox + w' ≤ w) (hh : 4 * oy + h' ≤ h) (hi : image'.length < 2 ^ 61) (hi' : w' * h' ≤ image'.length) :
    ∃ out', decoder fmt (Spec.cutBlocks fmt.blockSize (Spec.ceilDiv w 4) data ox oy
        (Spec.ceilDiv w' 4) (Spec.ceilDiv h' 4)) w' h' image' = .ok (.ok (), out') ∧
      Spec.IsPart w out (4 * ox) (4 * oy) w' h' out' := by
  obtain ⟨Good, texel, A⟩ := decoder_any fmt
  obtain ⟨hd, -, hg, d⟩ := A.ok_inv hs hok
  exact cut_picture A.decodes (by omega) (by omega) hs hd
    (fun bx by_ hx hy => hg _ (idx_lt (ceil_lt (by omega) hw hx) (ceil_lt (by omega) hh hy))) d hw hh hi hi'

/- The two blocks on the right of the upper row of a texture of 12 × 8 pixels. -/
example (blocks : List UInt8) (hb : blocks.length = 48) :
    ∃ out out', decoder .bc1 blocks 12 8 (List.replicate 96 0) = .ok (.ok (), out) ∧
      decoder .bc1 (Spec.cutBlocks 8 3 blocks 1 0 2 1) 8 4 (List.replicate 32 0) = .ok (.ok (), out') ∧
      Spec.IsPart 12 out 4 0 8 4 out' := by
  obtain ⟨out, hok, -⟩ := (decoder_spec .bc1).success blocks 12 8 (List.replicate 96 0)
    ⟨by decide, by decide, by decide⟩ (by rw [hb]; decide) (by decide) (fun _ _ => trivial)
  obtain ⟨out', h⟩ := C92_cut .bc1 blocks 12 8 8 4 1 0 _ (List.replicate 32 0) out ⟨by decide, by decide, by decide⟩ hok
    (by decide) (by decide) (by decide) (by decide)
  exact ⟨out, out', hok, h⟩

example : Spec.cutBlocks 2 3 [0, 1, 10, 11, 20, 21, 30, 31, 40, 41, 50, 51] 1 0 2 2
    = [10, 11, 20, 21, 40, 41, 50, 51] := by decide

/-- **C92** ASTC with any block size, for blocks that can be decoded on their own (C35: all that fit). -/
theorem C92_cut_astc (data : List UInt8) (w h w' h' bw bh ox oy : Nat) (image image' img out : List UInt32)
    (hbw : 0 < bw) (hbh : 0 < bh) (hb : bw * bh ≤ 144) (hs : Spec.SizesOk bw bh 16 w h image)
    (hok : decodeAstc data w h bw bh image = .ok (.ok (), out))
    (hw : bw * ox + w' ≤ w) (hh : bh * oy + h' ≤ h) (hi : image'.length < 2 ^ 61) (hi' : w' * h' ≤ image'.length)
    (himg : img.length < 2 ^ 61)
    (hone : ∀ bx by_, bx < Spec.ceilDiv w' bw → by_ < Spec.ceilDiv h' bh →
      ∃ one, decodeAstc (Spec.blockBytes 16 data ((oy + by_) * Spec.ceilDiv w bw + (ox + bx))) bw bh bw bh img =
        .ok (.ok (), one)) :
    ∃ out', decodeAstc (Spec.cutBlocks 16 (Spec.ceilDiv w bw) data ox oy (Spec.ceilDiv w' bw) (Spec.ceilDiv h' bh))
        w' h' bw bh image' = .ok (.ok (), out') ∧ Spec.IsPart w out (bw * ox) (bh * oy) w' h' out' := by
  obtain ⟨hd, -, -⟩ := blocks_of_image hbw hbh hb hs hok
  obtain ⟨hlen, hblk⟩ := cut_blocks (raw := 16) hbw hbh hd hw hh
  have hbytes : Spec.bytesNeeded bw bh 16 w' h' ≤ Spec.bytesNeeded bw bh 16 w h :=
    Nat.mul_le_mul_right _ (Nat.mul_le_mul (ceil_mono hbw hw) (ceil_mono hbh hh))
  have hpix : w' * h' ≤ w * h := Nat.mul_le_mul (by omega) (by omega)
  have hsb := hs.bytes_fit
  have hsp := hs.pixels_fit
  have hs' : Spec.SizesOk bw bh 16 w' h' image' := ⟨hi, by omega, by omega⟩
  obtain ⟨out', e⟩ := C66_all_alone _ w' h' bw bh image' img hbw hbh hb hs' himg (Nat.le_of_eq hlen.symm) hi'
    (fun k hk => by
      have hpos : 0 < Spec.ceilDiv w' bw := Nat.pos_of_ne_zero fun e => by
        unfold Spec.numBlocks at hk; rw [e, Nat.zero_mul] at hk; omega
      have h1 : k % Spec.ceilDiv w' bw < Spec.ceilDiv w' bw := Nat.mod_lt _ hpos
      have h2 : k / Spec.ceilDiv w' bw < Spec.ceilDiv h' bh := Nat.div_lt_of_lt_mul hk
      have e := (hblk _ _ h1 h2).2
      rw [Nat.mul_comm (k / _), Nat.div_add_mod] at e
      rw [e]
      exact hone _ _ h1 h2)
  refine ⟨out', e, fun x y hx hy => ?_⟩
  have h1 := div_lt_ceil hbw hx
  have h2 := div_lt_ceil hbh hy
  obtain ⟨one, eo⟩ := hone _ _ h1 h2
  rw [C66_block_alone_partial _ w' h' bw bh image' img out' one hbw hbh hb hs' himg e x y hx hy
      (by rw [(hblk _ _ h1 h2).2]; exact eo),
    C66_block_alone_partial data w h bw bh image img out one hbw hbh hb hs himg hok (bw * ox + x) (bh * oy + y)
      (by omega) (by omega) (by rw [Nat.mul_add_div hbw, Nat.mul_add_div hbh]; exact eo),
    Nat.mul_add_mod, Nat.mul_add_mod]

/- The right one of two blocks. -/
example : ∃ out out', decodeAstc (astcRgb ++ astcRgb) 8 4 4 4 (List.replicate 32 0) = .ok (.ok (), out) ∧
    decodeAstc (Spec.cutBlocks 16 2 (astcRgb ++ astcRgb) 1 0 1 1) 3 4 4 4 (List.replicate 12 0) = .ok (.ok (), out') ∧
      Spec.IsPart 8 out 4 0 3 4 out' := by
  have hfit : Spec.Astc.Fits astcRgb := by decide +kernel
  obtain ⟨one, hone, -⟩ := (C35_astc 4 4 (by decide) (by decide) (by decide)).success astcRgb 4 4 (List.replicate 16 0)
    ⟨by decide, by decide, by decide⟩ (by decide) (by decide)
    (fun k hk => by have : k = 0 := Nat.lt_one_iff.1 hk; subst this; exact hfit)
  obtain ⟨out, hok, -⟩ := (C35_astc 4 4 (by decide) (by decide) (by decide)).success (astcRgb ++ astcRgb) 8 4
    (List.replicate 32 0) ⟨by decide, by decide, by decide⟩ (by decide) (by decide)
    (fun k hk => by
      have : k = 0 ∨ k = 1 := by
        have : k < 2 := hk
        omega
      rcases this with rfl | rfl
      · exact hfit
      · exact hfit)
  obtain ⟨out', h⟩ := C92_cut_astc (astcRgb ++ astcRgb) 8 4 3 4 4 4 1 0 _ (List.replicate 12 0) (List.replicate 16 0) out
    (by decide) (by decide) (by decide) ⟨by decide, by decide, by decide⟩ hok (by decide) (by decide) (by decide)
    (by decide) (by decide)
    (fun bx by_ hx hy => by
      have h1 : bx = 0 := Nat.lt_one_iff.1 hx
      have h2 : by_ = 0 := Nat.lt_one_iff.1 hy
      subst h1; subst h2
      exact ⟨one, hone⟩)
  exact ⟨out, out', hok, h⟩

end

end Verif.Props
