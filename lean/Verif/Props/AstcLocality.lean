import Verif.Props.Astc
import Verif.Proofs.AstcAny
import Verif.Proofs.ImageLaws

/-!
# C66: ASTC blocks and what surrounds them

The laws of C05–C08 for ASTC images of arbitrary blocks, well-formed or not. `decode_astc` violates two of
them: for a malformed block whose colour values do not fit, the code reads bits beyond its 16 bytes.
-/

namespace Verif.Props

open Verif Verif.Model Verif.Spec.Astc Verif.Proofs Verif.Proofs.Astc

section
variable [Build]

/-- **C66** The previous contents of the image do not matter: if a decode succeeds, it also succeeds
into any other image that is large enough, with the same pixels and without touching the rest. -/
theorem C66_previous_image (data : List UInt8) (w h bw bh : Nat) (image1 image2 out1 : List UInt32)
    (hbw : 0 < bw) (hbh : 0 < bh) (hb : bw * bh ≤ 144) (hs1 : Spec.SizesOk bw bh 16 w h image1)
    (h2 : image2.length < 2 ^ 61) (hi : w * h ≤ image2.length)
    (hok : decodeAstc data w h bw bh image1 = .ok (.ok (), out1)) :
    ∃ out2, decodeAstc data w h bw bh image2 = .ok (.ok (), out2) ∧
      out2.take (w * h) = out1.take (w * h) ∧ out2.drop (w * h) = image2.drop (w * h) := by
  obtain ⟨hd, hi1, C, hC⟩ := blocks_of_image hbw hbh hb hs1 hok
  obtain ⟨o1, e1, -, p1, -⟩ := image_of_blocks hbw hbh hb hs1 hd hi1 hC
  obtain ⟨o2, e2, -, p2, r2⟩ := image_of_blocks (image := image2) hbw hbh hb
    ⟨h2, hs1.bytes_fit, hs1.pixels_fit⟩ hd hi hC
  rw [hok] at e1
  cases e1
  refine ⟨o2, e2, ?_, ?_⟩
  · apply List.ext_getElem?
    intro j
    rw [List.getElem?_take, List.getElem?_take]
    split
    · next hj =>
      obtain ⟨x, y, hx, hy, rfl⟩ := pixel_index hj
      rw [p1 x y hx hy, p2 x y hx hy]
    · rfl
  · apply List.ext_getElem?
    intro j
    rw [List.getElem?_drop, List.getElem?_drop]
    exact r2 _ (by omega)

/-- **C66** (what holds) A decode that succeeds is not changed by bytes after the last block. -/
theorem C66_trailing_partial (data extra : List UInt8) (w h bw bh : Nat) (image out : List UInt32)
    (hbw : 0 < bw) (hbh : 0 < bh) (hb : bw * bh ≤ 144) (hs : Spec.SizesOk bw bh 16 w h image)
    (hok : decodeAstc data w h bw bh image = .ok (.ok (), out)) :
    decodeAstc (data ++ extra) w h bw bh image = .ok (.ok (), out) := by
  obtain ⟨hd, hi, C, hC⟩ := blocks_of_image hbw hbh hb hs hok
  obtain ⟨o1, e1, -, p1, r1⟩ := image_of_blocks hbw hbh hb hs hd hi hC
  obtain ⟨o2, e2, -, p2, r2⟩ := image_of_blocks (data := data ++ extra) hbw hbh hb hs
    (by rw [List.length_append]; omega) hi (C := C) (fun k hk => (hC k hk).grow ⟨extra, by
      have : Spec.numBlocks bw bh w h * 16 ≤ data.length := hd
      rw [List.drop_append_of_le_length (by omega)]⟩)
  rw [hok] at e1
  cases e1
  rw [e2]
  congr 2
  apply List.ext_getElem?
  intro j
  rcases Nat.lt_or_ge j (w * h) with hj | hj
  · obtain ⟨x, y, hx, hy, rfl⟩ := pixel_index hj
    rw [p1 x y hx hy, p2 x y hx hy]
  · rw [r1 j hj, r2 j hj]

omit [Build] in
/-- The block that covers a pixel is one of the blocks of the image. -/
theorem cover_idx {w h bw bh x y : Nat} (hbw : 0 < bw) (hbh : 0 < bh) (hx : x < w) (hy : y < h) :
    y / bh * Spec.ceilDiv w bw + x / bw < Spec.numBlocks bw bh w h := by
  have h1 := div_lt_ceilDiv hbw hx
  have h2 := div_lt_ceilDiv hbh hy
  unfold Spec.numBlocks
  have := Nat.mul_le_mul_right (Spec.ceilDiv w bw) (show y / bh + 1 ≤ Spec.ceilDiv h bh from h2)
  rw [Nat.add_mul, Nat.mul_comm (Spec.ceilDiv h bh)] at this
  omega

/-- The colours of a block that decodes alone, as an image of one block. -/
theorem blockIs_alone {blk : List UInt8} {bw bh : Nat} {img one : List UInt32}
    (hbw : 0 < bw) (hbh : 0 < bh) (hb : bw * bh ≤ 144) (hi : img.length < 2 ^ 61)
    (hok : decodeAstc blk bw bh bw bh img = .ok (.ok (), one)) :
    ∃ c, BlockIs blk bw bh c ∧ ∀ x y, x < bw → y < bh → one[y * bw + x]? = some (c (y * bw + x)) := by
  have h1 : Spec.ceilDiv bw bw = 1 := by
    unfold Spec.ceilDiv
    rw [show bw + bw - 1 = (bw - 1) + bw by omega, Nat.add_div_right _ hbw, Nat.div_eq_of_lt (by omega)]
  have h2 : Spec.ceilDiv bh bh = 1 := by
    unfold Spec.ceilDiv
    rw [show bh + bh - 1 = (bh - 1) + bh by omega, Nat.add_div_right _ hbh, Nat.div_eq_of_lt (by omega)]
  have hn : Spec.numBlocks bw bh bw bh = 1 := by unfold Spec.numBlocks; rw [h1, h2]
  have hs : Spec.SizesOk bw bh 16 bw bh img :=
    ⟨hi, by unfold Spec.bytesNeeded; rw [hn]; omega, by omega⟩
  obtain ⟨hd, hi1, C, hC⟩ := blocks_of_image hbw hbh hb hs hok
  obtain ⟨o1, e1, -, p1, -⟩ := image_of_blocks hbw hbh hb hs hd hi1 hC
  rw [hok] at e1
  cases e1
  have h0 := hC 0 (by omega)
  rw [Nat.mul_zero, List.drop_zero] at h0
  refine ⟨C 0, h0, fun x y hx hy => ?_⟩
  have := p1 x y hx hy
  rwa [Nat.div_eq_of_lt hx, Nat.div_eq_of_lt hy, Nat.zero_mul, Nat.mod_eq_of_lt hx,
    Nat.mod_eq_of_lt hy] at this

/-- **C66** (what holds) The pixels of a block that decodes on its own, as an image of one block, are the
same in every image that contains it and decodes. -/
theorem C66_block_alone_partial (data : List UInt8) (w h bw bh : Nat) (image img out one : List UInt32)
    (hbw : 0 < bw) (hbh : 0 < bh) (hb : bw * bh ≤ 144) (hs : Spec.SizesOk bw bh 16 w h image)
    (hi : img.length < 2 ^ 61) (hok : decodeAstc data w h bw bh image = .ok (.ok (), out))
    (x y : Nat) (hx : x < w) (hy : y < h)
    (hone : decodeAstc (Spec.blockBytes 16 data (y / bh * Spec.ceilDiv w bw + x / bw)) bw bh bw bh img =
      .ok (.ok (), one)) :
    out[y * w + x]? = one[y % bh * bw + x % bw]? := by
  obtain ⟨hd, hi1, C, hC⟩ := blocks_of_image hbw hbh hb hs hok
  obtain ⟨o1, e1, -, p1, -⟩ := image_of_blocks hbw hbh hb hs hd hi1 hC
  rw [hok] at e1
  cases e1
  obtain ⟨c, hc, hp⟩ := blockIs_alone hbw hbh hb hi hone
  have hk := hC _ (cover_idx hbw hbh hx hy)
  have hmx := Nat.mod_lt x hbw
  have hmy := Nat.mod_lt y hbh
  rw [p1 x y hx hy, hp _ _ hmx hmy]
  refine congrArg some (hk.unique (hc.grow ?_) ?_)
  · unfold Spec.blockBytes
    rw [Nat.mul_comm _ 16]
    exact List.take_prefix _ _
  · have := Nat.mul_le_mul_right bw (show y % bh + 1 ≤ bh from hmy)
    rw [Nat.add_mul, Nat.mul_comm bh bw] at this
    omega

/-- **C66** An image of blocks that all decode on their own decodes. -/
theorem C66_all_alone (data : List UInt8) (w h bw bh : Nat) (image img : List UInt32)
    (hbw : 0 < bw) (hbh : 0 < bh) (hb : bw * bh ≤ 144) (hs : Spec.SizesOk bw bh 16 w h image)
    (hi : img.length < 2 ^ 61) (hd : Spec.bytesNeeded bw bh 16 w h ≤ data.length)
    (hi2 : w * h ≤ image.length)
    (hone : ∀ k, k < Spec.numBlocks bw bh w h →
      ∃ one, decodeAstc (Spec.blockBytes 16 data k) bw bh bw bh img = .ok (.ok (), one)) :
    ∃ out, decodeAstc data w h bw bh image = .ok (.ok (), out) := by
  have hblk : ∀ k, k < Spec.numBlocks bw bh w h → ∃ c, BlockIs (data.drop (16 * k)) bw bh c := by
    intro k hk
    obtain ⟨one, e⟩ := hone k hk
    obtain ⟨c, hc, -⟩ := blockIs_alone hbw hbh hb hi e
    refine ⟨c, hc.grow ?_⟩
    unfold Spec.blockBytes
    rw [Nat.mul_comm _ 16]
    exact List.take_prefix _ _
  have hch : ∃ C : Nat → Nat → UInt32,
      ∀ k, k < Spec.numBlocks bw bh w h → BlockIs (data.drop (16 * k)) bw bh (C k) :=
    ⟨fun k => if hk : k < Spec.numBlocks bw bh w h then Classical.choose (hblk k hk) else fun _ => 0,
      fun k hk => by dsimp only; rw [dif_pos hk]; exact Classical.choose_spec (hblk k hk)⟩
  obtain ⟨C, hC⟩ := hch
  obtain ⟨o, e, -⟩ := image_of_blocks hbw hbh hb hs hd hi2 hC
  exact ⟨o, e⟩

/-- **C66** A smaller image with the same number of block columns is the top-left crop, and decodes if
the larger one does. -/
theorem C66_crop (data : List UInt8) (w h w2 h2 bw bh : Nat) (image1 image2 out2 : List UInt32)
    (hbw : 0 < bw) (hbh : 0 < bh) (hb : bw * bh ≤ 144)
    (hs2 : Spec.SizesOk bw bh 16 w2 h2 image2) (hi1 : image1.length < 2 ^ 61)
    (hi : w * h ≤ image1.length) (hw : w ≤ w2) (hh : h ≤ h2)
    (hcols : Spec.ceilDiv w bw = Spec.ceilDiv w2 bw)
    (hok : decodeAstc data w2 h2 bw bh image2 = .ok (.ok (), out2)) :
    ∃ out1, decodeAstc data w h bw bh image1 = .ok (.ok (), out1) ∧
      ∀ x y, x < w → y < h → out1[y * w + x]? = out2[y * w2 + x]? := by
  obtain ⟨hd2, hi2, C, hC⟩ := blocks_of_image hbw hbh hb hs2 hok
  obtain ⟨o2, e2, -, p2, -⟩ := image_of_blocks hbw hbh hb hs2 hd2 hi2 hC
  rw [hok] at e2
  cases e2
  have hrows : Spec.ceilDiv h bh ≤ Spec.ceilDiv h2 bh := by
    unfold Spec.ceilDiv
    exact Nat.div_le_div_right (by omega)
  have hn : Spec.numBlocks bw bh w h ≤ Spec.numBlocks bw bh w2 h2 := by
    unfold Spec.numBlocks
    rw [hcols]
    exact Nat.mul_le_mul_left _ hrows
  have hbf := hs2.bytes_fit
  have hpf := hs2.pixels_fit
  have hwh := Nat.mul_le_mul hw hh
  unfold Spec.bytesNeeded at hbf hd2
  obtain ⟨o1, e1, -, p1, -⟩ := image_of_blocks (image := image1) (w := w) (h := h) hbw hbh hb
    ⟨hi1, by unfold Spec.bytesNeeded; omega, by omega⟩ (by unfold Spec.bytesNeeded; omega) hi (C := C)
    (fun k hk => hC k (by omega))
  refine ⟨o1, e1, fun x y hx hy => ?_⟩
  rw [p1 x y hx hy, p2 x y (by omega) (by omega), hcols]

/-- Two blocks, 5 × 3 pixels, one more byte in the data and one more pixel in the image. -/
example : ∃ out, decodeAstc (astcRgb ++ astcRgb) 5 3 4 4 (List.replicate 16 7) = .ok (.ok (), out) ∧
    decodeAstc (astcRgb ++ astcRgb ++ [1]) 5 3 4 4 (List.replicate 16 7) = .ok (.ok (), out) ∧
    (∃ out2, decodeAstc (astcRgb ++ astcRgb) 5 3 4 4 (List.replicate 20 9) = .ok (.ok (), out2) ∧
      out2.take 15 = out.take 15 ∧ out2.drop 15 = List.replicate 5 9) ∧
    ∃ one, decodeAstc astcRgb 4 4 4 4 (List.replicate 16 0) = .ok (.ok (), one) ∧
      out[2 * 5 + 4]? = one[2 * 4]? := by
  have hs : Spec.SizesOk 4 4 16 5 3 (List.replicate 16 7) := ⟨by decide, by decide, by decide⟩
  obtain ⟨o, e, -⟩ := (C35_astc 4 4 (by decide) (by decide) (by decide)).success
    (astcRgb ++ astcRgb) 5 3 (List.replicate 16 7) hs (by decide) (by decide)
    (by decide +kernel)
  obtain ⟨one, e1, -⟩ := (C35_astc 4 4 (by decide) (by decide) (by decide)).success
    astcRgb 4 4 (List.replicate 16 0) ⟨by decide, by decide, by decide⟩ (by decide) (by decide)
    (by decide +kernel)
  refine ⟨o, e, C66_trailing_partial _ [1] 5 3 4 4 _ _ (by decide) (by decide) (by decide) hs e,
    C66_previous_image _ 5 3 4 4 _ (List.replicate 20 9) _ (by decide) (by decide) (by decide) hs (by decide)
      (by decide) e, one, e1, ?_⟩
  exact C66_block_alone_partial _ 5 3 4 4 _ (List.replicate 16 0) _ _ (by decide) (by decide) (by decide)
    hs (by decide) e 4 2 (by decide) (by decide) e1

/-- The crop to 5 × 3 of an image of 8 × 4 pixels, and an image of blocks that all decode alone. -/
example : ∃ out out2, decodeAstc (astcRgb ++ astcRgb) 8 4 4 4 (List.replicate 32 7) = .ok (.ok (), out) ∧
    decodeAstc (astcRgb ++ astcRgb) 5 3 4 4 (List.replicate 15 0) = .ok (.ok (), out2) ∧
    out2[2 * 5 + 4]? = out[2 * 8 + 4]? := by
  have hs : Spec.SizesOk 4 4 16 8 4 (List.replicate 32 7) := ⟨by decide, by decide, by decide⟩
  obtain ⟨one, e1, -⟩ := (C35_astc 4 4 (by decide) (by decide) (by decide)).success
    astcRgb 4 4 (List.replicate 16 0) ⟨by decide, by decide, by decide⟩ (by decide) (by decide)
    (by decide +kernel)
  obtain ⟨o, e⟩ := C66_all_alone (astcRgb ++ astcRgb) 8 4 4 4 (List.replicate 32 7)
    (List.replicate 16 0) (by decide) (by decide) (by decide) hs (by decide) (by decide) (by decide)
    (fun k hk => ⟨one, by
      have : k = 0 ∨ k = 1 := by
        have : Spec.numBlocks 4 4 8 4 = 2 := rfl
        omega
      rcases this with rfl | rfl <;> exact e1⟩)
  obtain ⟨o2, e2, h⟩ := C66_crop (astcRgb ++ astcRgb) 5 3 8 4 4 4 (List.replicate 15 0) _ _ (by decide)
    (by decide) (by decide) hs (by decide) (by decide) (by decide) (by decide) (by decide) e
  exact ⟨o, o2, e, e2, h 4 2 (by decide) (by decide)⟩

end

/-! ## The violation -/

/-- Four partitions with RGBA endpoints (32 colour values, for which only 27 bits are left) and the
weights: the code reads 8 bits for each value, up to bit 285 from the start of the block. -/
def astcOverlong : List UInt8 := astcBlk (28 + 3 * 2 ^ 11 + 12 * 2 ^ 25)

/-- A void-extent block of one colour, with the four 16-bit components `v`. -/
def astcVoid (v : Nat) : List UInt8 := astcBlk (0xdfc + v * 2 ^ 64)

/-- A computable test for success with the image `o`, and one for a panic. -/
def succeedsWith : Out (Except String Unit × List UInt32) → List UInt32 → Bool
  | .ok (.ok (), o'), o => o' == o
  | _, _ => false
def panics : Out (Except String Unit × List UInt32) → Bool
  | .panic => true
  | _ => false

theorem of_succeedsWith {x : Out (Except String Unit × List UInt32)} {o : List UInt32}
    (h : succeedsWith x o = true) : x = .ok (.ok (), o) := by
  unfold succeedsWith at h
  split at h
  · rw [eq_of_beq h]
  · cases h

theorem of_panics {x : Out (Except String Unit × List UInt32)} (h : panics x = true) : x = .panic := by
  unfold panics at h
  split at h
  · rfl
  · cases h

/-- **C66** (violated) Bytes after the last block turn a panic into a success. -/
theorem C66_trailing_violated :
    @decodeAstc4x4 Build.debug astcOverlong 4 4 (List.replicate 16 0) = .panic ∧
    @decodeAstc4x4 Build.release astcOverlong 4 4 (List.replicate 16 0) = .panic ∧
    (∃ out, @decodeAstc4x4 Build.debug (astcOverlong ++ List.replicate 20 0) 4 4 (List.replicate 16 0) =
      .ok (.ok (), out)) ∧
    ∃ out, @decodeAstc4x4 Build.release (astcOverlong ++ List.replicate 20 0) 4 4 (List.replicate 16 0) =
      .ok (.ok (), out) :=
  ⟨of_panics (by decide +kernel), of_panics (by decide +kernel),
    ⟨List.replicate 16 0, of_succeedsWith (by decide +kernel)⟩,
    List.replicate 16 0, of_succeedsWith (by decide +kernel)⟩

/-- **C66** (violated) The first block of two images is the same, and so are all the others but the
second; yet pixel (0, 0), which lies in the first block, differs. -/
theorem C66_locality_violated :
    ∃ out1 out2,
      @decodeAstc4x4 Build.debug (astcOverlong ++ astcVoid 0 ++ astcVoid 0) 12 4 (List.replicate 48 0) =
        .ok (.ok (), out1) ∧
      @decodeAstc4x4 Build.debug (astcOverlong ++ astcVoid (2 ^ 64 - 1) ++ astcVoid 0) 12 4
        (List.replicate 48 0) = .ok (.ok (), out2) ∧
      @decodeAstc4x4 Build.release (astcOverlong ++ astcVoid 0 ++ astcVoid 0) 12 4 (List.replicate 48 0) =
        .ok (.ok (), out1) ∧
      @decodeAstc4x4 Build.release (astcOverlong ++ astcVoid (2 ^ 64 - 1) ++ astcVoid 0) 12 4
        (List.replicate 48 0) = .ok (.ok (), out2) ∧
      out1[0]? = some 0 ∧ out2[0]? = some (Spec.px 0 0 248 255) :=
  ⟨[0, 3618671, 0, 0, 0, 0, 0, 0, 0, 0, 0, 0, 3618671, 0, 0, 0, 0, 0, 0, 0, 0, 0, 0, 0, 0, 0, 0, 0, 0, 0, 0,
      0, 0, 0, 0, 0, 0, 0, 0, 0, 0, 0, 0, 0, 0, 0, 0, 0],
    [4278190328, 3618671, 0, 0, 4294967295, 4294967295, 4294967295, 4294967295, 0, 0, 0, 0, 3618671, 0, 0, 0,
      4294967295, 4294967295, 4294967295, 4294967295, 0, 0, 0, 0, 4278190328, 0, 0, 0, 4294967295, 4294967295,
      4294967295, 4294967295, 0, 0, 0, 0, 4278190328, 0, 0, 0, 4294967295, 4294967295, 4294967295,
      4294967295, 0, 0, 0, 0],
    of_succeedsWith (by decide +kernel), of_succeedsWith (by decide +kernel),
    of_succeedsWith (by decide +kernel), of_succeedsWith (by decide +kernel), by decide, by decide⟩

/-! ### Exactly which blocks -/

/-- The blocks whose outcome depends on the bytes after them, in a build with overflow checks: those that
panic when nothing follows, but not when 20 more bytes follow. -/
theorem C66_debug_depends_iff (blk : List UInt8) (bw bh : Nat) (out : List UInt32)
    (hl : blk.length = 16) (hbw : 2 ≤ bw) (hbh : 2 ≤ bh) (hb : bw * bh ≤ 144)
    (ho : bw * bh ≤ out.length) :
    (∃ extra, @decodeAstcBlock Build.debug (blk ++ extra) bw bh out ≠
      @decodeAstcBlock Build.debug blk bw bh out) ↔ Panics blk 16 ∧ ¬ Panics blk 36 := by
  have ht : ∀ extra : List UInt8, (blk ++ extra).take 16 = blk := fun extra => by
    rw [← hl, List.take_left]
  have h0 := C40_block_panics_iff blk bw bh out (by omega) hbw hbh hb ho
  have h1 := fun extra => C40_block_panics_iff (blk ++ extra) bw bh out
    (by rw [List.length_append]; omega) hbw hbh hb ho
  have ht0 : blk.take 16 = blk := by rw [← hl, List.take_length]
  simp only [ht, List.length_append, hl] at h1
  rw [ht0, hl] at h0
  constructor
  · rintro ⟨extra, hne⟩
    have hp : Panics blk 16 := by
      refine Classical.byContradiction fun hp => hne ?_
      have : ∃ o, @decodeAstcBlock Build.debug blk bw bh out = .ok o := by
        generalize e : @decodeAstcBlock Build.debug blk bw bh out = x at h0
        cases x with
        | ok o => exact ⟨o, rfl⟩
        | panic => exact absurd (h0.mp rfl) hp
      obtain ⟨o, e⟩ := this
      rw [e]
      letI := Build.debug
      exact (keeps_block ⟨extra, rfl⟩ bw bh out).value o e
    refine ⟨hp, fun h36 => hne ?_⟩
    rw [h0.mpr hp, (h1 extra).mpr ?_]
    have hv := valueNum_le blk
    have hst : (if parts blk = 1 then 17 else 29) ≤ 29 := by split <;> omega
    unfold Panics at h36 hp ⊢
    by_cases hvoid : isVoid blk
    · rw [if_pos hvoid] at hp ⊢; exact hp
    · rw [if_neg hvoid] at h36 hp ⊢
      refine ⟨hp.1, h36.2.imp_right fun h => ?_⟩
      omega
  · rintro ⟨hp, hn⟩
    refine ⟨List.replicate 20 0, fun h => hn ?_⟩
    rw [h0.mpr hp] at h
    have := (h1 _).mp h
    rwa [List.length_replicate] at this

example : Panics astcOverlong 16 ∧ ¬ Panics astcOverlong 36 := by decide +kernel
example : ¬ (Panics astcRgb 16 ∧ ¬ Panics astcRgb 36) := by decide +kernel

/-- The same without overflow checks, for the block sizes of the standard. -/
theorem C66_release_depends_iff (blk : List UInt8) (bw bh : Nat) (out : List UInt32)
    (hl : blk.length = 16) (hbw : StdSize bw) (hbh : StdSize bh) (ho : bw * bh ≤ out.length) :
    (∃ extra : List UInt8, extra.length < 2 ^ 59 ∧
      @decodeAstcBlock Build.release (blk ++ extra) bw bh out ≠
      @decodeAstcBlock Build.release blk bw bh out) ↔
      PanicsUnchecked blk 16 ∧ ¬ PanicsUnchecked blk 36 := by
  have ht : ∀ extra : List UInt8, (blk ++ extra).take 16 = blk := fun extra => by
    rw [← hl, List.take_left]
  have h0 := C40_release_block_panics_iff blk bw bh out (by omega) (by omega) hbw hbh ho
  have h1 : ∀ extra : List UInt8, extra.length < 2 ^ 59 →
      (@decodeAstcBlock Build.release (blk ++ extra) bw bh out = .panic ↔
        PanicsUnchecked blk (16 + extra.length)) := fun extra he => by
    have := C40_release_block_panics_iff (blk ++ extra) bw bh out
      (by rw [List.length_append]; omega) (by rw [List.length_append]; omega) hbw hbh ho
    rwa [ht, List.length_append, hl] at this
  have ht0 : blk.take 16 = blk := by rw [← hl, List.take_length]
  rw [ht0, hl] at h0
  constructor
  · rintro ⟨extra, he, hne⟩
    have hp : PanicsUnchecked blk 16 := by
      refine Classical.byContradiction fun hp => hne ?_
      have : ∃ o, @decodeAstcBlock Build.release blk bw bh out = .ok o := by
        generalize e : @decodeAstcBlock Build.release blk bw bh out = x at h0
        cases x with
        | ok o => exact ⟨o, rfl⟩
        | panic => exact absurd (h0.mp rfl) hp
      obtain ⟨o, e⟩ := this
      rw [e]
      letI := Build.release
      exact (keeps_block ⟨extra, rfl⟩ bw bh out).value o e
    refine ⟨hp, fun h36 => hne ?_⟩
    rw [h0.mpr hp, (h1 extra he).mpr ?_]
    have hv := valueNum_le blk
    have hst : (if parts blk = 1 then 17 else 29) ≤ 29 := by split <;> omega
    unfold PanicsUnchecked at h36 hp ⊢
    refine ⟨h36.1, h36.2.1, h36.2.2.imp_right fun h => h.imp_right fun h => h.imp_right fun h =>
      h.imp_right fun h => ?_⟩
    omega
  · rintro ⟨hp, hn⟩
    refine ⟨List.replicate 20 0, by decide, fun h => hn ?_⟩
    rw [h0.mpr hp] at h
    have := (h1 _ (by decide)).mp h
    rwa [List.length_replicate] at this

example : PanicsUnchecked astcOverlong 16 ∧ ¬ PanicsUnchecked astcOverlong 36 := by decide +kernel
example : ¬ (PanicsUnchecked (astcBlk 92) 16 ∧ ¬ PanicsUnchecked (astcBlk 92) 36) := by decide +kernel

end Verif.Props
