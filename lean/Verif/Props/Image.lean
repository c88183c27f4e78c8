import Verif.Proofs.ImageLaws
import Verif.Proofs.Oversize

/-!
# Properties C01 – C11: the generated whole-image decoders

`decoder fmt` is the model of the public whole-image function of the format `fmt`
(`Spec.Format` lists them). Every theorem holds for debug and release builds (`[Build]`).
-/

namespace Verif.Props

open Verif Verif.Proofs

/-- A concrete non-trivial case used by the examples: a 5×3 BC3 image (two blocks, both cropped)
with one trailing byte, decoded into a buffer of 20 pixels. -/
def demoData : List UInt8 := (List.range 33).map UInt8.ofNat
def demoImage : List UInt32 := List.replicate 20 0xdeadbeef
theorem demoSizes : Spec.Format.bc3.SizesOk 5 3 demoImage := ⟨by decide, by decide, by decide⟩
theorem demoLegal : Spec.Format.bc3.AllLegal demoData 5 3 := fun _ _ => trivial

variable [Build]

/-- **C01** The outcome is decided by the two buffer sizes, and is never a panic. -/
theorem C01_outcome_by_sizes (fmt : Spec.Format) (data : List UInt8) (w h : Nat)
    (image : List UInt32) (hs : fmt.SizesOk w h image) (hl : fmt.AllLegal data w h) :
    ∃ image', decoder fmt data w h image =
      .ok (if data.length < fmt.need w h then .error "Not enough data to decode image!"
           else if image.length < w * h then .error "Image buffer is too small!"
           else .ok (), image') := by
  have S := decoder_spec fmt
  by_cases h1 : data.length < fmt.need w h
  · exact ⟨image, by rw [if_pos h1, S.not_enough_data _ _ _ _ hs h1]⟩
  · by_cases h2 : image.length < w * h
    · exact ⟨image, by
        rw [if_neg h1, if_pos h2, S.image_too_small _ _ _ _ hs (Nat.not_lt.mp h1) h2]⟩
    · obtain ⟨o, e, _⟩ := S.success _ _ _ _ hs (Nat.not_lt.mp h1) (Nat.not_lt.mp h2) hl
      exact ⟨o, by rw [if_neg h1, if_neg h2, e]⟩

/-- The hypotheses of C01 hold in the demo case and the outcome there is `Ok`. -/
example : ∃ image', decoder .bc3 demoData 5 3 demoImage = .ok (.ok (), image') := by
  obtain ⟨o, e⟩ := C01_outcome_by_sizes .bc3 demoData 5 3 demoImage demoSizes demoLegal
  exact ⟨o, e⟩

/-- The data-size error needs no assumption on the blocks. -/
theorem C01_not_enough_data (fmt : Spec.Format) (data : List UInt8) (w h : Nat)
    (image : List UInt32) (hs : fmt.SizesOk w h image) (hlt : data.length < fmt.need w h) :
    decoder fmt data w h image = .ok (.error "Not enough data to decode image!", image) :=
  (decoder_spec fmt).not_enough_data _ _ _ _ hs hlt

example : decoder .bc3 (demoData.take 31) 5 3 demoImage =
    .ok (.error "Not enough data to decode image!", demoImage) :=
  C01_not_enough_data .bc3 _ 5 3 demoImage demoSizes (by decide)

/-- The image-size error needs no assumption on the blocks. -/
theorem C01_image_too_small (fmt : Spec.Format) (data : List UInt8) (w h : Nat)
    (image : List UInt32) (hs : fmt.SizesOk w h image) (hge : fmt.need w h ≤ data.length)
    (hlt : image.length < w * h) :
    decoder fmt data w h image = .ok (.error "Image buffer is too small!", image) :=
  (decoder_spec fmt).image_too_small _ _ _ _ hs hge hlt

example : decoder .bc3 demoData 5 3 [1, 2, 3] = .ok (.error "Image buffer is too small!", [1, 2, 3]) :=
  C01_image_too_small .bc3 _ 5 3 _ ⟨by decide, by decide, by decide⟩ (by decide) (by decide)

/-- **C02** A failed decode leaves the image untouched. -/
theorem C02_error_leaves_image (fmt : Spec.Format) (data : List UInt8) (w h : Nat)
    (image image' : List UInt32) (msg : String) (hs : fmt.SizesOk w h image)
    (hl : fmt.AllLegal data w h)
    (herr : decoder fmt data w h image = .ok (.error msg, image')) : image' = image := by
  have S := decoder_spec fmt
  by_cases h1 : data.length < fmt.need w h
  · rw [S.not_enough_data _ _ _ _ hs h1] at herr
    injection herr with herr; injection herr with a b; exact b.symm
  · by_cases h2 : image.length < w * h
    · rw [S.image_too_small _ _ _ _ hs (Nat.not_lt.mp h1) h2] at herr
      injection herr with herr; injection herr with a b; exact b.symm
    · obtain ⟨o, e, _⟩ := S.success _ _ _ _ hs (Nat.not_lt.mp h1) (Nat.not_lt.mp h2) hl
      rw [e] at herr
      injection herr with herr; injection herr with a b; cases a

example : ∃ msg, decoder .bc3 (demoData.take 31) 5 3 demoImage = .ok (.error msg, demoImage) :=
  ⟨_, C01_not_enough_data .bc3 _ 5 3 demoImage demoSizes (by decide)⟩

/-- **C03** A successful decode writes only the first `w * h` pixels. -/
theorem C03_tail_untouched (fmt : Spec.Format) (data : List UInt8) (w h : Nat)
    (image image' : List UInt32) (hs : fmt.SizesOk w h image) (hl : fmt.AllLegal data w h)
    (hok : decoder fmt data w h image = .ok (.ok (), image')) :
    image'.length = image.length ∧ ∀ i, w * h ≤ i → image'[i]? = image[i]? := by
  obtain ⟨_, _, hd⟩ := ok_inv hs hl hok
  exact ⟨hd.length_eq, hd.rest⟩

example : ∃ image', decoder .bc3 demoData 5 3 demoImage = .ok (.ok (), image') ∧
    image'[19]? = some 0xdeadbeef := by
  obtain ⟨o, e⟩ := C01_outcome_by_sizes .bc3 demoData 5 3 demoImage demoSizes demoLegal
  exact ⟨o, e, (C03_tail_untouched .bc3 _ 5 3 _ _ demoSizes demoLegal e).2 19 (by decide)⟩

/-- **C04** Pixel (`x`, `y`) is texel (`x mod 4`, `y mod 4`) of block
`(y / 4) * ⌈w / 4⌉ + x / 4`, whose bytes start at that number times the block size. -/
theorem C04_pixel_placement (fmt : Spec.Format) (data : List UInt8) (w h : Nat)
    (image image' : List UInt32) (hs : fmt.SizesOk w h image) (hl : fmt.AllLegal data w h)
    (hok : decoder fmt data w h image = .ok (.ok (), image')) (x y : Nat) (hx : x < w) (hy : y < h) :
    image'[y * w + x]? = some (fmt.texel
      ((data.drop ((y / 4 * ((w + 3) / 4) + x / 4) * fmt.blockSize)).take fmt.blockSize)
      (y % 4 * 4 + x % 4)) := by
  obtain ⟨_, _, hd⟩ := ok_inv hs hl hok
  exact hd.pixel x y hx hy

example : ∃ image', decoder .bc3 demoData 5 3 demoImage = .ok (.ok (), image') ∧
    image'[2 * 5 + 4]? = some (Spec.bc3Texel ((demoData.drop 16).take 16) 8) := by
  obtain ⟨o, e⟩ := C01_outcome_by_sizes .bc3 demoData 5 3 demoImage demoSizes demoLegal
  exact ⟨o, e, C04_pixel_placement .bc3 _ 5 3 _ _ demoSizes demoLegal e 4 2 (by decide) (by decide)⟩

/-- **C05** Bytes after the blocks of the image are ignored. -/
theorem C05_trailing_data_ignored (fmt : Spec.Format) (data extra : List UInt8) (w h : Nat)
    (image : List UInt32) (hs : fmt.SizesOk w h image) (hl : fmt.AllLegal data w h)
    (hlen : fmt.need w h ≤ data.length) :
    decoder fmt (data ++ extra) w h image = decoder fmt data w h image := by
  have S := decoder_spec fmt
  have hlen2 : fmt.need w h ≤ (data ++ extra).length := by
    rw [List.length_append]; omega
  by_cases h2 : image.length < w * h
  · rw [S.image_too_small _ _ _ _ hs hlen h2, S.image_too_small _ _ _ _ hs hlen2 h2]
  · have hb : ∀ k, k < Spec.numBlocks 4 4 w h →
        Spec.blockBytes fmt.blockSize (data ++ extra) k = Spec.blockBytes fmt.blockSize data k :=
      fun k hk => blockBytes_append hk hlen
    have hl2 : fmt.AllLegal (data ++ extra) w h := fun k hk => by
      rw [hb k hk]; exact hl k hk
    obtain ⟨o, e, d⟩ := S.success _ _ _ _ hs hlen (Nat.not_lt.mp h2) hl
    obtain ⟨o2, e2, d2⟩ := S.success _ _ _ _ hs hlen2 (Nat.not_lt.mp h2) hl2
    rw [e, e2]
    congr 2
    apply List.ext_getElem?
    intro j
    by_cases hj : j < w * h
    · obtain ⟨x, y, hx, hy, rfl⟩ := pixel_index hj
      rw [d.pixel x y hx hy, d2.pixel x y hx hy]
      unfold Spec.pixelAt
      rw [hb _ (numBlocks_idx hx hy)]
    · rw [d.rest j (by omega), d2.rest j (by omega)]

example (extra : List UInt8) : decoder .bc3 (demoData ++ extra) 5 3 demoImage =
    decoder .bc3 demoData 5 3 demoImage :=
  C05_trailing_data_ignored .bc3 _ extra 5 3 demoImage demoSizes demoLegal (by decide)

/-- **C06** Pixels depend only on the bytes of the block that covers them. -/
theorem C06_block_locality (fmt : Spec.Format) (data1 data2 : List UInt8) (w h : Nat)
    (image1 image2 out1 out2 : List UInt32)
    (hs1 : fmt.SizesOk w h image1) (hs2 : fmt.SizesOk w h image2)
    (hl1 : fmt.AllLegal data1 w h) (hl2 : fmt.AllLegal data2 w h)
    (hok1 : decoder fmt data1 w h image1 = .ok (.ok (), out1))
    (hok2 : decoder fmt data2 w h image2 = .ok (.ok (), out2))
    (bx by' : Nat)
    (hsame : Spec.blockBytes fmt.blockSize data1 (by' * ((w + 3) / 4) + bx) =
      Spec.blockBytes fmt.blockSize data2 (by' * ((w + 3) / 4) + bx))
    (x y : Nat) (hx : x < w) (hy : y < h) (hbx : x / 4 = bx) (hby : y / 4 = by') :
    out1[y * w + x]? = out2[y * w + x]? := by
  obtain ⟨_, _, d1⟩ := ok_inv hs1 hl1 hok1
  obtain ⟨_, _, d2⟩ := ok_inv hs2 hl2 hok2
  rw [d1.pixel x y hx hy, d2.pixel x y hx hy]
  unfold Spec.pixelAt
  rw [hbx, hby]
  exact congrArg some (congrArg (fun b => fmt.texel b _) hsame)

/-- Corrupting the second block does not change the first. -/
example : ∃ o1 o2, decoder .bc3 demoData 5 3 demoImage = .ok (.ok (), o1) ∧
    decoder .bc3 (demoData.take 16 ++ List.replicate 16 0xff) 5 3 demoImage = .ok (.ok (), o2) ∧
    o1[2 * 5 + 3]? = o2[2 * 5 + 3]? := by
  obtain ⟨o1, e1⟩ := C01_outcome_by_sizes .bc3 demoData 5 3 demoImage demoSizes demoLegal
  obtain ⟨o2, e2⟩ := C01_outcome_by_sizes .bc3 (demoData.take 16 ++ List.replicate 16 0xff) 5 3
    demoImage demoSizes (fun _ _ => trivial)
  exact ⟨o1, o2, e1, e2, C06_block_locality .bc3 _ _ 5 3 _ _ _ _ demoSizes demoSizes demoLegal
    (fun _ _ => trivial) e1 e2 0 0 (by decide) 3 2 (by decide) (by decide) rfl rfl⟩

/-- **C07** The decoded pixels are a function of `data`, `w` and `h`: neither the previous contents
of the image nor other blocks (through the reused scratch buffer) leak into them. -/
theorem C07_independent_of_previous_image (fmt : Spec.Format) (data : List UInt8) (w h : Nat)
    (image1 image2 out1 out2 : List UInt32)
    (hs1 : fmt.SizesOk w h image1) (hs2 : fmt.SizesOk w h image2) (hl : fmt.AllLegal data w h)
    (hok1 : decoder fmt data w h image1 = .ok (.ok (), out1))
    (hok2 : decoder fmt data w h image2 = .ok (.ok (), out2)) :
    out1.take (w * h) = out2.take (w * h) := by
  obtain ⟨_, l1, d1⟩ := ok_inv hs1 hl hok1
  obtain ⟨_, l2, d2⟩ := ok_inv hs2 hl hok2
  apply List.ext_getElem?
  intro j
  rw [List.getElem?_take, List.getElem?_take]
  split
  · next hj =>
    obtain ⟨x, y, hx, hy, rfl⟩ := pixel_index hj
    rw [d1.pixel x y hx hy, d2.pixel x y hx hy]
  · rfl

example : ∃ o1 o2, decoder .bc4 demoData 5 3 demoImage = .ok (.ok (), o1) ∧
    decoder .bc4 demoData 5 3 (List.replicate 15 7) = .ok (.ok (), o2) ∧
    o1.take 15 = o2.take 15 := by
  have s1 : Spec.Format.bc4.SizesOk 5 3 demoImage := ⟨by decide, by decide, by decide⟩
  have s2 : Spec.Format.bc4.SizesOk 5 3 (List.replicate 15 7) := ⟨by decide, by decide, by decide⟩
  obtain ⟨o1, e1⟩ := C01_outcome_by_sizes .bc4 demoData 5 3 _ s1 (fun _ _ => trivial)
  obtain ⟨o2, e2⟩ := C01_outcome_by_sizes .bc4 demoData 5 3 _ s2 (fun _ _ => trivial)
  exact ⟨o1, o2, e1, e2, C07_independent_of_previous_image .bc4 demoData 5 3 _ _ _ _ s1 s2
    (fun _ _ => trivial) e1 e2⟩

/-- **C08** A smaller image with the same number of block columns is the top-left crop. -/
theorem C08_crop (fmt : Spec.Format) (data : List UInt8) (w h w2 h2 : Nat)
    (image1 image2 out1 out2 : List UInt32)
    (hs1 : fmt.SizesOk w h image1) (hs2 : fmt.SizesOk w2 h2 image2)
    (hl1 : fmt.AllLegal data w h) (hl2 : fmt.AllLegal data w2 h2)
    (hw : w ≤ w2) (hh : h ≤ h2) (hcols : (w + 3) / 4 = (w2 + 3) / 4)
    (hok1 : decoder fmt data w h image1 = .ok (.ok (), out1))
    (hok2 : decoder fmt data w2 h2 image2 = .ok (.ok (), out2))
    (x y : Nat) (hx : x < w) (hy : y < h) :
    out1[y * w + x]? = out2[y * w2 + x]? := by
  obtain ⟨_, _, d1⟩ := ok_inv hs1 hl1 hok1
  obtain ⟨_, _, d2⟩ := ok_inv hs2 hl2 hok2
  rw [d1.pixel x y hx hy, d2.pixel x y (by omega) (by omega)]
  have : Spec.ceilDiv w 4 = Spec.ceilDiv w2 4 := hcols
  unfold Spec.pixelAt
  rw [this]

example : ∃ o1 o2, decoder .bc3 demoData 5 3 demoImage = .ok (.ok (), o1) ∧
    decoder .bc3 demoData 8 4 (List.replicate 32 0) = .ok (.ok (), o2) ∧
    o1[2 * 5 + 4]? = o2[2 * 8 + 4]? := by
  have s2 : Spec.Format.bc3.SizesOk 8 4 (List.replicate 32 0) := ⟨by decide, by decide, by decide⟩
  obtain ⟨o1, e1⟩ := C01_outcome_by_sizes .bc3 demoData 5 3 _ demoSizes demoLegal
  obtain ⟨o2, e2⟩ := C01_outcome_by_sizes .bc3 demoData 8 4 _ s2 (fun _ _ => trivial)
  exact ⟨o1, o2, e1, e2, C08_crop .bc3 demoData 5 3 8 4 _ _ _ _ demoSizes s2 demoLegal
    (fun _ _ => trivial) (by decide) (by decide) (by decide) e1 e2 4 2 (by decide) (by decide)⟩

/-- **C09** Empty images decode successfully and change nothing, whatever the data. -/
theorem C09_empty_image (fmt : Spec.Format) (data : List UInt8) (w h : Nat) (image : List UInt32)
    (hi : image.length < 2 ^ 61) (h0 : w = 0 ∨ h = 0) :
    decoder fmt data w h image = .ok (.ok (), image) := by
  have hn : Spec.numBlocks 4 4 w h = 0 := by
    unfold Spec.numBlocks Spec.ceilDiv
    rcases h0 with rfl | rfl <;> simp
  have hz : w * h = 0 := by rcases h0 with rfl | rfl <;> simp
  have hneed : fmt.need w h = 0 := by
    show Spec.numBlocks 4 4 w h * _ = 0
    rw [hn, Nat.zero_mul]
  have hs : fmt.SizesOk w h image := ⟨hi, by
    show fmt.need w h < _
    rw [hneed]; decide, by rw [hz]; decide⟩
  obtain ⟨o, e, d⟩ := (decoder_spec fmt).success data w h image hs
    (by show fmt.need w h ≤ _; omega) (by omega)
    (fun k hk => by rw [hn] at hk; omega)
  rw [e]
  congr 2
  apply List.ext_getElem?
  intro j
  exact d.rest j (by omega)

example : decoder .bc1 [] 0 7 [1, 2] = .ok (.ok (), [1, 2]) :=
  C09_empty_image .bc1 [] 0 7 [1, 2] (by decide) (Or.inl rfl)

omit [Build] in
/-- **C10** (violated) Oversized dimensions make every decoder panic, in debug builds by an
overflow of the size product, in release builds because the product wraps to zero, both size checks
pass and the first block is read outside the data. -/
theorem C10_oversized_dimensions_panic (fmt : Spec.Format) : ∃ w h, w < 2 ^ 64 ∧ h < 2 ^ 64 ∧
    (letI := Build.debug; decoder fmt [] w h []) = .panic ∧
    (letI := Build.release; decoder fmt [] w h []) = .panic := by
  refine ⟨2 ^ 63, 2, by decide, by decide, ?_, ?_⟩
  · obtain ⟨f, e, _⟩ := @decoder_eq Build.debug fmt
    simp only [e]
    cases fmt <;> rfl
  · obtain ⟨f, e, hf⟩ := @decoder_eq Build.release fmt
    simp only [e]
    have key : ∀ raw, raw = 8 ∨ raw = 16 →
        @Model.blockDecoder Build.release 4 4 raw f [] (2 ^ 63) 2 [] = .panic := by
      intro raw hraw
      have e1 : divCeil (2 ^ 63) 4 = .ok (2 ^ 61) := rfl
      have e2 : divCeil 2 4 = .ok 1 := rfl
      have e3 : @mulU Build.release 64 (2 ^ 61) 1 = .ok (2 ^ 61) := rfl
      have e4 : @mulU Build.release 64 (2 ^ 61) raw = .ok 0 := by
        rcases hraw with rfl | rfl <;> rfl
      have e5 : @mulU Build.release 64 (2 ^ 63) 2 = .ok 0 := rfl
      unfold Model.blockDecoder
      rw [e1, Out.ok_bind, e2, Out.ok_bind, e3, Out.ok_bind, e4, Out.ok_bind, e5,
        if_neg (by simp), Out.ok_bind, if_neg (by simp),
        forRange_panic_first (n := 0)]
      · rfl
      · rw [show 2 ^ 61 = (2 ^ 61 - 1) + 1 from rfl, forRange_panic_first]
        simp only [sliceFrom_ok (show 0 ≤ ([] : List UInt8).length from Nat.le_refl _),
          Out.ok_bind, List.drop_nil, hf, Out.panic_bind]
    cases fmt <;> exact key _ (by decide)

/-- **C10** (the part that holds) If the byte and pixel counts are representable there is no
panic, whatever the buffers contain. -/
theorem C10_no_panic_partial (fmt : Spec.Format) (data : List UInt8) (w h : Nat)
    (image : List UInt32) (hs : fmt.SizesOk w h image) (hl : fmt.AllLegal data w h) :
    decoder fmt data w h image ≠ .panic := by
  obtain ⟨o, e⟩ := C01_outcome_by_sizes fmt data w h image hs hl
  rw [e]; intro hc; cases hc

example : decoder .bc3 [] 5 3 [] ≠ .panic :=
  C10_no_panic_partial .bc3 [] 5 3 [] ⟨by decide, by decide, by decide⟩ (fun _ _ => trivial)

omit [Build] in
/-- **C10** (exact, debug) With overflow checks the decoders panic if, and only if, the number of bytes
the image needs does not fit in `usize`. (No Rust slice has `2 ^ 63` bytes or more.) -/
theorem C10_exact_debug (fmt : Spec.Format) (data : List UInt8) (w h : Nat) (image : List UInt32)
    (hd : data.length < 2 ^ 63) (hi : image.length < 2 ^ 61) (hl : fmt.AllLegal data w h) :
    (letI := Build.debug; decoder fmt data w h image) = .panic ↔ 2 ^ 64 ≤ fmt.need w h := by
  letI := Build.debug
  constructor
  · intro hp
    apply Nat.not_lt.mp
    intro hn
    obtain ⟨o, e⟩ := decoder_fits hd hi hl hn
    rw [e] at hp; cases hp
  · intro hn
    show decoder fmt data w h image = .panic
    rw [decoder_blockFn]
    exact blockDecoder_debug (by decide) (by decide) _ _ _ _ hn

omit [Build] in
/-- **C10** (exact, release) Without overflow checks the decoders panic if, and only if, the number of
bytes the image needs does not fit in `usize` and both buffers pass the checks, which see only the
products modulo `2 ^ 64`. -/
theorem C10_exact_release (fmt : Spec.Format) (data : List UInt8) (w h : Nat) (image : List UInt32)
    (hd : data.length < 2 ^ 63) (hi : image.length < 2 ^ 61) (hl : fmt.AllLegal data w h) :
    (letI := Build.release; decoder fmt data w h image) = .panic ↔
      2 ^ 64 ≤ fmt.need w h ∧ fmt.need w h % 2 ^ 64 ≤ data.length ∧
        w * h % 2 ^ 64 ≤ image.length := by
  letI := Build.release
  have hraw : fmt.blockSize ≤ 16 := by cases fmt <;> decide
  constructor
  · intro hp
    have hn : 2 ^ 64 ≤ fmt.need w h := by
      apply Nat.not_lt.mp
      intro hn
      obtain ⟨o, e⟩ := decoder_fits hd hi hl hn
      rw [e] at hp; cases hp
    rw [decoder_blockFn,
      blockDecoder_release (by decide) (by decide) data w h image (by omega) hn] at hp
    split at hp
    · cases hp
    · next h1 =>
      split at hp
      · cases hp
      · next h2 => exact ⟨hn, Nat.not_lt.mp h1, Nat.not_lt.mp h2⟩
  · rintro ⟨hn, h1, h2⟩
    show decoder fmt data w h image = .panic
    rw [decoder_blockFn,
      blockDecoder_release (by decide) (by decide) data w h image (by omega) hn,
      if_neg (Nat.not_lt.mpr h1), if_neg (Nat.not_lt.mpr h2)]

omit [Build] in
/-- An image that needs `2 ^ 64` bytes, and one that needs more and is refused in release builds. -/
example : (letI := Build.debug; decoder .bc7 [] (2 ^ 63) 8 [] = .panic) ∧
    (letI := Build.release; decoder .bc7 [] (2 ^ 63) 8 [] = .panic) ∧
    ¬ (letI := Build.release; decoder .bc7 [] (2 ^ 63 + 1) 8 [] = .panic) := by
  refine ⟨(C10_exact_debug .bc7 [] (2 ^ 63) 8 [] (by decide) (by decide) (fun _ _ => trivial)).mpr
      (by decide),
    (C10_exact_release .bc7 [] (2 ^ 63) 8 [] (by decide) (by decide) (fun _ _ => trivial)).mpr
      (by decide), fun h => ?_⟩
  have := (C10_exact_release .bc7 [] (2 ^ 63 + 1) 8 [] (by decide) (by decide)
    (fun _ _ => trivial)).mp h
  revert this; decide

omit [Build] in
/-- **C11** Pixel packing: `color` is the little-endian word B, G, R, A; every channel can be
recovered by shifting, and packing is injective. -/
theorem C11_packing (r g b a : Nat) (hr : r < 256) (hg : g < 256) (hb : b < 256) (ha : a < 256) :
    (Model.color r g b a).toNat = b + g * 2 ^ 8 + r * 2 ^ 16 + a * 2 ^ 24 ∧
    ((Model.color r g b a) >>> 16) &&& 255 = UInt32.ofNat r ∧
    ((Model.color r g b a) >>> 8) &&& 255 = UInt32.ofNat g ∧
    (Model.color r g b a) &&& 255 = UInt32.ofNat b ∧
    (Model.color r g b a) >>> 24 = UInt32.ofNat a := by
  have hn := px_toNat hr hg hb ha
  rw [color_eq]
  refine ⟨by omega, ?_, ?_, ?_, ?_⟩ <;> apply UInt32.toNat_inj.mp
  · rw [UInt32.toNat_and, UInt32.toNat_shiftRight, hn, UInt32.toNat_ofNat']
    show _ >>> 16 &&& 255 = _
    rw [and_255, shr_eq]; omega
  · rw [UInt32.toNat_and, UInt32.toNat_shiftRight, hn, UInt32.toNat_ofNat']
    show _ >>> 8 &&& 255 = _
    rw [and_255, shr_eq]; omega
  · rw [UInt32.toNat_and, hn, UInt32.toNat_ofNat']
    show _ &&& 255 = _
    rw [and_255]; omega
  · rw [UInt32.toNat_shiftRight, hn, UInt32.toNat_ofNat']
    show _ >>> 24 = _
    rw [shr_eq]; omega

example : (Model.color 1 2 3 4).toNat = 0x04010203 := by decide

omit [Build] in
/-- **C11** Packing is injective on 8-bit channels. -/
theorem C11_packing_injective (r g b a r' g' b' a' : Nat)
    (hr : r < 256) (hg : g < 256) (hb : b < 256) (ha : a < 256)
    (hr' : r' < 256) (hg' : g' < 256) (hb' : b' < 256) (ha' : a' < 256)
    (h : Model.color r g b a = Model.color r' g' b' a') : r = r' ∧ g = g' ∧ b = b' ∧ a = a' := by
  have h := congrArg UInt32.toNat h
  rw [color_eq, color_eq, px_toNat hr hg hb ha, px_toNat hr' hg' hb' ha'] at h
  omega

end Verif.Props
