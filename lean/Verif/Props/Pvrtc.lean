import Verif.Proofs.Pvrtc
import Verif.Proofs.PvrtcZero

/-!
# Properties C32–C34 and C49: PVRTC
-/

namespace Verif.Props

open Verif Verif.Proofs Verif.Proofs.Pvrtc Verif.Spec.Pvrtc

/-- `decode_pvrtc_2bpp` and `decode_pvrtc_4bpp`. -/
def pvrtc [Build] (w2 : Bool) (data : List UInt8) (w h : Nat) (image : List UInt32) :=
  if w2 then Model.decodePvrtc2bpp data w h image else Model.decodePvrtc4bpp data w h image

theorem pvrtc_eq [Build] (w2 : Bool) (data : List UInt8) (w h : Nat) (image : List UInt32) :
    pvrtc w2 data w h image = Model.decodePvrtc data w h image w2 := by
  cases w2 <;> rfl

/-! ## C32 -/

/-- **C32** (violated) A 4 bits per pixel texture whose data holds at least 4 but fewer than 8 bytes
per block makes the decoder panic instead of returning an error, in every build. -/
theorem C32_short_data_panics [Build] (data : List UInt8) (w h : Nat) (image : List UInt32)
    (hs : Spec.SizesOk 4 4 8 w h image) (hw : 0 < w) (hh : 0 < h)
    (hlo : Spec.numBlocks 4 4 w h * 4 ≤ data.length)
    (hhi : data.length < Spec.bytesNeeded 4 4 8 w h) (hi : w * h ≤ image.length)
    (hx : IsPow2 (Spec.ceilDiv w 4)) (hy : IsPow2 (Spec.ceilDiv h 4)) :
    Model.decodePvrtc4bpp data w h image = .panic := by
  have e := (pv_checks (is2 := false) (data := data) hs hw hh).2.2.2 hlo hi ⟨hx, hy⟩
  have := hs.bytes_fit
  unfold Spec.bytesNeeded Spec.numBlocks at this hhi
  rw [show Model.decodePvrtc4bpp data w h image = _ from e]
  simp only
  rw [show bw false = 4 from rfl, pvInfos_panic hhi this]
  rfl

example : Spec.SizesOk 4 4 8 8 8 (List.replicate 64 0) ∧ Spec.numBlocks 4 4 8 8 * 4 = 16 ∧
    Spec.bytesNeeded 4 4 8 8 8 = 32 ∧ IsPow2 (Spec.ceilDiv 8 4) :=
  ⟨⟨by decide, by decide, by decide⟩, by decide, by decide, 1, rfl⟩

/-- **C32** (violated) Width 0 panics in builds with overflow checks, whatever the other arguments. -/
theorem C32_zero_width_panics (w2 : Bool) (data : List UInt8) (h : Nat) (image : List UInt32)
    : @pvrtc Build.debug w2 data 0 h image = .panic := by
  letI := Build.debug
  rw [pvrtc_eq]
  have hbw := bw_cases w2
  unfold Model.decodePvrtc
  have hz : ∀ b, 0 < b → (0 + b - 1) / b = 0 := by
    intro b hb; rw [Nat.zero_add]; exact Nat.div_eq_of_lt (by omega)
  have hf : (if w2 = true then 8 else 4) = bw w2 := rfl
  simp only [hf]
  rw [divCeil_ok (by omega), Out.ok_bind, divCeil_ok (by omega), Out.ok_bind, hz _ (by omega),
    mulU_ok (by omega), Out.ok_bind, Nat.zero_mul, mulU_ok (by omega), Out.ok_bind, Nat.zero_mul,
    if_neg (Nat.not_lt_zero _), mulU_ok (by omega), Out.ok_bind, Nat.zero_mul,
    if_neg (Nat.not_lt_zero _)]
  rfl

/-- **C32** (what holds) With a nonzero size and at least 8 bytes of data per block, the decoder
never panics: it decodes, or reports that the image is too small or that the number of blocks of a
side is not a power of two, in this order, and an error leaves the image as it was. -/
theorem C32_pvrtc_no_panic_partial [Build] (w2 : Bool) (data : List UInt8) (w h : Nat)
    (image : List UInt32) (hs : Spec.SizesOk (bw w2) 4 8 w h image) (hw : 0 < w) (hh : 0 < h)
    (hd : Spec.bytesNeeded (bw w2) 4 8 w h ≤ data.length) :
    (image.length < w * h ∧
      pvrtc w2 data w h image = .ok (.error "The image buffer is too small!", image)) ∨
    (w * h ≤ image.length ∧ ¬ (IsPow2 (Spec.ceilDiv w (bw w2)) ∧ IsPow2 (Spec.ceilDiv h 4)) ∧
      pvrtc w2 data w h image =
        .ok (.error "The number of blocks of each side must be a power of 2!", image)) ∨
    (w * h ≤ image.length ∧ IsPow2 (Spec.ceilDiv w (bw w2)) ∧ IsPow2 (Spec.ceilDiv h 4) ∧
      ∃ out, pvrtc w2 data w h image = .ok (.ok (), out)) := by
  rw [pvrtc_eq]
  obtain ⟨-, c2, c3, -⟩ := pv_checks (is2 := w2) (data := data) hs hw hh
  have hbw := bw_cases w2
  have hd' : Spec.numBlocks (bw w2) 4 w h * bw w2 ≤ data.length :=
    Nat.le_trans (Nat.mul_le_mul_left _ (by omega)) hd
  by_cases hi : image.length < w * h
  · exact .inl ⟨hi, c2 hd' hi⟩
  · by_cases hp : IsPow2 (Spec.ceilDiv w (bw w2)) ∧ IsPow2 (Spec.ceilDiv h 4)
    · obtain ⟨out, e, -⟩ := pv_success hs hw hh hd (by omega) hp
      exact .inr (.inr ⟨by omega, hp.1, hp.2, out, e⟩)
    · exact .inr (.inl ⟨by omega, hp, c3 hd' (by omega) hp⟩)

/-- **C32** (what holds) Data shorter than a block width of bytes per block is reported, and the image
is left as it was. For 2 bits per pixel (width 8) this is the complete size check. -/
theorem C32_pvrtc_short_data_partial [Build] (w2 : Bool) (data : List UInt8) (w h : Nat)
    (image : List UInt32) (hs : Spec.SizesOk (bw w2) 4 8 w h image) (hw : 0 < w) (hh : 0 < h)
    (hd : data.length < Spec.numBlocks (bw w2) 4 w h * bw w2) :
    pvrtc w2 data w h image = .ok (.error "The data buffer is too small!", image) := by
  rw [pvrtc_eq]
  exact (pv_checks hs hw hh).1 hd

example : Spec.SizesOk (bw true) 4 8 16 8 (List.replicate 128 0) ∧
    Spec.bytesNeeded (bw true) 4 8 16 8 = 32 ∧ Spec.numBlocks (bw true) 4 16 8 * bw true = 32 :=
  ⟨⟨by simp, by decide, by decide⟩, by decide, by decide⟩

/-- The number of blocks of a side is a power of two, or zero, which the decoder lets pass. -/
def SideOk (n : Nat) : Prop := n = 0 ∨ IsPow2 n

open Classical in
/-- **C32** (exact) The outcome for all sizes, including those without pixels: the two panics are the
one on an empty side, in builds with overflow checks, and the one on data with fewer than 8 bytes per
block that passes the check of the decoder. -/
theorem C32_as_is [Build] (w2 : Bool) (data : List UInt8) (w h : Nat) (image : List UInt32)
    (hw : w < 2 ^ 64) (hh : h < 2 ^ 64) (hs : Spec.SizesOk (bw w2) 4 8 w h image) :
    Prod.fst <$> pvrtc w2 data w h image =
      if data.length < Spec.numBlocks (bw w2) 4 w h * bw w2 then
        .ok (.error "The data buffer is too small!")
      else if image.length < w * h then .ok (.error "The image buffer is too small!")
      else if Build.overflowChecks = true ∧ (w = 0 ∨ (h = 0 ∧ SideOk (Spec.ceilDiv w (bw w2)))) then
        .panic
      else if ¬ (SideOk (Spec.ceilDiv w (bw w2)) ∧ SideOk (Spec.ceilDiv h 4)) then
        .ok (.error "The number of blocks of each side must be a power of 2!")
      else if data.length < Spec.bytesNeeded (bw w2) 4 8 w h then .panic
      else .ok (.ok ()) := by
  rw [pvrtc_eq]
  have hbw := bw_cases w2
  by_cases hz : w = 0 ∨ h = 0
  · have c0 : ∀ b, 0 < b → Spec.ceilDiv 0 b = 0 := by
      intro b hb
      unfold Spec.ceilDiv
      rw [Nat.zero_add]
      exact Nat.div_eq_of_lt (by omega)
    have hn : Spec.numBlocks (bw w2) 4 w h = 0 := by
      unfold Spec.numBlocks
      rcases hz with rfl | rfl
      · rw [c0 _ (by omega), Nat.zero_mul]
      · rw [c0 4 (by omega), Nat.mul_zero]
    have hwh : w * h = 0 := by
      rcases hz with rfl | rfl
      · exact Nat.zero_mul _
      · exact Nat.mul_zero _
    rw [pv_zero hz hw hh]
    unfold Spec.bytesNeeded
    rw [hn, hwh, Nat.zero_mul, Nat.zero_mul, if_neg (Nat.not_lt_zero _),
      if_neg (Nat.not_lt_zero _), if_neg (Nat.not_lt_zero _)]
    have pos : ∀ {a b : Nat}, 0 < b → 0 < a → 0 < Spec.ceilDiv a b := fun hb ha =>
      Nat.lt_of_le_of_lt (Nat.zero_le _) (div_lt_ceilDiv hb ha)
    rename_i inst
    obtain ⟨ck⟩ := inst
    cases ck
    · have any : ∀ n, ∃ b, @Model.pvNotPow2 Build.release n = .ok b ∧ (b = false ↔ SideOk n) := by
        intro n
        rcases Nat.eq_zero_or_pos n with rfl | hp
        · exact ⟨false, pvNotPow2_zero_release, iff_of_true rfl (.inl rfl)⟩
        · obtain ⟨b, e, hb⟩ := @pvNotPow2_eq Build.release n hp
          exact ⟨b, e, hb.trans ⟨.inr, fun h => h.resolve_left (by omega)⟩⟩
      obtain ⟨b1, e1, hb1⟩ := any (Spec.ceilDiv w (bw w2))
      obtain ⟨b2, e2, hb2⟩ := any (Spec.ceilDiv h 4)
      show Prod.fst <$> (@Model.pvNotPow2 Build.release _ >>= fun badX =>
        (if badX = true then pure true else @Model.pvNotPow2 Build.release _) >>= fun bad => _) = _
      rw [e1, e2, if_neg (fun h => Bool.noConfusion h.1), ← hb1, ← hb2]
      cases b1 <;> cases b2
      · rw [if_neg (fun h => h ⟨rfl, rfl⟩)]; rfl
      all_goals rw [if_pos (fun h => by revert h; decide)]; rfl
    · show Prod.fst <$> (@Model.pvNotPow2 Build.debug _ >>= fun badX =>
        (if badX = true then pure true else @Model.pvNotPow2 Build.debug _) >>= fun bad => _) = _
      rcases Nat.eq_zero_or_pos w with rfl | hw0
      · rw [c0 _ (by omega), pvNotPow2_zero_debug, if_pos ⟨rfl, .inl rfl⟩]
        rfl
      · have hh0 : h = 0 := by omega
        subst hh0
        obtain ⟨b1, e1, hb1⟩ := @pvNotPow2_eq Build.debug (Spec.ceilDiv w (bw w2)) (pos (by omega) hw0)
        have hx := pos (b := bw w2) (by omega) hw0
        have sx : SideOk (Spec.ceilDiv w (bw w2)) ↔ b1 = false :=
          ⟨fun h => hb1.mpr (h.resolve_left (by omega)), fun h => .inr (hb1.mp h)⟩
        rw [e1, c0 4 (by omega), pvNotPow2_zero_debug, sx]
        cases b1
        · rw [if_pos ⟨rfl, .inr ⟨rfl, rfl⟩⟩]; rfl
        · rw [if_neg (by rintro ⟨-, h | ⟨-, h⟩⟩; · omega
                         · cases h), if_pos (fun h => nomatch h.1)]
          rfl
  · have hw0 : 0 < w := by omega
    have hh0 : 0 < h := by omega
    have hnx : 0 < Spec.ceilDiv w (bw w2) :=
      Nat.lt_of_le_of_lt (Nat.zero_le _) (div_lt_ceilDiv (by omega) hw0)
    have hny : 0 < Spec.ceilDiv h 4 :=
      Nat.lt_of_le_of_lt (Nat.zero_le _) (div_lt_ceilDiv (by omega) hh0)
    have sx : SideOk (Spec.ceilDiv w (bw w2)) ↔ IsPow2 (Spec.ceilDiv w (bw w2)) :=
      ⟨fun h => h.resolve_left (by omega), .inr⟩
    have sy : SideOk (Spec.ceilDiv h 4) ↔ IsPow2 (Spec.ceilDiv h 4) :=
      ⟨fun h => h.resolve_left (by omega), .inr⟩
    rw [sx, sy]
    obtain ⟨c1, c2, c3, c4⟩ := pv_checks (is2 := w2) (data := data) hs hw0 hh0
    by_cases h1 : data.length < Spec.numBlocks (bw w2) 4 w h * bw w2
    · rw [if_pos h1, c1 h1]; rfl
    rw [if_neg h1]
    by_cases h2 : image.length < w * h
    · rw [if_pos h2, c2 (Nat.not_lt.mp h1) h2]; rfl
    rw [if_neg h2, if_neg (by omega)]
    by_cases h3 : IsPow2 (Spec.ceilDiv w (bw w2)) ∧ IsPow2 (Spec.ceilDiv h 4)
    · rw [if_neg (fun h => h h3)]
      by_cases h4 : data.length < Spec.bytesNeeded (bw w2) 4 8 w h
      · rw [if_pos h4, c4 (Nat.not_lt.mp h1) (Nat.not_lt.mp h2) h3]
        have := hs.bytes_fit
        unfold Spec.bytesNeeded Spec.numBlocks at this h4
        simp only
        rw [pvInfos_panic h4 this]
        rfl
      · rw [if_neg h4]
        obtain ⟨out, e, -⟩ := pv_success hs hw0 hh0 (Nat.not_lt.mp h4) (Nat.not_lt.mp h2) h3
        rw [e]; rfl
    · rw [if_pos h3, c3 (Nat.not_lt.mp h1) (Nat.not_lt.mp h2) h3]; rfl

/-- A 4 × 0 image panics with overflow checks and is an empty image without; 12 × 0 is refused. -/
example : (Prod.fst <$> @pvrtc Build.debug false [] 4 0 [] = .panic) ∧
    (Prod.fst <$> @pvrtc Build.release false [] 4 0 [] = .ok (.ok ())) ∧
    (Prod.fst <$> @pvrtc Build.debug false [] 12 0 [] =
      .ok (.error "The number of blocks of each side must be a power of 2!")) ∧
    Spec.SizesOk (bw false) 4 8 4 0 [] :=
  ⟨rfl, rfl, rfl, by decide, by decide, by decide⟩

/-! ## C33 -/

/-- **C33** On every power-of-two grid whose data is addressable, the block index the decoder computes
is the twiddled number, stays inside the data, differs for different blocks and reaches every block of
the data. -/
theorem C33_block_order [Build] (nx ny : Nat) (hx : IsPow2 nx) (hy : IsPow2 ny)
    (hn : nx * ny < 2 ^ 61) :
    (∀ x y, x < nx → y < ny → ∃ k, Model.mortonIndex x y (min nx ny) = .ok k ∧ k < nx * ny ∧
      k = twiddle (Nat.log2 (min nx ny)) x y) ∧
    (∀ x y x' y', x < nx → y < ny → x' < nx → y' < ny →
      Model.mortonIndex x y (min nx ny) = Model.mortonIndex x' y' (min nx ny) → x = x' ∧ y = y') ∧
    (∀ k, k < nx * ny → ∃ x y, x < nx ∧ y < ny ∧ Model.mortonIndex x y (min nx ny) = .ok k) := by
  obtain ⟨m, a, b, e1, e2, hab, -, hl, hnn⟩ := grid_exps hx hy
  refine ⟨?_, ?_, ?_⟩
  · intro x y h1 h2
    obtain ⟨e, h⟩ := morton_grid hx hy hn h1 h2
    exact ⟨_, e, h, rfl⟩
  · intro x y x' y' h1 h2 h3 h4 h
    rw [(morton_grid hx hy hn h1 h2).1, (morton_grid hx hy hn h3 h4).1, hl] at h
    exact twiddle_inj m x y x' y' a b (by omega) (by omega) (by omega) (by omega) hab (Out.ok.inj h)
  · intro k hk
    obtain ⟨x, y, h1, h2, h3⟩ := twiddle_surj m a b k hab (by omega)
    refine ⟨x, y, by omega, by omega, ?_⟩
    rw [(morton_grid hx hy hn (by omega) (by omega)).1, hl, h3]

example : IsPow2 8 ∧ IsPow2 2 ∧
    (List.range 16).map (fun k => twiddle 1 (k % 8) (k / 8)) =
      [0, 2, 4, 6, 8, 10, 12, 14, 1, 3, 5, 7, 9, 11, 13, 15] :=
  ⟨⟨3, rfl⟩, ⟨1, rfl⟩, by decide⟩

/-! ## C34 and C49 -/

/-- **C49** `decode_pvrtc_2bpp` and `decode_pvrtc_4bpp` produce exactly the PVRTC colours: every
nonzero size with a power-of-two grid, all data with 8 bytes per block, both builds. -/
theorem C49_pvrtc_exact [Build] (w2 : Bool) (data : List UInt8) (w h : Nat) (image : List UInt32)
    (hs : Spec.SizesOk (bw w2) 4 8 w h image) (hw : 0 < w) (hh : 0 < h)
    (hd : Spec.bytesNeeded (bw w2) 4 8 w h ≤ data.length) (hi : w * h ≤ image.length)
    (hx : IsPow2 (Spec.ceilDiv w (bw w2))) (hy : IsPow2 (Spec.ceilDiv h 4)) :
    ∃ out, pvrtc w2 data w h image = .ok (.ok (), out) ∧
      IsDecoded w2 data w h image out := by
  rw [pvrtc_eq]
  exact pv_success hs hw hh hd hi ⟨hx, hy⟩

example : Spec.SizesOk (bw false) 4 8 7 5 (List.replicate 35 0) ∧
    Spec.bytesNeeded (bw false) 4 8 7 5 = 32 ∧ IsPow2 (Spec.ceilDiv 7 (bw false)) ∧
    IsPow2 (Spec.ceilDiv 5 4) :=
  ⟨⟨by decide, by decide, by decide⟩, by decide, ⟨1, rfl⟩, ⟨1, rfl⟩⟩

/-- **C34** Both interpolated colours have 8-bit channels, and the weight is between 0 and 8, at every
texel of every texture. -/
theorem C34_ranges (w2 : Bool) (data : List UInt8) (nx ny x y : Nat) (hx : x < bw w2 * nx)
    (hy : y < 4 * ny) :
    (∀ ch, first w2 data nx ny x y ch ≤ 255 ∧ second w2 data nx ny x y ch ≤ 255) ∧
      weight w2 data nx ny x y ≤ 8 := by
  have hbw := bw_cases w2
  have h1 : x / bw w2 < nx := (Nat.div_lt_iff_lt_mul (by omega)).mpr (by rwa [Nat.mul_comm])
  have h2 : y / 4 < ny := by omega
  refine ⟨fun ch => ⟨?_, ?_⟩, pvWeight_le h1 h2⟩
  · rw [first_eq h1 h2]; exact firstOf_le ..
  · rw [second_eq h1 h2]; exact secondOf'_le ..

/-- **C34** Decoding with overflow checks succeeds (no operation overflows), and every channel of every
pixel lies between the channels of the two interpolated colours, alpha being 0 where the texel is
punched out. -/
theorem C34_pvrtc_no_overflow (w2 : Bool) (data : List UInt8) (w h : Nat) (image : List UInt32)
    (hs : Spec.SizesOk (bw w2) 4 8 w h image) (hw : 0 < w) (hh : 0 < h)
    (hd : Spec.bytesNeeded (bw w2) 4 8 w h ≤ data.length) (hi : w * h ≤ image.length)
    (hx : IsPow2 (Spec.ceilDiv w (bw w2))) (hy : IsPow2 (Spec.ceilDiv h 4)) :
    ∃ out, @pvrtc Build.debug w2 data w h image = .ok (.ok (), out) ∧
      ∀ x y, x < w → y < h → ∃ p, out[y * w + x]? = some p ∧
        let c1 := first w2 data (Spec.ceilDiv w (bw w2)) (Spec.ceilDiv h 4) x y
        let c2 := second w2 data (Spec.ceilDiv w (bw w2)) (Spec.ceilDiv h 4) x y
        (min (c1 0) (c2 0) ≤ Spec.red p ∧ Spec.red p ≤ max (c1 0) (c2 0)) ∧
        (min (c1 1) (c2 1) ≤ Spec.green p ∧ Spec.green p ≤ max (c1 1) (c2 1)) ∧
        (min (c1 2) (c2 2) ≤ Spec.blue p ∧ Spec.blue p ≤ max (c1 2) (c2 2)) ∧
        (Spec.alpha p = 0 ∧ transparent w2 data (Spec.ceilDiv w (bw w2)) (Spec.ceilDiv h 4) x y ∨
          min (c1 3) (c2 3) ≤ Spec.alpha p ∧ Spec.alpha p ≤ max (c1 3) (c2 3)) := by
  obtain ⟨out, e, d⟩ := @C49_pvrtc_exact Build.debug w2 data w h image hs hw hh hd hi hx hy
  refine ⟨out, e, ?_⟩
  intro x y hxw hyh
  refine ⟨_, d.pixel x y hxw hyh, ?_⟩
  intro c1 c2
  have hbw := bw_cases w2
  have g1 : x / bw w2 < Spec.ceilDiv w (bw w2) := div_lt_ceilDiv (by omega) hxw
  have g2 : y / 4 < Spec.ceilDiv h 4 := div_lt_ceilDiv (by omega) hyh
  obtain ⟨hc, hwt⟩ := C34_ranges w2 data (Spec.ceilDiv w (bw w2)) (Spec.ceilDiv h 4) x y
    (by rw [Nat.mul_comm]; exact (Nat.div_lt_iff_lt_mul (by omega)).mp g1) (by omega)
  have hch : ∀ ch, min (c1 ch) (c2 ch) ≤
      channel w2 data (Spec.ceilDiv w (bw w2)) (Spec.ceilDiv h 4) x y ch ∧
      channel w2 data (Spec.ceilDiv w (bw w2)) (Spec.ceilDiv h 4) x y ch ≤ max (c1 ch) (c2 ch) ∧
      channel w2 data (Spec.ceilDiv w (bw w2)) (Spec.ceilDiv h 4) x y ch < 256 := by
    intro ch
    obtain ⟨u1, u2⟩ := hc ch
    exact blend_between u1 u2 hwt
  obtain ⟨r1, r2, r3⟩ := hch 0
  obtain ⟨s1, s2, s3⟩ := hch 1
  obtain ⟨t1, t2, t3⟩ := hch 2
  obtain ⟨q1, q2, q3⟩ := hch 3
  unfold texel
  generalize hA : (if transparent w2 data (Spec.ceilDiv w (bw w2)) (Spec.ceilDiv h 4) x y = true then 0
    else channel w2 data (Spec.ceilDiv w (bw w2)) (Spec.ceilDiv h 4) x y 3) = A
  have hA' : A < 256 := by rw [← hA]; split <;> omega
  obtain ⟨k1, k2, k3, k4⟩ := px_parts r3 s3 t3 hA'
  rw [k1, k2, k3, k4]
  refine ⟨⟨r1, r2⟩, ⟨s1, s2⟩, ⟨t1, t2⟩, ?_⟩
  by_cases ht : transparent w2 data (Spec.ceilDiv w (bw w2)) (Spec.ceilDiv h 4) x y = true
  · rw [if_pos ht] at hA; exact .inl ⟨hA.symm, ht⟩
  · rw [if_neg ht] at hA; rw [← hA]; exact .inr ⟨q1, q2⟩

end Verif.Props
