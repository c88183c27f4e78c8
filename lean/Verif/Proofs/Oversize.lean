import Verif.Proofs.ImageLaws
import Verif.Proofs.AstcImage

/-! # Decoders whose size products exceed `usize` -/

namespace Verif.Proofs

open Verif Verif.Model

/-- A loop that advances a counter by `c` in each step, and panics once it is above `L`. -/
theorem forRange_counter {σ : Type} {f : Nat → σ → Out σ} (m : σ → Nat) (L slack c : Nat)
    (hstep : ∀ i s s', f i s = .ok s' → m s' = m s + c ∧ m s' ≤ L + slack) :
    ∀ n s s', forRange n f s = .ok s' → m s' = m s + n * c ∧ (0 < n → m s' ≤ L + slack) := by
  intro n
  induction n with
  | zero => intro s s' h; cases h; exact ⟨by omega, fun h => absurd h (by omega)⟩
  | succ n ih =>
    intro s s' h
    rw [forRange] at h
    obtain ⟨s1, e1, e2⟩ := Out.bind_eq_ok.mp h
    obtain ⟨h1, _⟩ := ih s s1 e1
    obtain ⟨h2, h3⟩ := hstep n s1 s' e2
    refine ⟨?_, fun _ => h3⟩
    rw [h2, h1, Nat.add_mul]; omega

theorem fitU_release {w v : Nat} : @fitU Build.release w v = .ok (v % 2 ^ w) := by
  unfold fitU
  split
  · next h => rw [Nat.mod_eq_of_lt h]
  · rfl

theorem fitU_debug {w v : Nat} (h : 2 ^ w ≤ v) : @fitU Build.debug w v = .panic := by
  unfold fitU
  rw [if_neg (by omega)]; rfl

/-- One block of the loop of `block_decoder!`. -/
def blockStep [Build] (bw bh raw : Nat) (f : BlockFn) (data : List UInt8) (width height by' bx : Nat)
    (s : List UInt32 × Nat × List UInt32) : Out (List UInt32 × Nat × List UInt32) := do
  let (buffer, dataOffset, image) := s
  let block ← sliceFrom data dataOffset
  let buffer ← f block buffer
  let image ← copyBlockBuffer bx by' width height bw bh buffer image
  let dataOffset ← addU 64 dataOffset raw
  pure (buffer, dataOffset, image)

theorem blockStep_offset [Build] {bw bh raw : Nat} {f : BlockFn} {data : List UInt8}
    {w h by' bx : Nat} {s s' : List UInt32 × Nat × List UInt32} (hd : data.length + raw < 2 ^ 64)
    (e : blockStep bw bh raw f data w h by' bx s = .ok s') :
    s'.2.1 = s.2.1 + raw ∧ s'.2.1 ≤ data.length + raw := by
  obtain ⟨b, o, im⟩ := s
  unfold blockStep at e
  obtain ⟨blk, e1, e⟩ := Out.bind_eq_ok.mp e
  obtain ⟨b', _, e⟩ := Out.bind_eq_ok.mp e
  obtain ⟨im', _, e⟩ := Out.bind_eq_ok.mp e
  obtain ⟨o', e4, e⟩ := Out.bind_eq_ok.mp e
  have ho : o ≤ data.length := by
    unfold sliceFrom at e1
    split at e1
    · assumption
    · cases e1
  rw [addU_ok (by omega)] at e4
  cases e4; cases e
  exact ⟨rfl, by show o + raw ≤ _; omega⟩

theorem blockLoop_ok [Build] {bw bh raw : Nat} {f : BlockFn} {data : List UInt8}
    {w h nbx nby : Nat} {s s' : List UInt32 × Nat × List UInt32} (hd : data.length + raw < 2 ^ 64)
    (e : forRange nby (fun by' s => forRange nbx (blockStep bw bh raw f data w h by') s) s = .ok s')
    (hpos : 0 < nbx * nby) : s.2.1 + nbx * nby * raw ≤ data.length + raw := by
  have inner : ∀ by' s s', forRange nbx (blockStep bw bh raw f data w h by') s = .ok s' →
      s'.2.1 = s.2.1 + nbx * raw ∧ (0 < nbx → s'.2.1 ≤ data.length + raw) := fun by' s s' =>
    forRange_counter (fun s => s.2.1) data.length raw raw (fun _ _ _ => blockStep_offset hd) nbx s s'
  have hx : 0 < nbx := Nat.pos_of_mul_pos_right hpos
  have hy : 0 < nby := Nat.pos_of_mul_pos_left hpos
  obtain ⟨h1, h2⟩ := forRange_counter (fun s => s.2.1) data.length raw (nbx * raw)
    (fun by' s s' e => ⟨(inner by' s s' e).1, (inner by' s s' e).2 hx⟩) nby s s' e
  have := h2 hy
  have e3 : nby * (nbx * raw) = nbx * nby * raw := by
    rw [← Nat.mul_assoc, Nat.mul_comm nby]
  rw [e3] at h1
  omega

/-- Sizes beyond `usize`, in a build with overflow checks. -/
theorem blockDecoder_debug {f : BlockFn} {bw bh raw : Nat} (hbw : 0 < bw) (hbh : 0 < bh)
    (data : List UInt8) (w h : Nat) (image : List UInt32)
    (hn : 2 ^ 64 ≤ Spec.bytesNeeded bw bh raw w h) :
    @blockDecoder Build.debug bw bh raw f data w h image = .panic := by
  unfold blockDecoder
  rw [divCeil_ok (by omega), Out.ok_bind, divCeil_ok (by omega), Out.ok_bind]
  unfold Spec.bytesNeeded Spec.numBlocks Spec.ceilDiv at hn
  generalize (w + bw - 1) / bw = nbx at *
  generalize (h + bh - 1) / bh = nby at *
  rcases Nat.lt_or_ge (nbx * nby) (2 ^ 64) with h1 | h1
  · rw [@mulU_ok Build.debug _ _ _ h1, Out.ok_bind]
    unfold mulU
    rw [fitU_debug hn]; rfl
  · unfold mulU
    rw [fitU_debug h1]; rfl

/-- Sizes beyond `usize`, in a build without overflow checks: the checks see the wrapped products. -/
theorem blockDecoder_release {f : BlockFn} {bw bh raw : Nat} (hbw : 0 < bw) (hbh : 0 < bh)
    (data : List UInt8) (w h : Nat) (image : List UInt32)
    (hd : data.length + raw < 2 ^ 64)
    (hn : 2 ^ 64 ≤ Spec.bytesNeeded bw bh raw w h) :
    @blockDecoder Build.release bw bh raw f data w h image =
      if data.length < Spec.bytesNeeded bw bh raw w h % 2 ^ 64 then
        .ok (.error "Not enough data to decode image!", image)
      else if image.length < w * h % 2 ^ 64 then
        .ok (.error "Image buffer is too small!", image)
      else .panic := by
  letI := Build.release
  unfold blockDecoder
  rw [divCeil_ok (by omega), Out.ok_bind, divCeil_ok (by omega), Out.ok_bind]
  unfold Spec.bytesNeeded Spec.numBlocks Spec.ceilDiv at *
  generalize (w + bw - 1) / bw = nbx at *
  generalize (h + bh - 1) / bh = nby at *
  unfold mulU
  rw [fitU_release, Out.ok_bind, fitU_release, Out.ok_bind, fitU_release, Nat.mod_mul_mod]
  split
  · rfl
  · rw [Out.ok_bind]
    split
    · rfl
    · have hpos : 0 < nbx * nby := by
        rcases Nat.eq_zero_or_pos (nbx * nby) with h0 | h0
        · rw [h0] at hn; omega
        · exact h0
      cases hl : forRange nby (fun by' s => forRange nbx (blockStep bw bh raw f data w h by') s)
          (List.replicate (bw * bh) (color 0 0 0 255), 0, image) with
      | panic => 
        unfold blockStep at hl
        rw [hl]; rfl
      | ok s' =>
        have := blockLoop_ok hd hl hpos
        simp only [Nat.zero_add] at this
        omega

/-- The data check comes first, and does not look at the pixel count. -/
theorem blockDecoder_short [Build] {f : BlockFn} {bw bh raw : Nat} (hbw : 0 < bw) (hbh : 0 < bh)
    (hraw : 0 < raw) (data : List UInt8) (w h : Nat) (image : List UInt32)
    (hn : Spec.bytesNeeded bw bh raw w h < 2 ^ 64)
    (hd : data.length < Spec.bytesNeeded bw bh raw w h) :
    blockDecoder bw bh raw f data w h image =
      .ok (.error "Not enough data to decode image!", image) := by
  unfold blockDecoder
  rw [divCeil_ok (by omega), Out.ok_bind, divCeil_ok (by omega), Out.ok_bind]
  unfold Spec.bytesNeeded Spec.numBlocks Spec.ceilDiv at *
  generalize (w + bw - 1) / bw = nbx at *
  generalize (h + bh - 1) / bh = nby at *
  have h1 : nbx * nby < 2 ^ 64 := Nat.lt_of_le_of_lt (Nat.le_mul_of_pos_right _ hraw) hn
  rw [mulU_ok h1, Out.ok_bind, mulU_ok hn, Out.ok_bind, if_pos hd]
  rfl

/-- The pixels of an image are not more than the texels of its blocks. -/
theorem pixels_le_blocks {bw bh w h : Nat} (hbw : 0 < bw) (hbh : 0 < bh) :
    w * h ≤ Spec.numBlocks bw bh w h * (bw * bh) := by
  have key : ∀ {a b : Nat}, 0 < b → a ≤ Spec.ceilDiv a b * b := by
    intro a b hb
    unfold Spec.ceilDiv
    have := Nat.div_add_mod (a + b - 1) b
    have := Nat.mod_lt (a + b - 1) hb
    rw [Nat.mul_comm]
    omega
  have := Nat.mul_le_mul (key (a := w) hbw) (key (a := h) hbh)
  unfold Spec.numBlocks
  calc w * h ≤ _ := this
    _ = _ := by rw [Nat.mul_mul_mul_comm]

theorem pixels_fit {fmt : Spec.Format} {data : List UInt8} {w h : Nat} (hd : data.length < 2 ^ 63)
    (hn : fmt.need w h ≤ data.length) : w * h < 2 ^ 64 := by
  have h1 := pixels_le_blocks (bw := 4) (bh := 4) (w := w) (h := h) (by decide) (by decide)
  have h2 : Spec.numBlocks 4 4 w h * 8 ≤ Spec.bytesNeeded 4 4 fmt.blockSize w h :=
    Nat.mul_le_mul_left _ (by cases fmt <;> decide)
  have h3 : Spec.bytesNeeded 4 4 fmt.blockSize w h ≤ data.length := hn
  omega

/-- If the number of bytes fits in `usize` there is no panic. -/
theorem decoder_fits [Build] {fmt : Spec.Format} {data : List UInt8} {w h : Nat}
    {image : List UInt32} (hd : data.length < 2 ^ 63) (hi : image.length < 2 ^ 61)
    (hl : fmt.AllLegal data w h) (hn : fmt.need w h < 2 ^ 64) :
    ∃ r, decoder fmt data w h image = .ok r := by
  rcases Nat.lt_or_ge data.length (fmt.need w h) with h1 | h1
  · rw [decoder_blockFn]
    exact ⟨_, blockDecoder_short (by decide) (by decide) (blockSize_pos fmt) _ _ _ _ hn h1⟩
  · have hs : fmt.SizesOk w h image := ⟨hi, hn, pixels_fit hd h1⟩
    rcases Nat.lt_or_ge image.length (w * h) with h2 | h2
    · exact ⟨_, (decoder_spec fmt).image_too_small _ _ _ _ hs h1 h2⟩
    · obtain ⟨o, e, _⟩ := (decoder_spec fmt).success _ _ _ _ hs h1 h2 hl
      exact ⟨_, e⟩

theorem decoder_ok_sizes [Build] {fmt : Spec.Format} {data : List UInt8} {w h : Nat}
    {image image' : List UInt32} (hd : data.length < 2 ^ 63) (hi : image.length < 2 ^ 61)
    (hok : decoder fmt data w h image = .ok (.ok (), image')) :
    fmt.need w h ≤ data.length ∧ w * h ≤ image.length := by
  have hraw : fmt.blockSize ≤ 16 := by cases fmt <;> decide
  rcases Nat.lt_or_ge (fmt.need w h) (2 ^ 64) with hn | hn
  · have h1 : fmt.need w h ≤ data.length := by
      apply Nat.not_lt.mp
      intro h1
      rw [decoder_blockFn, blockDecoder_short (by decide) (by decide) (blockSize_pos fmt) _ _ _ _ hn
        h1] at hok
      injection hok with hok; injection hok with a b; cases a
    have hs : fmt.SizesOk w h image := ⟨hi, hn, pixels_fit hd h1⟩
    refine ⟨h1, ?_⟩
    apply Nat.not_lt.mp
    intro h2
    rw [(decoder_spec fmt).image_too_small _ _ _ _ hs h1 h2] at hok
    injection hok with hok; injection hok with a b; cases a
  · exfalso
    rename_i inst
    obtain ⟨ck⟩ := inst
    cases ck
    · have e := blockDecoder_release (f := @blockFn Build.release fmt) (bw := 4) (bh := 4) (by decide)
        (by decide) data w h image (show data.length + fmt.blockSize < 2 ^ 64 by omega) hn
      rw [← @decoder_blockFn Build.release] at e
      have hok : @decoder Build.release fmt data w h image = .ok (.ok (), image') := hok
      rw [e] at hok
      split at hok
      · injection hok with hok; injection hok with a b; cases a
      · split at hok
        · injection hok with hok; injection hok with a b; cases a
        · cases hok
    · have e := blockDecoder_debug (f := @blockFn Build.debug fmt) (bw := 4) (bh := 4) (by decide)
        (by decide) data w h image hn
      rw [← @decoder_blockFn Build.debug] at e
      have hok : @decoder Build.debug fmt data w h image = .ok (.ok (), image') := hok
      rw [e] at hok
      cases hok

/-! ## ASTC -/

theorem astc_debug {bw bh : Nat} (hbw : 0 < bw) (hbh : 0 < bh)
    (data : List UInt8) (w h : Nat) (image : List UInt32)
    (hn : 2 ^ 64 ≤ Spec.bytesNeeded bw bh 16 w h) :
    @decodeAstc Build.debug data w h bw bh image = .panic := by
  unfold decodeAstc
  rw [divCeil_ok (by omega), Out.ok_bind, divCeil_ok (by omega), Out.ok_bind]
  unfold Spec.bytesNeeded Spec.numBlocks Spec.ceilDiv at hn
  generalize (w + bw - 1) / bw = nbx at *
  generalize (h + bh - 1) / bh = nby at *
  rcases Nat.lt_or_ge (nbx * nby) (2 ^ 64) with h1 | h1
  · rw [@mulU_ok Build.debug _ _ _ h1, Out.ok_bind]
    unfold mulU
    rw [fitU_debug hn]; rfl
  · unfold mulU
    rw [fitU_debug h1]; rfl

theorem astc_release {bw bh : Nat} (hbw : 0 < bw) (hbh : 0 < bh) (hb : bw * bh ≤ 144)
    (data : List UInt8) (w h : Nat) (image : List UInt32)
    (hd : data.length + 16 < 2 ^ 64)
    (hn : 2 ^ 64 ≤ Spec.bytesNeeded bw bh 16 w h) :
    @decodeAstc Build.release data w h bw bh image =
      if data.length < Spec.bytesNeeded bw bh 16 w h % 2 ^ 64 then
        .ok (.error "Not enough data to decode image!", image)
      else if image.length < w * h % 2 ^ 64 then
        .ok (.error "Image buffer is too small!", image)
      else .panic := by
  letI := Build.release
  unfold decodeAstc
  rw [divCeil_ok (by omega), Out.ok_bind, divCeil_ok (by omega), Out.ok_bind]
  unfold Spec.bytesNeeded Spec.numBlocks Spec.ceilDiv at *
  generalize (w + bw - 1) / bw = nbx at *
  generalize (h + bh - 1) / bh = nby at *
  rw [mulU_ok (a := bw) (by omega)]
  unfold mulU
  rw [fitU_release, Out.ok_bind, fitU_release, Out.ok_bind, fitU_release, Nat.mod_mul_mod]
  split
  · rfl
  · rw [Out.ok_bind]
    split
    · rfl
    · rw [Out.ok_bind, if_neg (by omega)]
      have hpos : 0 < nbx * nby := by
        rcases Nat.eq_zero_or_pos (nbx * nby) with h0 | h0
        · rw [h0] at hn; omega
        · exact h0
      cases hl : forRange nby (fun by' s => forRange nbx
          (blockStep bw bh 16 (fun b => decodeAstcBlock b bw bh) data w h by') s)
          (List.replicate 144 0, 0, image) with
      | panic =>
        unfold blockStep at hl
        rw [hl]; rfl
      | ok s' =>
        have := blockLoop_ok hd hl hpos
        simp only [Nat.zero_add] at this
        omega

theorem astc_short [Build] {bw bh : Nat} (hbw : 0 < bw) (hbh : 0 < bh)
    (data : List UInt8) (w h : Nat) (image : List UInt32)
    (hn : Spec.bytesNeeded bw bh 16 w h < 2 ^ 64)
    (hd : data.length < Spec.bytesNeeded bw bh 16 w h) :
    decodeAstc data w h bw bh image = .ok (.error "Not enough data to decode image!", image) := by
  unfold decodeAstc
  rw [divCeil_ok (by omega), Out.ok_bind, divCeil_ok (by omega), Out.ok_bind]
  unfold Spec.bytesNeeded Spec.numBlocks Spec.ceilDiv at *
  generalize (w + bw - 1) / bw = nbx at *
  generalize (h + bh - 1) / bh = nby at *
  simp only
  rw [mulU_ok (by omega), Out.ok_bind, mulU_ok hn, Out.ok_bind, if_pos hd]
  rfl

theorem astc_pixels_fit {bw bh : Nat} (hbw : 0 < bw) (hbh : 0 < bh) (hb : bw * bh ≤ 144)
    {data : List UInt8} {w h : Nat} (hd : data.length < 2 ^ 60)
    (hn : Spec.bytesNeeded bw bh 16 w h ≤ data.length) : w * h < 2 ^ 64 := by
  have h1 := pixels_le_blocks (w := w) (h := h) hbw hbh
  have h2 := Nat.mul_le_mul_left (Spec.numBlocks bw bh w h) hb
  unfold Spec.bytesNeeded at hn
  omega

theorem astc_ok_sizes [Build] {bw bh : Nat} (hbw : 0 < bw) (hbh : 0 < bh) (hb : bw * bh ≤ 144)
    {data : List UInt8} {w h : Nat} {image image' : List UInt32} (hd : data.length < 2 ^ 60)
    (hi : image.length < 2 ^ 61) (hok : decodeAstc data w h bw bh image = .ok (.ok (), image')) :
    Spec.bytesNeeded bw bh 16 w h ≤ data.length ∧ w * h ≤ image.length := by
  rcases Nat.lt_or_ge (Spec.bytesNeeded bw bh 16 w h) (2 ^ 64) with hn | hn
  · have h1 : Spec.bytesNeeded bw bh 16 w h ≤ data.length := by
      apply Nat.not_lt.mp
      intro h1
      rw [astc_short hbw hbh _ _ _ _ hn h1] at hok
      injection hok with hok; injection hok with a b; cases a
    have hs : Spec.SizesOk bw bh 16 w h image := ⟨hi, hn, astc_pixels_fit hbw hbh hb hd h1⟩
    refine ⟨h1, ?_⟩
    apply Nat.not_lt.mp
    intro h2
    rw [(Astc.astc_checks hs hbw hbh).2.1 h1 h2] at hok
    injection hok with hok; injection hok with a b; cases a
  · exfalso
    rename_i inst
    obtain ⟨ck⟩ := inst
    cases ck
    · have e := astc_release hbw hbh hb data w h image (by omega) hn
      have hok : @decodeAstc Build.release data w h bw bh image = .ok (.ok (), image') := hok
      rw [e] at hok
      split at hok
      · injection hok with hok; injection hok with a b; cases a
      · split at hok
        · injection hok with hok; injection hok with a b; cases a
        · cases hok
    · have hok : @decodeAstc Build.debug data w h bw bh image = .ok (.ok (), image') := hok
      rw [astc_debug hbw hbh data w h image hn] at hok
      cases hok

end Verif.Proofs
