import Verif.Props.AstcLocality
import Verif.Props.AllFunctions
import Verif.Proofs.AnyBlocks

/-!
# C05–C08 for arbitrary blocks, and C05 and C07 for every function

In Props/Image.lean the BC6H blocks are assumed not to have mode 15, which makes a build with overflow
checks panic (C22). Here nothing is assumed about the blocks.
-/

namespace Verif.Props

open Verif Verif.Proofs Verif.Model

section
variable [Build]

/-- **C05** Bytes after the blocks of the image are ignored, whatever the blocks are: the outcome is the
same. -/
theorem C05_any_blocks (fmt : Spec.Format) (data extra : List UInt8) (w h : Nat)
    (image : List UInt32) (hs : fmt.SizesOk w h image) (hlen : fmt.need w h ≤ data.length) :
    decoder fmt (data ++ extra) w h image = decoder fmt data w h image := by
  obtain ⟨Good, texel, A⟩ := decoder_any fmt
  have hlen2 : fmt.need w h ≤ (data ++ extra).length := by
    rw [List.length_append]; omega
  by_cases h2 : image.length < w * h
  · rw [A.decodes.image_too_small _ _ _ _ hs hlen h2, A.decodes.image_too_small _ _ _ _ hs hlen2 h2]
  have h2 := Nat.not_lt.mp h2
  have hb : ∀ k, k < Spec.numBlocks 4 4 w h →
      Spec.blockBytes fmt.blockSize (data ++ extra) k = Spec.blockBytes fmt.blockSize data k :=
    fun k hk => blockBytes_append hk hlen
  by_cases hg : ∀ k, k < Spec.numBlocks 4 4 w h → Good (Spec.blockBytes fmt.blockSize data k)
  · obtain ⟨o, e, d⟩ := A.decodes.success _ _ _ _ hs hlen h2 hg
    obtain ⟨o2, e2, d2⟩ := A.decodes.success _ _ _ _ hs hlen2 h2
      (fun k hk => by rw [hb k hk]; exact hg k hk)
    rw [e, e2]
    congr 2
    apply List.ext_getElem?
    intro j
    rcases Nat.lt_or_ge j (w * h) with hj | hj
    · obtain ⟨x, y, hx, hy, rfl⟩ := pixel_index hj
      rw [d.pixel x y hx hy, d2.pixel x y hx hy]
      unfold Spec.pixelAt
      rw [hb _ (numBlocks_idx hx hy)]
    · rw [d.rest j hj, d2.rest j hj]
  · obtain ⟨k, hk⟩ := Classical.not_forall.mp hg
    have hk' : k < Spec.numBlocks 4 4 w h := Classical.byContradiction fun h => hk fun h' => absurd h' h
    have hn : ¬ Good (Spec.blockBytes fmt.blockSize data k) := fun h => hk fun _ => h
    rw [A.panics _ _ _ _ hs hlen h2 k hk' hn,
      A.panics _ _ _ _ hs hlen2 h2 k hk' (by rw [hb k hk']; exact hn)]

example (extra : List UInt8) : decoder .bc6u (bc6Mode15 ++ extra) 3 4 (List.replicate 12 0) =
    decoder .bc6u bc6Mode15 3 4 (List.replicate 12 0) :=
  C05_any_blocks .bc6u bc6Mode15 extra 3 4 _ ⟨by decide, by decide, by decide⟩ (by decide)

/-- **C06** Pixels depend only on the bytes of the block that covers them, whatever the blocks are. -/
theorem C06_any_blocks (fmt : Spec.Format) (data1 data2 : List UInt8) (w h : Nat)
    (image1 image2 out1 out2 : List UInt32)
    (hs1 : fmt.SizesOk w h image1) (hs2 : fmt.SizesOk w h image2)
    (hok1 : decoder fmt data1 w h image1 = .ok (.ok (), out1))
    (hok2 : decoder fmt data2 w h image2 = .ok (.ok (), out2))
    (x y : Nat) (hx : x < w) (hy : y < h)
    (hsame : Spec.blockBytes fmt.blockSize data1 (y / 4 * ((w + 3) / 4) + x / 4) =
      Spec.blockBytes fmt.blockSize data2 (y / 4 * ((w + 3) / 4) + x / 4)) :
    out1[y * w + x]? = out2[y * w + x]? := by
  obtain ⟨Good, texel, A⟩ := decoder_any fmt
  obtain ⟨-, -, -, d1⟩ := A.ok_inv hs1 hok1
  obtain ⟨-, -, -, d2⟩ := A.ok_inv hs2 hok2
  rw [d1.pixel x y hx hy, d2.pixel x y hx hy]
  exact congrArg some (congrArg (fun b => texel b _) hsame)

/-- **C07** The previous contents of the image do not matter, whatever the blocks are: if a decode
succeeds, it also succeeds into any other image that is large enough, with the same pixels. -/
theorem C07_any_blocks (fmt : Spec.Format) (data : List UInt8) (w h : Nat)
    (image1 image2 out1 : List UInt32) (hs1 : fmt.SizesOk w h image1)
    (hi2 : image2.length < 2 ^ 61) (hi : w * h ≤ image2.length)
    (hok1 : decoder fmt data w h image1 = .ok (.ok (), out1)) :
    ∃ out2, decoder fmt data w h image2 = .ok (.ok (), out2) ∧
      out2.take (w * h) = out1.take (w * h) := by
  obtain ⟨Good, texel, A⟩ := decoder_any fmt
  obtain ⟨hd, -, hg, d1⟩ := A.ok_inv hs1 hok1
  obtain ⟨o2, e2, d2⟩ := A.decodes.success data w h image2 ⟨hi2, hs1.bytes_fit, hs1.pixels_fit⟩ hd hi hg
  refine ⟨o2, e2, ?_⟩
  apply List.ext_getElem?
  intro j
  rw [List.getElem?_take, List.getElem?_take]
  split
  · next hj =>
    obtain ⟨x, y, hx, hy, rfl⟩ := pixel_index hj
    rw [d1.pixel x y hx hy, d2.pixel x y hx hy]
  · rfl

/-- **C08** A smaller image with the same number of block columns is the top-left crop, and decodes if
the larger one does, whatever the blocks are. -/
theorem C08_any_blocks (fmt : Spec.Format) (data : List UInt8) (w h w2 h2 : Nat)
    (image1 image2 out2 : List UInt32) (hs2 : fmt.SizesOk w2 h2 image2)
    (hi1 : image1.length < 2 ^ 61) (hi : w * h ≤ image1.length)
    (hw : w ≤ w2) (hh : h ≤ h2) (hcols : (w + 3) / 4 = (w2 + 3) / 4)
    (hok2 : decoder fmt data w2 h2 image2 = .ok (.ok (), out2)) :
    ∃ out1, decoder fmt data w h image1 = .ok (.ok (), out1) ∧
      ∀ x y, x < w → y < h → out1[y * w + x]? = out2[y * w2 + x]? := by
  obtain ⟨Good, texel, A⟩ := decoder_any fmt
  obtain ⟨hd, -, hg, d2⟩ := A.ok_inv hs2 hok2
  have hc : Spec.ceilDiv w 4 = Spec.ceilDiv w2 4 := hcols
  have hrows : Spec.ceilDiv h 4 ≤ Spec.ceilDiv h2 4 := by
    unfold Spec.ceilDiv
    exact Nat.div_le_div_right (by omega)
  have hn : Spec.numBlocks 4 4 w h ≤ Spec.numBlocks 4 4 w2 h2 := by
    unfold Spec.numBlocks
    rw [hc]
    exact Nat.mul_le_mul_left _ hrows
  have hneed : fmt.need w h ≤ fmt.need w2 h2 := Nat.mul_le_mul_right _ hn
  have hwh := Nat.mul_le_mul hw hh
  have hbf := hs2.bytes_fit
  have hpf := hs2.pixels_fit
  obtain ⟨o1, e1, d1⟩ := A.decodes.success data w h image1 ⟨hi1, Nat.lt_of_le_of_lt hneed hbf, by omega⟩
    (Nat.le_trans hneed hd) hi (fun k hk => hg k (by omega))
  refine ⟨o1, e1, fun x y hx hy => ?_⟩
  rw [d1.pixel x y hx hy, d2.pixel x y (by omega) (by omega)]
  unfold Spec.pixelAt
  rw [hc]

end

/-- Without overflow checks a BC6H image with a mode-15 block decodes, so that these laws say something
about it. -/
example : ∃ o, @decoder Build.release .bc6u (bc6Mode15 ++ List.replicate 16 0xff) 7 4 (List.replicate 28 0) =
    .ok (.ok (), o) ∧
    (∃ o2, @decoder Build.release .bc6u (bc6Mode15 ++ List.replicate 16 0xff) 7 4 (List.replicate 30 5) =
      .ok (.ok (), o2) ∧ o2.take 28 = o.take 28) ∧
    ∃ o3, @decoder Build.release .bc6u (bc6Mode15 ++ List.replicate 16 0xff) 5 2 (List.replicate 10 5) =
      .ok (.ok (), o3) ∧ o3[1 * 5 + 4]? = o[1 * 7 + 4]? := by
  have hs : Spec.Format.bc6u.SizesOk 7 4 (List.replicate 28 0) := ⟨by decide, by decide, by decide⟩
  obtain ⟨o, e, -⟩ := (C47_bc6_release_as_is false).success (bc6Mode15 ++ List.replicate 16 0xff) 7 4
    (List.replicate 28 0) hs (by decide) (by decide) (fun _ _ => trivial)
  have e : @decoder Build.release .bc6u (bc6Mode15 ++ List.replicate 16 0xff) 7 4 (List.replicate 28 0) =
    .ok (.ok (), o) := e
  letI := Build.release
  obtain ⟨o2, e2, h2⟩ := C07_any_blocks .bc6u _ 7 4 _ (List.replicate 30 5) o hs (by decide) (by decide) e
  obtain ⟨o3, e3, h3⟩ := C08_any_blocks .bc6u _ 5 2 7 4 (List.replicate 10 5) _ o hs (by decide) (by decide)
    (by decide) (by decide) (by decide) e
  exact ⟨o, e, ⟨o2, e2, h2⟩, o3, e3, h3 4 1 (by decide) (by decide)⟩

/-! ## PVRTC -/

section
variable [Build]

/-- **C05** PVRTC: a decode that succeeds is not changed by bytes after the last block. -/
theorem C05_pvrtc (w2 : Bool) (data extra : List UInt8) (w h : Nat) (image out : List UInt32)
    (hok : pvrtc w2 data w h image = .ok (.ok (), out)) :
    pvrtc w2 (data ++ extra) w h image = .ok (.ok (), out) := by
  rw [pvrtc_eq] at hok ⊢
  exact decodePvrtc_grow ⟨extra, rfl⟩ hok

/-- **C07** PVRTC: the previous contents of the image do not matter. -/
theorem C07_pvrtc (w2 : Bool) (data : List UInt8) (w h : Nat) (image1 image2 out1 : List UInt32)
    (hw : w < 2 ^ 64) (hh : h < 2 ^ 64) (hs1 : Spec.SizesOk (Spec.Pvrtc.bw w2) 4 8 w h image1)
    (hi2 : image2.length < 2 ^ 61) (hi : w * h ≤ image2.length)
    (hok : pvrtc w2 data w h image1 = .ok (.ok (), out1)) :
    ∃ out2, pvrtc w2 data w h image2 = .ok (.ok (), out2) ∧
      out2.take (w * h) = out1.take (w * h) := by
  have c1 := C32_as_is w2 data w h image1 hw hh hs1
  have c2 := C32_as_is w2 data w h image2 hw hh ⟨hi2, hs1.bytes_fit, hs1.pixels_fit⟩
  have hbw := Pvrtc.bw_cases w2
  rw [hok, Out.map_ok] at c1
  by_cases k1 : data.length < Spec.numBlocks (Spec.Pvrtc.bw w2) 4 w h * Spec.Pvrtc.bw w2
  · rw [if_pos k1] at c1; cases c1
  rw [if_neg k1] at c1 c2
  by_cases k2 : image1.length < w * h
  · rw [if_pos k2] at c1; cases c1
  rw [if_neg k2] at c1
  rw [if_neg (by omega)] at c2
  by_cases k3 : Build.overflowChecks = true ∧
      (w = 0 ∨ (h = 0 ∧ SideOk (Spec.ceilDiv w (Spec.Pvrtc.bw w2))))
  · rw [if_pos k3] at c1; cases c1
  rw [if_neg k3] at c1 c2
  by_cases k4 : ¬ (SideOk (Spec.ceilDiv w (Spec.Pvrtc.bw w2)) ∧ SideOk (Spec.ceilDiv h 4))
  · rw [if_pos k4] at c1; cases c1
  rw [if_neg k4] at c1 c2
  by_cases k5 : data.length < Spec.bytesNeeded (Spec.Pvrtc.bw w2) 4 8 w h
  · rw [if_pos k5] at c1; cases c1
  rw [if_neg k5] at c2
  by_cases hz : w = 0 ∨ h = 0
  · generalize e2 : pvrtc w2 data w h image2 = x at c2
    cases x with
    | panic => cases c2
    | ok r =>
      obtain ⟨r, out2⟩ := r
      cases c2
      refine ⟨out2, rfl, ?_⟩
      have : w * h = 0 := by rcases hz with rfl | rfl <;> simp
      rw [this]
      rfl
  · have hpos : ∀ n b, 0 < n → 0 < b → Spec.ceilDiv n b ≠ 0 := by
      intro n b hn hb h0
      unfold Spec.ceilDiv at h0
      have := Nat.div_pos (show b ≤ n + b - 1 by omega) hb
      omega
    have k4 := Classical.not_not.mp k4
    have hx := k4.1.resolve_left (hpos _ _ (by omega) (by omega))
    have hy := k4.2.resolve_left (hpos _ _ (by omega) (by omega))
    obtain ⟨o1, e1, d1⟩ := C49_pvrtc_exact w2 data w h image1 hs1 (by omega) (by omega) (by omega)
      (by omega) hx hy
    obtain ⟨o2, e2, d2⟩ := C49_pvrtc_exact w2 data w h image2 ⟨hi2, hs1.bytes_fit, hs1.pixels_fit⟩
      (by omega) (by omega) (by omega) hi hx hy
    rw [hok] at e1
    cases e1
    refine ⟨o2, e2, ?_⟩
    apply List.ext_getElem?
    intro j
    rw [List.getElem?_take, List.getElem?_take]
    split
    · next hj =>
      obtain ⟨x, y, hx, hy, rfl⟩ := pixel_index hj
      rw [d1.pixel x y hx hy, d2.pixel x y hx hy]
    · rfl

/-- One block of PVRTC with 4 bits per pixel. -/
example : ∃ out, pvrtc false (List.replicate 8 0x5a) 4 4 (List.replicate 16 0) = .ok (.ok (), out) ∧
    pvrtc false (List.replicate 8 0x5a ++ [1, 2, 3]) 4 4 (List.replicate 16 0) = .ok (.ok (), out) ∧
    ∃ out2, pvrtc false (List.replicate 8 0x5a) 4 4 (List.replicate 20 9) = .ok (.ok (), out2) ∧
      out2.take 16 = out.take 16 := by
  have hs : Spec.SizesOk (Spec.Pvrtc.bw false) 4 8 4 4 (List.replicate 16 0) :=
    ⟨by decide, by decide, by decide⟩
  obtain ⟨o, e, -⟩ := C49_pvrtc_exact false (List.replicate 8 0x5a) 4 4 (List.replicate 16 0) hs
    (by decide) (by decide) (by decide) (by decide) ⟨0, rfl⟩ ⟨0, rfl⟩
  exact ⟨o, e, C05_pvrtc false _ [1, 2, 3] 4 4 _ _ e, C07_pvrtc false _ 4 4 _ (List.replicate 20 9) _
    (by decide) (by decide) hs (by decide) (by decide) e⟩

/-! ## Crunch -/

/-- A success of `decode_crunch` decodes one and the same buffer of blocks into any image. -/
theorem crunch_same_buffer (file : List UInt8) (hsmall : file.length < 2 ^ 32)
    (w h : Nat) (image image' : List UInt32)
    (hok : Model.Crn.decodeCrunch file w h image = .ok (.ok (), image')) :
    ∃ dxt : List UInt8, dxt.length < 2 ^ 63 ∧ ∀ im, Model.Crn.decodeCrunch file w h im =
      decoder (crunchFormat (Spec.Crn.format file)) dxt w h im := by
  obtain ⟨h74, hhb, hh, hf⟩ := C54_accepted file hsmall w h image image' hok
  unfold Model.Crn.decodeCrunch at hok ⊢
  rw [show asU 32 file.length = file.length from Nat.mod_eq_of_lt hsmall] at hok ⊢
  cases e : Model.Crn.crunchUnpackLevel file file.length 0 with
  | panic => rw [e] at hok; cases hok
  | fail m => rw [e] at hok; injection hok with hok; injection hok with a b; cases a
  | ok r =>
    obtain ⟨hr, hlen⟩ := Proofs.Crn.crunchUnpackLevel_any h74 hhb hh (by omega) r e
    rw [crunchFormat_size hf] at hlen
    have hb := blockCount_lt file
    have hraw : (crunchFormat (Spec.Crn.format file)).blockSize ≤ 16 := by
      generalize crunchFormat (Spec.Crn.format file) = f; cases f <;> decide
    refine ⟨r.dxtData, ?_, fun im => ?_⟩
    · have := Nat.mul_le_mul hraw (Nat.le_of_lt hb)
      omega
    · simp only [hr]
      rw [← crnBlockDecoder_decoder]
      generalize Spec.Crn.format file = n at hf
      have hn : n < 10 := by omega
      match n, hn with
      | 0, _ | 2, _ | 3, _ | 4, _ | 5, _ | 6, _ | 7, _ | 8, _ | 9, _ => rfl
      | 1, _ => omega

/-- **C07** Crunch, any file: the previous contents of the image do not matter. -/
theorem C07_crunch (file : List UInt8) (hsmall : file.length < 2 ^ 32)
    (w h : Nat) (image1 image2 out1 : List UInt32) (hi1 : image1.length < 2 ^ 61)
    (hi2 : image2.length < 2 ^ 61) (hi : w * h ≤ image2.length)
    (hok : Model.Crn.decodeCrunch file w h image1 = .ok (.ok (), out1)) :
    ∃ out2, Model.Crn.decodeCrunch file w h image2 = .ok (.ok (), out2) ∧
      out2.take (w * h) = out1.take (w * h) := by
  obtain ⟨dxt, hl, hd⟩ := crunch_same_buffer file hsmall w h image1 out1 hok
  rw [hd] at hok ⊢
  obtain ⟨h1, h2⟩ := C65_ok_means_sizes_fit _ _ _ _ _ _ hl hi1 hok
  have h3 : (crunchFormat (Spec.Crn.format file)).need w h < 2 ^ 64 := by omega
  exact C07_any_blocks _ _ _ _ _ _ _ ⟨hi1, h3, by omega⟩ hi2 hi hok

/-- A success of `decode_unity_crunch` decodes one and the same buffer of blocks into any image. -/
theorem unity_same_buffer (file : List UInt8) (hsmall : file.length < 2 ^ 32)
    (w h : Nat) (image image' : List UInt32)
    (hok : Model.Crn.Unity.decodeUnityCrunch file w h image = .ok (.ok (), image')) :
    ∃ dxt : List UInt8, dxt.length < 2 ^ 63 ∧ ∀ im, Model.Crn.Unity.decodeUnityCrunch file w h im =
      decoder (unityFormat (Spec.Crn.format file)) dxt w h im := by
  obtain ⟨h74, hhb, hh, hf⟩ := C58_accepted file hsmall w h image image' hok
  unfold Model.Crn.Unity.decodeUnityCrunch at hok ⊢
  rw [show asU 32 file.length = file.length from Nat.mod_eq_of_lt hsmall] at hok ⊢
  cases e : Model.Crn.Unity.unityCrunchUnpackLevel file file.length 0 with
  | panic => rw [e] at hok; cases hok
  | fail m => rw [e] at hok; injection hok with hok; injection hok with a b; cases a
  | ok r =>
    obtain ⟨hr, hlen⟩ := Proofs.Crn.Unity.unityCrunchUnpackLevel_any h74 hhb hh (by omega) r e
    rw [unityFormat_size hf] at hlen
    have hb := blockCount_lt file
    have hraw : (unityFormat (Spec.Crn.format file)).blockSize ≤ 16 := by
      generalize unityFormat (Spec.Crn.format file) = f; cases f <;> decide
    refine ⟨r.dxtData, ?_, fun im => ?_⟩
    · have := Nat.mul_le_mul hraw (Nat.le_of_lt hb)
      omega
    · simp only [hr]
      rw [← unityBlockDecoder_decoder]
      generalize Spec.Crn.format file = n at hf
      have hn : n < 15 := by omega
      match n, hn with
      | 0, _ | 2, _ | 3, _ | 4, _ | 5, _ | 6, _ | 7, _ | 8, _ | 9, _ | 10, _
      | 11, _ | 12, _ | 13, _ | 14, _ => rfl
      | 1, _ => omega

/-- **C07** Unity Crunch, any file: the previous contents of the image do not matter. -/
theorem C07_unity (file : List UInt8) (hsmall : file.length < 2 ^ 32)
    (w h : Nat) (image1 image2 out1 : List UInt32) (hi1 : image1.length < 2 ^ 61)
    (hi2 : image2.length < 2 ^ 61) (hi : w * h ≤ image2.length)
    (hok : Model.Crn.Unity.decodeUnityCrunch file w h image1 = .ok (.ok (), out1)) :
    ∃ out2, Model.Crn.Unity.decodeUnityCrunch file w h image2 = .ok (.ok (), out2) ∧
      out2.take (w * h) = out1.take (w * h) := by
  obtain ⟨dxt, hl, hd⟩ := unity_same_buffer file hsmall w h image1 out1 hok
  rw [hd] at hok ⊢
  obtain ⟨h1, h2⟩ := C65_ok_means_sizes_fit _ _ _ _ _ _ hl hi1 hok
  have h3 : (unityFormat (Spec.Crn.format file)).need w h < 2 ^ 64 := by omega
  exact C07_any_blocks _ _ _ _ _ _ _ ⟨hi1, h3, by omega⟩ hi2 hi hok

/-! ## Every function -/

theorem c05_block (fmt : Spec.Format) (data extra : List UInt8) (w h : Nat) (image out : List UInt32)
    (hd : data.length < 2 ^ 63) (hi : image.length < 2 ^ 61)
    (hok : decoder fmt data w h image = .ok (.ok (), out)) :
    decoder fmt (data ++ extra) w h image = .ok (.ok (), out) := by
  obtain ⟨h1, h2⟩ := C65_ok_means_sizes_fit fmt data w h image out hd hi hok
  have h3 : fmt.need w h < 2 ^ 64 := by omega
  rw [C05_any_blocks fmt data extra w h image ⟨hi, h3, by omega⟩ h1, hok]

theorem c05_astc (bw bh : Nat) (hbw : 0 < bw) (hbh : 0 < bh) (hb : bw * bh ≤ 144)
    (data extra : List UInt8) (w h : Nat) (image out : List UInt32)
    (hd : data.length < 2 ^ 60) (hi : image.length < 2 ^ 61)
    (hok : decodeAstc data w h bw bh image = .ok (.ok (), out)) :
    decodeAstc (data ++ extra) w h bw bh image = .ok (.ok (), out) := by
  obtain ⟨h1, h2⟩ := C65_astc_ok_means_sizes_fit bw bh hbw hbh hb data w h image out hd hi hok
  exact C66_trailing_partial data extra w h bw bh image out hbw hbh hb ⟨hi, by omega, by omega⟩ hok

theorem c07_block (fmt : Spec.Format) (data : List UInt8) (w h : Nat) (image1 image2 out1 : List UInt32)
    (hd : data.length < 2 ^ 63) (hi1 : image1.length < 2 ^ 61) (hi2 : image2.length < 2 ^ 61)
    (hi : w * h ≤ image2.length) (hok : decoder fmt data w h image1 = .ok (.ok (), out1)) :
    ∃ out2, decoder fmt data w h image2 = .ok (.ok (), out2) ∧
      out2.take (w * h) = out1.take (w * h) := by
  obtain ⟨h1, h2⟩ := C65_ok_means_sizes_fit fmt data w h image1 out1 hd hi1 hok
  have h3 : fmt.need w h < 2 ^ 64 := by omega
  exact C07_any_blocks fmt data w h image1 image2 out1 ⟨hi1, h3, by omega⟩ hi2 hi hok

theorem c07_astc (bw bh : Nat) (hbw : 0 < bw) (hbh : 0 < bh) (hb : bw * bh ≤ 144)
    (data : List UInt8) (w h : Nat) (image1 image2 out1 : List UInt32)
    (hd : data.length < 2 ^ 60) (hi1 : image1.length < 2 ^ 61) (hi2 : image2.length < 2 ^ 61)
    (hi : w * h ≤ image2.length) (hok : decodeAstc data w h bw bh image1 = .ok (.ok (), out1)) :
    ∃ out2, decodeAstc data w h bw bh image2 = .ok (.ok (), out2) ∧
      out2.take (w * h) = out1.take (w * h) := by
  obtain ⟨h1, h2⟩ := C65_astc_ok_means_sizes_fit bw bh hbw hbh hb data w h image1 out1 hd hi1 hok
  obtain ⟨o2, e, ht, -⟩ := C66_previous_image data w h bw bh image1 image2 out1 hbw hbh hb
    ⟨hi1, by omega, by omega⟩ hi2 hi hok
  exact ⟨o2, e, ht⟩

theorem c07_pvrtc (w2 : Bool) (data : List UInt8) (w h : Nat) (image1 image2 out1 : List UInt32)
    (hw : w < 2 ^ 64) (hh : h < 2 ^ 64)
    (hd : data.length < 2 ^ 60) (hi1 : image1.length < 2 ^ 61) (hi2 : image2.length < 2 ^ 61)
    (hi : w * h ≤ image2.length) (hok : pvrtc w2 data w h image1 = .ok (.ok (), out1)) :
    ∃ out2, pvrtc w2 data w h image2 = .ok (.ok (), out2) ∧
      out2.take (w * h) = out1.take (w * h) := by
  obtain ⟨h1, h2⟩ := C65_pvrtc_ok_means_sizes_fit w2 data w h image1 out1 hw hh (by omega) hi1 hok
  exact C07_pvrtc w2 data w h image1 image2 out1 hw hh ⟨hi1, by omega, by omega⟩ hi2 hi hok

/-- **C05** All functions but the two for Crunch files, which know the size of their data: a decode that
succeeds is not changed by bytes after the last block. Nothing is assumed about the blocks and the
dimensions. -/
theorem C05_all_functions (fn : PyFn) (hfn : fn ≠ .crunch ∧ fn ≠ .unityCrunch)
    (data extra : List UInt8) (w h : Nat) (image out : List UInt32)
    (hd : data.length < 2 ^ 60) (hi : image.length < 2 ^ 61)
    (hok : rustFn fn data w h image = .ok (.ok (), out)) :
    rustFn fn (data ++ extra) w h image = .ok (.ok (), out) := by
  have hd3 : data.length < 2 ^ 63 := by omega
  revert hok hfn
  exact match fn with
  | .atcRgb4 => fun _ hok => c05_block .atcrgb data extra w h image out hd3 hi hok
  | .atcRgba8 => fun _ hok => c05_block .atcrgba data extra w h image out hd3 hi hok
  | .bc1 => fun _ hok => c05_block .bc1 data extra w h image out hd3 hi hok
  | .bc1a => fun _ hok => c05_block .bc1a data extra w h image out hd3 hi hok
  | .bc2 => fun _ hok => c05_block .bc2 data extra w h image out hd3 hi hok
  | .bc3 => fun _ hok => c05_block .bc3 data extra w h image out hd3 hi hok
  | .bc4 => fun _ hok => c05_block .bc4 data extra w h image out hd3 hi hok
  | .bc5 => fun _ hok => c05_block .bc5 data extra w h image out hd3 hi hok
  | .bc6Signed => fun _ hok => c05_block .bc6s data extra w h image out hd3 hi hok
  | .bc6Unsigned => fun _ hok => c05_block .bc6u data extra w h image out hd3 hi hok
  | .bc7 => fun _ hok => c05_block .bc7 data extra w h image out hd3 hi hok
  | .etc1 => fun _ hok => c05_block .etc1 data extra w h image out hd3 hi hok
  | .etc2Rgb => fun _ hok => c05_block .etc2rgb data extra w h image out hd3 hi hok
  | .etc2Rgba1 => fun _ hok => c05_block .etc2rgba1 data extra w h image out hd3 hi hok
  | .etc2Rgba8 => fun _ hok => c05_block .etc2rgba8 data extra w h image out hd3 hi hok
  | .eacr => fun _ hok => c05_block .eacr data extra w h image out hd3 hi hok
  | .eacrSigned => fun _ hok => c05_block .eacrs data extra w h image out hd3 hi hok
  | .eacrg => fun _ hok => c05_block .eacrg data extra w h image out hd3 hi hok
  | .eacrgSigned => fun _ hok => c05_block .eacrgs data extra w h image out hd3 hi hok
  | .astc4x4 => fun _ hok => c05_astc 4 4 (by decide) (by decide) (by decide)
    data extra w h image out hd hi hok
  | .astc5x4 => fun _ hok => c05_astc 5 4 (by decide) (by decide) (by decide)
    data extra w h image out hd hi hok
  | .astc5x5 => fun _ hok => c05_astc 5 5 (by decide) (by decide) (by decide)
    data extra w h image out hd hi hok
  | .astc6x5 => fun _ hok => c05_astc 6 5 (by decide) (by decide) (by decide)
    data extra w h image out hd hi hok
  | .astc6x6 => fun _ hok => c05_astc 6 6 (by decide) (by decide) (by decide)
    data extra w h image out hd hi hok
  | .astc8x5 => fun _ hok => c05_astc 8 5 (by decide) (by decide) (by decide)
    data extra w h image out hd hi hok
  | .astc8x6 => fun _ hok => c05_astc 8 6 (by decide) (by decide) (by decide)
    data extra w h image out hd hi hok
  | .astc8x8 => fun _ hok => c05_astc 8 8 (by decide) (by decide) (by decide)
    data extra w h image out hd hi hok
  | .astc10x5 => fun _ hok => c05_astc 10 5 (by decide) (by decide) (by decide)
    data extra w h image out hd hi hok
  | .astc10x6 => fun _ hok => c05_astc 10 6 (by decide) (by decide) (by decide)
    data extra w h image out hd hi hok
  | .astc10x8 => fun _ hok => c05_astc 10 8 (by decide) (by decide) (by decide)
    data extra w h image out hd hi hok
  | .astc10x10 => fun _ hok => c05_astc 10 10 (by decide) (by decide) (by decide)
    data extra w h image out hd hi hok
  | .astc12x10 => fun _ hok => c05_astc 12 10 (by decide) (by decide) (by decide)
    data extra w h image out hd hi hok
  | .astc12x12 => fun _ hok => c05_astc 12 12 (by decide) (by decide) (by decide)
    data extra w h image out hd hi hok
  | .pvrtc2bpp => fun _ hok => C05_pvrtc true data extra w h image out hok
  | .pvrtc4bpp => fun _ hok => C05_pvrtc false data extra w h image out hok
  | .crunch => fun h _ => absurd rfl h.1
  | .unityCrunch => fun h _ => absurd rfl h.2

/-- **C07** All functions: if a decode succeeds, it also succeeds into any other image that is large
enough, with the same pixels. Nothing is assumed about the contents of the data and the dimensions. -/
theorem C07_all_functions (fn : PyFn) (data : List UInt8) (w h : Nat)
    (image1 image2 out1 : List UInt32) (hw : w < 2 ^ 64) (hh : h < 2 ^ 64) (hd : data.length < 2 ^ 60)
    (hcrn : fn = .crunch ∨ fn = .unityCrunch → data.length < 2 ^ 32)
    (hi1 : image1.length < 2 ^ 61) (hi2 : image2.length < 2 ^ 61) (hi : w * h ≤ image2.length)
    (hok : rustFn fn data w h image1 = .ok (.ok (), out1)) :
    ∃ out2, rustFn fn data w h image2 = .ok (.ok (), out2) ∧
      out2.take (w * h) = out1.take (w * h) := by
  have hd3 : data.length < 2 ^ 63 := by omega
  revert hok hcrn
  exact match fn with
  | .atcRgb4 => fun _ hok => c07_block .atcrgb data w h image1 image2 out1 hd3 hi1 hi2 hi hok
  | .atcRgba8 => fun _ hok => c07_block .atcrgba data w h image1 image2 out1 hd3 hi1 hi2 hi hok
  | .bc1 => fun _ hok => c07_block .bc1 data w h image1 image2 out1 hd3 hi1 hi2 hi hok
  | .bc1a => fun _ hok => c07_block .bc1a data w h image1 image2 out1 hd3 hi1 hi2 hi hok
  | .bc2 => fun _ hok => c07_block .bc2 data w h image1 image2 out1 hd3 hi1 hi2 hi hok
  | .bc3 => fun _ hok => c07_block .bc3 data w h image1 image2 out1 hd3 hi1 hi2 hi hok
  | .bc4 => fun _ hok => c07_block .bc4 data w h image1 image2 out1 hd3 hi1 hi2 hi hok
  | .bc5 => fun _ hok => c07_block .bc5 data w h image1 image2 out1 hd3 hi1 hi2 hi hok
  | .bc6Signed => fun _ hok => c07_block .bc6s data w h image1 image2 out1 hd3 hi1 hi2 hi hok
  | .bc6Unsigned => fun _ hok => c07_block .bc6u data w h image1 image2 out1 hd3 hi1 hi2 hi hok
  | .bc7 => fun _ hok => c07_block .bc7 data w h image1 image2 out1 hd3 hi1 hi2 hi hok
  | .etc1 => fun _ hok => c07_block .etc1 data w h image1 image2 out1 hd3 hi1 hi2 hi hok
  | .etc2Rgb => fun _ hok => c07_block .etc2rgb data w h image1 image2 out1 hd3 hi1 hi2 hi hok
  | .etc2Rgba1 => fun _ hok => c07_block .etc2rgba1 data w h image1 image2 out1 hd3 hi1 hi2 hi hok
  | .etc2Rgba8 => fun _ hok => c07_block .etc2rgba8 data w h image1 image2 out1 hd3 hi1 hi2 hi hok
  | .eacr => fun _ hok => c07_block .eacr data w h image1 image2 out1 hd3 hi1 hi2 hi hok
  | .eacrSigned => fun _ hok => c07_block .eacrs data w h image1 image2 out1 hd3 hi1 hi2 hi hok
  | .eacrg => fun _ hok => c07_block .eacrg data w h image1 image2 out1 hd3 hi1 hi2 hi hok
  | .eacrgSigned => fun _ hok => c07_block .eacrgs data w h image1 image2 out1 hd3 hi1 hi2 hi hok
  | .astc4x4 => fun _ hok => c07_astc 4 4 (by decide) (by decide) (by decide)
    data w h image1 image2 out1 hd hi1 hi2 hi hok
  | .astc5x4 => fun _ hok => c07_astc 5 4 (by decide) (by decide) (by decide)
    data w h image1 image2 out1 hd hi1 hi2 hi hok
  | .astc5x5 => fun _ hok => c07_astc 5 5 (by decide) (by decide) (by decide)
    data w h image1 image2 out1 hd hi1 hi2 hi hok
  | .astc6x5 => fun _ hok => c07_astc 6 5 (by decide) (by decide) (by decide)
    data w h image1 image2 out1 hd hi1 hi2 hi hok
  | .astc6x6 => fun _ hok => c07_astc 6 6 (by decide) (by decide) (by decide)
    data w h image1 image2 out1 hd hi1 hi2 hi hok
  | .astc8x5 => fun _ hok => c07_astc 8 5 (by decide) (by decide) (by decide)
    data w h image1 image2 out1 hd hi1 hi2 hi hok
  | .astc8x6 => fun _ hok => c07_astc 8 6 (by decide) (by decide) (by decide)
    data w h image1 image2 out1 hd hi1 hi2 hi hok
  | .astc8x8 => fun _ hok => c07_astc 8 8 (by decide) (by decide) (by decide)
    data w h image1 image2 out1 hd hi1 hi2 hi hok
  | .astc10x5 => fun _ hok => c07_astc 10 5 (by decide) (by decide) (by decide)
    data w h image1 image2 out1 hd hi1 hi2 hi hok
  | .astc10x6 => fun _ hok => c07_astc 10 6 (by decide) (by decide) (by decide)
    data w h image1 image2 out1 hd hi1 hi2 hi hok
  | .astc10x8 => fun _ hok => c07_astc 10 8 (by decide) (by decide) (by decide)
    data w h image1 image2 out1 hd hi1 hi2 hi hok
  | .astc10x10 => fun _ hok => c07_astc 10 10 (by decide) (by decide) (by decide)
    data w h image1 image2 out1 hd hi1 hi2 hi hok
  | .astc12x10 => fun _ hok => c07_astc 12 10 (by decide) (by decide) (by decide)
    data w h image1 image2 out1 hd hi1 hi2 hi hok
  | .astc12x12 => fun _ hok => c07_astc 12 12 (by decide) (by decide) (by decide)
    data w h image1 image2 out1 hd hi1 hi2 hi hok
  | .pvrtc2bpp => fun _ hok => c07_pvrtc true data w h image1 image2 out1 hw hh hd hi1 hi2 hi hok
  | .pvrtc4bpp => fun _ hok => c07_pvrtc false data w h image1 image2 out1 hw hh hd hi1 hi2 hi hok
  | .crunch => fun hcrn hok => C07_crunch data (hcrn (.inl rfl)) w h image1 image2 out1 hi1 hi2 hi hok
  | .unityCrunch => fun hcrn hok =>
    C07_unity data (hcrn (.inr rfl)) w h image1 image2 out1 hi1 hi2 hi hok

end

/-- A malformed ASTC block followed by other data, in a build with overflow checks. -/
example : ∃ out, @rustFn Build.debug .astc4x4 (astcOverlong ++ List.replicate 20 0) 4 4
      (List.replicate 16 0) = .ok (.ok (), out) ∧
    @rustFn Build.debug .astc4x4 (astcOverlong ++ List.replicate 20 0 ++ [1, 2, 3]) 4 4
      (List.replicate 16 0) = .ok (.ok (), out) ∧
    ∃ out2, @rustFn Build.debug .astc4x4 (astcOverlong ++ List.replicate 20 0) 4 4
      (List.replicate 18 7) = .ok (.ok (), out2) ∧ out2.take 16 = out.take 16 := by
  obtain ⟨o, e⟩ := C66_trailing_violated.2.2.1
  have e : @rustFn Build.debug .astc4x4 (astcOverlong ++ List.replicate 20 0) 4 4
      (List.replicate 16 0) = .ok (.ok (), o) := e
  letI := Build.debug
  exact ⟨o, e, C05_all_functions .astc4x4 ⟨by decide, by decide⟩ _ [1, 2, 3] 4 4 _ _ (by decide) (by decide) e,
    C07_all_functions .astc4x4 _ 4 4 _ (List.replicate 18 7) _ (by decide) (by decide) (by decide)
      (fun h => by rcases h with h | h <;> cases h) (by decide) (by decide) (by decide) e⟩

/-- A Crunch file of two faces. -/
example : ∃ o1 o2, @rustFn Build.release .crunch CrnDemo.crnFaces 4 8 (List.replicate 40 7) =
    .ok (.ok (), o1) ∧ @rustFn Build.release .crunch CrnDemo.crnFaces 4 8 (List.replicate 32 1) =
    .ok (.ok (), o2) ∧ o2.take 32 = o1.take 32 := by
  letI := Build.release
  have h : Spec.Crn.unpack CrnDemo.crnFaces = some ((Spec.Crn.unpack CrnDemo.crnFaces).getD []) := by
    decide +kernel
  obtain ⟨i, e, _⟩ := C51_pixels CrnDemo.crnFaces _ h
    ⟨by decide +kernel, ⟨by decide +kernel, by decide +kernel, by decide +kernel⟩, by decide +kernel,
      by decide +kernel, by decide +kernel⟩ (List.replicate 40 7) (by decide) (by decide +kernel)
  rw [show Spec.Crn.width CrnDemo.crnFaces = 4 by decide +kernel,
    show Spec.Crn.height CrnDemo.crnFaces = 8 by decide +kernel] at e
  have e : rustFn .crunch CrnDemo.crnFaces 4 8 (List.replicate 40 7) = .ok (.ok (), i) := e
  obtain ⟨o2, e2, h2⟩ := C07_all_functions .crunch CrnDemo.crnFaces 4 8 (List.replicate 40 7)
    (List.replicate 32 1) i (by decide) (by decide) (by decide +kernel) (fun _ => by decide +kernel)
    (by decide) (by decide) (by decide) e
  exact ⟨i, o2, e, e2, h2⟩

end Verif.Props
