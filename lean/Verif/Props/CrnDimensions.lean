import Verif.Props.CrnSizes

/-!
# Property C79: Crunch files are decoded at their own size only (violated)
-/

namespace Verif.Props

open Verif Verif.Spec.Crn Verif.Proofs Verif.Proofs.Crn

section
variable [Build]

/-- What the block decoders do with the blocks of a file and the dimensions of the caller. -/
theorem blocks_at_size (fmt : Spec.Format) (hlegal : ∀ data w h, fmt.AllLegal data w h)
    (dxt : List UInt8) (hlen : dxt.length < 2 ^ 60)
    (w h : Nat) (image : List UInt32) (himg : image.length < 2 ^ 61)
    (h1 : fmt.need w h ≤ dxt.length) (h2 : w * h ≤ image.length) :
    ∃ image', decoder fmt dxt w h image = .ok (.ok (), image') ∧
      Spec.IsDecoded 4 4 fmt.blockSize fmt.texel dxt w h image image' :=
  (decoder_spec fmt).success dxt w h image
    ⟨himg, Nat.lt_of_le_of_lt (Nat.le_trans h1 (Nat.le_of_lt hlen)) (by decide), by omega⟩ h1 h2
    (hlegal _ _ _)

omit [Build] in
theorem own_blocks {file : List UInt8} (hl : Limits file) :
    Spec.numBlocks 4 4 (width file) (height file) ≤ faces file * blocksY file * blocksX file := by
  have hx : Spec.ceilDiv (width file) 4 ≤ blocksX file := by
    unfold Spec.ceilDiv blocksX blocksOf; omega
  have hy : Spec.ceilDiv (height file) 4 ≤ blocksY file := by
    unfold Spec.ceilDiv blocksY blocksOf; omega
  unfold Spec.numBlocks
  have h1 := Nat.mul_le_mul hx hy
  have h2 : blocksY file * blocksX file ≤ faces file * (blocksY file * blocksX file) :=
    Nat.le_mul_of_pos_left _ hl.faces
  rw [Nat.mul_comm (blocksX file)] at h1
  rw [Nat.mul_assoc]
  omega

theorem crunch_unpacked_length {file dxt : List UInt8} (hu : unpack file = some dxt) (hl : Limits file) :
    dxt.length = (crunchFormat (format file)).blockSize * (faces file * blocksY file * blocksX file) ∧
      dxt.length < 2 ^ 60 := by
  obtain ⟨_, hf, hlen⟩ := crunchUnpackLevel_ok hu hl
  have hb := hl.big
  refine ⟨?_, by rw [hlen]; split <;> omega⟩
  rw [hlen]
  congr 1
  generalize format file = n at hf
  have hn : n < 10 := by omega
  match n, hn with
  | 0, _ | 2, _ | 3, _ | 4, _ | 5, _ | 6, _ | 7, _ | 8, _ | 9, _ => rfl
  | 1, _ => omega

theorem unity_unpacked_length {file dxt : List UInt8} (hu : Unity.unpack file = some dxt)
    (hl : Limits file) (hodd : Build.overflowChecks = false ∨ blocksX file % 2 = 0) :
    dxt.length = (unityFormat (format file)).blockSize * (faces file * blocksY file * blocksX file) ∧
      dxt.length < 2 ^ 60 := by
  obtain ⟨_, hf, hlen⟩ := Proofs.Crn.Unity.unityCrunchUnpackLevel_ok hu hl hodd
  have hb := hl.big
  refine ⟨?_, by rw [hlen]; unfold Proofs.Crn.Unity.wordsOf; split <;> omega⟩
  rw [hlen]
  congr 1
  unfold Proofs.Crn.Unity.Known at hf
  generalize format file = n at hf
  have hn : n < 15 := by omega
  match n, hn with
  | 0, _ | 2, _ | 3, _ | 4, _ | 5, _ | 6, _ | 7, _ | 8, _ | 9, _ | 10, _ | 11, _ | 12, _ | 13, _
  | 14, _ => rfl
  | 1, _ => omega

/-! ## `decode_crunch` -/

/-- **C79, violated.** Whatever dimensions the caller passes, a file is decoded at them if it has blocks
enough; its own dimensions play no part. -/
theorem C79_crunch_any_size (file dxt : List UInt8) (hu : unpack file = some dxt) (hl : Limits file)
    (w h : Nat) (hfit : Spec.numBlocks 4 4 w h ≤ faces file * blocksY file * blocksX file)
    (image : List UInt32) (himg : image.length < 2 ^ 61) (hroom : w * h ≤ image.length) :
    ∃ image', Model.Crn.decodeCrunch file w h image = .ok (.ok (), image') ∧
      Spec.IsDecoded 4 4 (crunchFormat (format file)).blockSize (crunchFormat (format file)).texel dxt w h image
        image' := by
  rw [C51_blocks file dxt hu hl, crnBlockDecoder_decoder]
  obtain ⟨hlen, hsmall⟩ := crunch_unpacked_length hu hl
  refine blocks_at_size _ (crunchFormat_legal _) dxt hsmall w h image himg ?_ hroom
  show Spec.numBlocks 4 4 w h * _ ≤ _
  rw [hlen, Nat.mul_comm]
  exact Nat.mul_le_mul_left _ hfit

/-- **C79** (what holds) Dimensions that need more blocks than the file has are refused. -/
theorem C79_crunch_too_large_partial (file dxt : List UInt8) (hu : unpack file = some dxt)
    (hl : Limits file) (w h : Nat)
    (hlarge : faces file * blocksY file * blocksX file < Spec.numBlocks 4 4 w h)
    (image : List UInt32) (hs : (crunchFormat (format file)).SizesOk w h image) :
    Model.Crn.decodeCrunch file w h image = .ok (.error "Not enough data to decode image!", image) := by
  rw [C51_blocks file dxt hu hl, crnBlockDecoder_decoder]
  obtain ⟨hlen, _⟩ := crunch_unpacked_length hu hl
  refine (decoder_spec _).not_enough_data _ _ _ _ hs ?_
  show _ < Spec.numBlocks 4 4 w h * _
  rw [hlen, Nat.mul_comm]
  exact Nat.mul_lt_mul_of_pos_right hlarge (by generalize crunchFormat (format file) = f; cases f <;> decide)

/-- **C79** (what holds) If the caller's width gives the same number of block columns as the file's own
width, the image is what the own size gives, cut off (or filled up from the blocks). -/
theorem C79_crunch_crop_partial (file dxt : List UInt8) (hu : unpack file = some dxt)
    (hl : Limits file) (w h : Nat)
    (hw : Spec.ceilDiv w 4 = Spec.ceilDiv (width file) 4) (image image' out out' : List UInt32)
    (himg : image.length < 2 ^ 61) (himg' : image'.length < 2 ^ 61)
    (hroom : width file * height file ≤ image.length) (hroom' : w * h ≤ image'.length)
    (hfit : Spec.numBlocks 4 4 w h ≤ faces file * blocksY file * blocksX file)
    (hok : Model.Crn.decodeCrunch file (width file) (height file) image = .ok (.ok (), out))
    (hok' : Model.Crn.decodeCrunch file w h image' = .ok (.ok (), out'))
    (x y : Nat) (hx : x < w) (hx' : x < width file) (hy : y < h) (hy' : y < height file) :
    out'[y * w + x]? = out[y * width file + x]? := by
  obtain ⟨o, e, d⟩ := C79_crunch_any_size file dxt hu hl _ _ (own_blocks hl) image himg hroom
  obtain ⟨o', e', d'⟩ := C79_crunch_any_size file dxt hu hl w h hfit image' himg' hroom'
  rw [hok] at e; injection e with e; injection e with _ e; subst e
  rw [hok'] at e'; injection e' with e'; injection e' with _ e'; subst e'
  rw [d.pixel x y hx' hy', d'.pixel x y hx hy]
  unfold Spec.pixelAt
  rw [hw]

/-! ## `decode_unity_crunch` -/

/-- **C79, violated.** Whatever dimensions the caller passes, a file is decoded at them if it has blocks
enough; its own dimensions play no part. -/
theorem C79_unity_any_size (file dxt : List UInt8) (hu : Unity.unpack file = some dxt) (hl : Limits file)
    (hodd : Build.overflowChecks = false ∨ blocksX file % 2 = 0)
    (w h : Nat) (hfit : Spec.numBlocks 4 4 w h ≤ faces file * blocksY file * blocksX file)
    (image : List UInt32) (himg : image.length < 2 ^ 61) (hroom : w * h ≤ image.length) :
    ∃ image', Model.Crn.Unity.decodeUnityCrunch file w h image = .ok (.ok (), image') ∧
      Spec.IsDecoded 4 4 (unityFormat (format file)).blockSize (unityFormat (format file)).texel dxt w h image
        image' := by
  rw [C55_blocks file dxt hu hl hodd, unityBlockDecoder_decoder]
  obtain ⟨hlen, hsmall⟩ := unity_unpacked_length hu hl hodd
  refine blocks_at_size _ (unityFormat_legal _) dxt hsmall w h image himg ?_ hroom
  show Spec.numBlocks 4 4 w h * _ ≤ _
  rw [hlen, Nat.mul_comm]
  exact Nat.mul_le_mul_left _ hfit

/-- **C79** (what holds) Dimensions that need more blocks than the file has are refused. -/
theorem C79_unity_too_large_partial (file dxt : List UInt8) (hu : Unity.unpack file = some dxt)
    (hl : Limits file)
    (hodd : Build.overflowChecks = false ∨ blocksX file % 2 = 0) (w h : Nat)
    (hlarge : faces file * blocksY file * blocksX file < Spec.numBlocks 4 4 w h)
    (image : List UInt32) (hs : (unityFormat (format file)).SizesOk w h image) :
    Model.Crn.Unity.decodeUnityCrunch file w h image = .ok (.error "Not enough data to decode image!", image) := by
  rw [C55_blocks file dxt hu hl hodd, unityBlockDecoder_decoder]
  obtain ⟨hlen, _⟩ := unity_unpacked_length hu hl hodd
  refine (decoder_spec _).not_enough_data _ _ _ _ hs ?_
  show _ < Spec.numBlocks 4 4 w h * _
  rw [hlen, Nat.mul_comm]
  exact Nat.mul_lt_mul_of_pos_right hlarge (by generalize unityFormat (format file) = f; cases f <;> decide)

/-- **C79** (what holds) If the caller's width gives the same number of block columns as the file's own
width, the image is what the own size gives, cut off (or filled up from the blocks). -/
theorem C79_unity_crop_partial (file dxt : List UInt8) (hu : Unity.unpack file = some dxt)
    (hl : Limits file)
    (hodd : Build.overflowChecks = false ∨ blocksX file % 2 = 0) (w h : Nat)
    (hw : Spec.ceilDiv w 4 = Spec.ceilDiv (width file) 4) (image image' out out' : List UInt32)
    (himg : image.length < 2 ^ 61) (himg' : image'.length < 2 ^ 61)
    (hroom : width file * height file ≤ image.length) (hroom' : w * h ≤ image'.length)
    (hfit : Spec.numBlocks 4 4 w h ≤ faces file * blocksY file * blocksX file)
    (hok : Model.Crn.Unity.decodeUnityCrunch file (width file) (height file) image = .ok (.ok (), out))
    (hok' : Model.Crn.Unity.decodeUnityCrunch file w h image' = .ok (.ok (), out'))
    (x y : Nat) (hx : x < w) (hx' : x < width file) (hy : y < h) (hy' : y < height file) :
    out'[y * w + x]? = out[y * width file + x]? := by
  obtain ⟨o, e, d⟩ := C79_unity_any_size file dxt hu hl hodd _ _ (own_blocks hl) image himg hroom
  obtain ⟨o', e', d'⟩ := C79_unity_any_size file dxt hu hl hodd w h hfit image' himg' hroom'
  rw [hok] at e; injection e with e; injection e with _ e; subst e
  rw [hok'] at e'; injection e' with e'; injection e' with _ e'; subst e'
  rw [d.pixel x y hx' hy', d'.pixel x y hx hy]
  unfold Spec.pixelAt
  rw [hw]

end

/-! ## Witnesses -/

/-- **C79, violated.** A file of 12 × 9 texels (3 × 3 blocks) is decoded as an image of 4 × 36 pixels, in
both builds; the pixel (0, 4) is then another one. -/
theorem C79_crunch_violated : ∃ file, (unpack file).isSome ∧ Limits file ∧
    width file ≠ 4 ∧ height file ≠ 36 ∧ ∀ b : Build, ∃ own other,
      @Model.Crn.decodeCrunch b file (width file) (height file) (List.replicate 144 0)
        = .ok (.ok (), own) ∧
      @Model.Crn.decodeCrunch b file 4 36 (List.replicate 144 0) = .ok (.ok (), other) ∧
      other[4 * 4 + 0]? ≠ own[4 * width file + 0]? := by
  have hsome : (unpack CrnDemo.crnDxt1).isSome := by decide +kernel
  obtain ⟨dxt, hu⟩ := Option.isSome_iff_exists.1 hsome
  have hl : Limits CrnDemo.crnDxt1 := ⟨by decide +kernel, ⟨by decide +kernel, by decide +kernel,
    by decide +kernel⟩, by decide +kernel, by decide +kernel, by decide +kernel⟩
  have hi : (List.replicate 144 (0 : UInt32)).length < 2 ^ 61 := by
    rw [List.length_replicate]; decide
  refine ⟨CrnDemo.crnDxt1, hsome, hl, by decide +kernel, by decide +kernel, fun b => ?_⟩
  obtain ⟨o, e, d⟩ := C79_crunch_any_size CrnDemo.crnDxt1 dxt hu hl (width CrnDemo.crnDxt1)
    (height CrnDemo.crnDxt1) (own_blocks hl) (List.replicate 144 0) hi (by decide +kernel)
  obtain ⟨o', e', d'⟩ := C79_crunch_any_size CrnDemo.crnDxt1 dxt hu hl 4 36 (by decide +kernel)
    (List.replicate 144 0) hi (by decide +kernel)
  refine ⟨o, o', e, e', ?_⟩
  rw [d.pixel 0 4 (by decide +kernel) (by decide +kernel), d'.pixel 0 4 (by decide) (by decide)]
  have hd : dxt = (unpack CrnDemo.crnDxt1).getD [] := by rw [hu]; rfl
  rw [hd]
  decide +kernel

/-- **C79, violated.** A Unity file of 13 × 9 texels (4 × 3 blocks) is decoded as an image of 4 × 48 pixels,
in both builds; the pixel (0, 4) is then another one. -/
theorem C79_unity_violated : ∃ file, (Unity.unpack file).isSome ∧ Limits file ∧
    width file ≠ 4 ∧ height file ≠ 48 ∧ ∀ b : Build, ∃ own other,
      @Model.Crn.Unity.decodeUnityCrunch b file (width file) (height file) (List.replicate 192 0)
        = .ok (.ok (), own) ∧
      @Model.Crn.Unity.decodeUnityCrunch b file 4 48 (List.replicate 192 0) = .ok (.ok (), other) ∧
      other[4 * 4 + 0]? ≠ own[4 * width file + 0]? := by
  have hsome : (Unity.unpack UnityDemo.uDxt1).isSome := by decide +kernel
  obtain ⟨dxt, hu⟩ := Option.isSome_iff_exists.1 hsome
  have hl : Limits UnityDemo.uDxt1 := ⟨by decide +kernel, ⟨by decide +kernel, by decide +kernel,
    by decide +kernel⟩, by decide +kernel, by decide +kernel, by decide +kernel⟩
  have hi : (List.replicate 192 (0 : UInt32)).length < 2 ^ 61 := by
    rw [List.length_replicate]; decide
  refine ⟨UnityDemo.uDxt1, hsome, hl, by decide +kernel, by decide +kernel, fun b => ?_⟩
  obtain ⟨o, e, d⟩ := C79_unity_any_size UnityDemo.uDxt1 dxt hu hl (.inr (by decide +kernel)) (width UnityDemo.uDxt1)
    (height UnityDemo.uDxt1) (own_blocks hl) (List.replicate 192 0) hi (by decide +kernel)
  obtain ⟨o', e', d'⟩ := C79_unity_any_size UnityDemo.uDxt1 dxt hu hl (.inr (by decide +kernel)) 4 48 (by decide +kernel)
    (List.replicate 192 0) hi (by decide +kernel)
  refine ⟨o, o', e, e', ?_⟩
  rw [d.pixel 0 4 (by decide +kernel) (by decide +kernel), d'.pixel 0 4 (by decide) (by decide)]
  have hd : dxt = (Unity.unpack UnityDemo.uDxt1).getD [] := by rw [hu]; rfl
  rw [hd]
  decide +kernel

/-! ## The hypotheses hold -/

/-- The sizes that are refused, and the sizes that crop: 12 × 13 pixels need 12 blocks, 10 × 5 need the
3 columns of the file. -/
example : (unpack CrnDemo.crnDxt1).isSome ∧
    faces CrnDemo.crnDxt1 * blocksY CrnDemo.crnDxt1 * blocksX CrnDemo.crnDxt1 < Spec.numBlocks 4 4 12 13 ∧
    (crunchFormat (format CrnDemo.crnDxt1)).SizesOk 12 13 (List.replicate 156 0) ∧
    Spec.ceilDiv 10 4 = Spec.ceilDiv (width CrnDemo.crnDxt1) 4 ∧
    Spec.numBlocks 4 4 10 5
      ≤ faces CrnDemo.crnDxt1 * blocksY CrnDemo.crnDxt1 * blocksX CrnDemo.crnDxt1 :=
  ⟨by decide +kernel, by decide +kernel,
    ⟨by rw [List.length_replicate]; decide, by decide +kernel, by decide⟩, by decide +kernel,
    by decide +kernel⟩

/-- The same for the Unity file of 4 × 3 blocks: 13 × 13 pixels need 16 blocks, 15 × 7 need its 4
columns. -/
example : (Unity.unpack UnityDemo.uDxt1).isSome ∧ blocksX UnityDemo.uDxt1 % 2 = 0 ∧
    faces UnityDemo.uDxt1 * blocksY UnityDemo.uDxt1 * blocksX UnityDemo.uDxt1
      < Spec.numBlocks 4 4 13 13 ∧
    (unityFormat (format UnityDemo.uDxt1)).SizesOk 13 13 (List.replicate 169 0) ∧
    Spec.ceilDiv 15 4 = Spec.ceilDiv (width UnityDemo.uDxt1) 4 ∧
    Spec.numBlocks 4 4 15 7
      ≤ faces UnityDemo.uDxt1 * blocksY UnityDemo.uDxt1 * blocksX UnityDemo.uDxt1 :=
  ⟨by decide +kernel, by decide +kernel, by decide +kernel,
    ⟨by rw [List.length_replicate]; decide, by decide +kernel, by decide⟩, by decide +kernel,
    by decide +kernel⟩

end Verif.Props
