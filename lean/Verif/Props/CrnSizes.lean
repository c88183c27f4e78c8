import Verif.Props.Crunch
import Verif.Props.UnityCrunch
import Verif.Props.Oversize
import Verif.Proofs.Crn.UnityAnyFile

/-!
# Properties C10 and C65 for Crunch and Unity Crunch

`decode_crunch` and `decode_unity_crunch` unpack the file and hand the blocks, and the width and the
height of the caller, to the decoder of a block format. For C65 nothing is assumed about the file: it
may be damaged.
-/

namespace Verif.Props

open Verif Verif.Spec.Crn Verif.Proofs Verif.Proofs.Crn

/-- The block format of a format code of a Crunch file. -/
def crunchFormat (format : Nat) : Spec.Format :=
  if format = 0 then .bc1
  else if format = 9 then .bc4
  else if format = 7 ∨ format = 8 then .bc5
  else .bc3

/-- The block format of a format code of a Unity Crunch file. -/
def unityFormat (format : Nat) : Spec.Format :=
  if format = 0 then .bc1
  else if format = 9 then .bc4
  else if format = 7 ∨ format = 8 then .bc5
  else if format = 10 ∨ format = 13 then .etc1
  else if format = 11 then .etc2rgb
  else if format = 12 ∨ format = 14 then .etc2rgba8
  else .bc3

theorem crnBlockDecoder_decoder [Build] (n : Nat) : crnBlockDecoder n = decoder (crunchFormat n) := by
  unfold crnBlockDecoder crunchFormat
  split
  · rfl
  split
  · rfl
  split <;> rfl

theorem unityBlockDecoder_decoder [Build] (n : Nat) :
    unityBlockDecoder n = decoder (unityFormat n) := by
  unfold unityBlockDecoder unityFormat
  split
  · rfl
  split
  · rfl
  split
  · rfl
  split
  · rfl
  split
  · rfl
  split <;> rfl

theorem crunchFormat_legal (n : Nat) (data : List UInt8) (w h : Nat) :
    (crunchFormat n).AllLegal data w h := by
  intro k _
  unfold crunchFormat
  split
  · trivial
  split
  · trivial
  split <;> trivial

theorem unityFormat_legal (n : Nat) (data : List UInt8) (w h : Nat) :
    (unityFormat n).AllLegal data w h := by
  intro k _
  unfold unityFormat
  split
  · trivial
  split
  · trivial
  split
  · trivial
  split
  · trivial
  split
  · trivial
  split <;> trivial

theorem crunchFormat_size {n : Nat} (h : n = 0 ∨ 2 ≤ n ∧ n ≤ 9) :
    bytesPerBlock n = (crunchFormat n).blockSize := by
  have hn : n < 10 := by omega
  match n, hn with
  | 0, _ | 2, _ | 3, _ | 4, _ | 5, _ | 6, _ | 7, _ | 8, _ | 9, _ => rfl
  | 1, _ => omega

theorem unityFormat_size {n : Nat} (h : n = 0 ∨ 2 ≤ n ∧ n ≤ 14) :
    bytesPerBlock n = (unityFormat n).blockSize := by
  have hn : n < 15 := by omega
  match n, hn with
  | 0, _ | 2, _ | 3, _ | 4, _ | 5, _ | 6, _ | 7, _ | 8, _ | 9, _ | 10, _ | 11, _ | 12, _ | 13, _
  | 14, _ => rfl
  | 1, _ => omega

/-- The number of blocks in a file is bounded by its header fields. -/
theorem blockCount_lt (file : List UInt8) : faces file * blocksY file * blocksX file < 2 ^ 37 := by
  have hw : width file < 2 ^ 16 := be_lt file _ 2
  have hh : height file < 2 ^ 16 := be_lt file _ 2
  have hf : faces file < 2 ^ 8 := be_lt file _ 1
  have hx : blocksX file ≤ 2 ^ 14 := by unfold blocksX blocksOf; omega
  have hy : blocksY file ≤ 2 ^ 14 := by unfold blocksY blocksOf; omega
  have h1 := Nat.mul_le_mul (Nat.mul_le_mul (show faces file ≤ 255 by omega) hy) hx
  omega

/-! ## C65 -/

/-- **C65** Crunch, any file: if `decode_crunch` returns `Ok`, then the image was decoded from a buffer
with at most as many blocks as the header of the file announces, and this buffer and the image are
large enough. -/
theorem C65_crunch_ok_means_decoded [Build] (file : List UInt8) (hsmall : file.length < 2 ^ 32)
    (w h : Nat) (image image' : List UInt32) (hi : image.length < 2 ^ 61)
    (hok : Model.Crn.decodeCrunch file w h image = .ok (.ok (), image')) :
    ∃ dxt : List UInt8,
      dxt.length ≤ (crunchFormat (format file)).blockSize *
        (faces file * blocksY file * blocksX file) ∧
      (crunchFormat (format file)).need w h ≤ dxt.length ∧ w * h ≤ image.length ∧
      Spec.IsDecoded 4 4 (crunchFormat (format file)).blockSize (crunchFormat (format file)).texel
        dxt w h image image' := by
  obtain ⟨h74, hhb, hh, hf⟩ := C54_accepted file hsmall w h image image' hok
  unfold Model.Crn.decodeCrunch at hok
  rw [show asU 32 file.length = file.length from Nat.mod_eq_of_lt hsmall] at hok
  cases e : Model.Crn.crunchUnpackLevel file file.length 0 with
  | panic => rw [e] at hok; cases hok
  | fail m => rw [e] at hok; injection hok with hok; injection hok with a b; cases a
  | ok r =>
    rw [e] at hok
    obtain ⟨hr, hlen⟩ := crunchUnpackLevel_any h74 hhb hh (by omega) r e
    rw [crunchFormat_size hf] at hlen
    have hok : decoder (crunchFormat (format file)) r.dxtData w h image = .ok (.ok (), image') := by
      simp only [hr] at hok
      rw [← crnBlockDecoder_decoder]
      generalize format file = n at hok hf
      have hn : n < 10 := by omega
      match n, hn with
      | 0, _ | 2, _ | 3, _ | 4, _ | 5, _ | 6, _ | 7, _ | 8, _ | 9, _ => exact hok
      | 1, _ => omega
    have hb := blockCount_lt file
    have hraw : (crunchFormat (format file)).blockSize ≤ 16 := by
      generalize crunchFormat (format file) = f; cases f <;> decide
    have hl63 : r.dxtData.length < 2 ^ 63 := by
      have := Nat.mul_le_mul hraw (Nat.le_of_lt hb)
      omega
    obtain ⟨h1, h2⟩ := C65_ok_means_sizes_fit _ _ _ _ _ _ hl63 hi hok
    exact ⟨r.dxtData, hlen, h1, h2, C65_ok_means_decoded _ _ _ _ _ _ hl63 hi
      (crunchFormat_legal _ _ _ _) hok⟩

/-- **C65** Crunch, any file: if `decode_crunch` returns `Ok`, then the requested size needs no more
blocks than the header of the file announces, and the image buffer holds the pixels. -/
theorem C65_crunch_ok_means_sizes_fit [Build] (file : List UInt8) (hsmall : file.length < 2 ^ 32)
    (w h : Nat) (image image' : List UInt32) (hi : image.length < 2 ^ 61)
    (hok : Model.Crn.decodeCrunch file w h image = .ok (.ok (), image')) :
    Spec.numBlocks 4 4 w h ≤ faces file * blocksY file * blocksX file ∧ w * h ≤ image.length := by
  obtain ⟨dxt, h1, h2, h3, -⟩ := C65_crunch_ok_means_decoded file hsmall w h image image' hi hok
  refine ⟨?_, h3⟩
  have h4 := Nat.le_trans h2 h1
  unfold Spec.Format.need Spec.bytesNeeded at h4
  rw [Nat.mul_comm] at h4
  exact Nat.le_of_mul_le_mul_left h4 (blockSize_pos _)

/-- **C65** Unity Crunch, any file: if `decode_unity_crunch` returns `Ok`, then the image was decoded
from a buffer with at most as many blocks as the header of the file announces, and this buffer and the
image are large enough. -/
theorem C65_unity_ok_means_decoded [Build] (file : List UInt8) (hsmall : file.length < 2 ^ 32)
    (w h : Nat) (image image' : List UInt32) (hi : image.length < 2 ^ 61)
    (hok : Model.Crn.Unity.decodeUnityCrunch file w h image = .ok (.ok (), image')) :
    ∃ dxt : List UInt8,
      dxt.length ≤ (unityFormat (format file)).blockSize *
        (faces file * blocksY file * blocksX file) ∧
      (unityFormat (format file)).need w h ≤ dxt.length ∧ w * h ≤ image.length ∧
      Spec.IsDecoded 4 4 (unityFormat (format file)).blockSize (unityFormat (format file)).texel
        dxt w h image image' := by
  obtain ⟨h74, hhb, hh, hf⟩ := C58_accepted file hsmall w h image image' hok
  unfold Model.Crn.Unity.decodeUnityCrunch at hok
  rw [show asU 32 file.length = file.length from Nat.mod_eq_of_lt hsmall] at hok
  cases e : Model.Crn.Unity.unityCrunchUnpackLevel file file.length 0 with
  | panic => rw [e] at hok; cases hok
  | fail m => rw [e] at hok; injection hok with hok; injection hok with a b; cases a
  | ok r =>
    rw [e] at hok
    obtain ⟨hr, hlen⟩ := Proofs.Crn.Unity.unityCrunchUnpackLevel_any h74 hhb hh (by omega) r e
    rw [unityFormat_size hf] at hlen
    have hok : decoder (unityFormat (format file)) r.dxtData w h image = .ok (.ok (), image') := by
      simp only [hr] at hok
      rw [← unityBlockDecoder_decoder]
      generalize format file = n at hok hf
      have hn : n < 15 := by omega
      match n, hn with
      | 0, _ | 2, _ | 3, _ | 4, _ | 5, _ | 6, _ | 7, _ | 8, _ | 9, _ | 10, _ | 11, _ | 12, _ | 13, _
      | 14, _ => exact hok
      | 1, _ => omega
    have hb := blockCount_lt file
    have hraw : (unityFormat (format file)).blockSize ≤ 16 := by
      generalize unityFormat (format file) = f; cases f <;> decide
    have hl63 : r.dxtData.length < 2 ^ 63 := by
      have := Nat.mul_le_mul hraw (Nat.le_of_lt hb)
      omega
    obtain ⟨h1, h2⟩ := C65_ok_means_sizes_fit _ _ _ _ _ _ hl63 hi hok
    exact ⟨r.dxtData, hlen, h1, h2, C65_ok_means_decoded _ _ _ _ _ _ hl63 hi
      (unityFormat_legal _ _ _ _) hok⟩

/-- **C65** Unity Crunch, any file: if `decode_unity_crunch` returns `Ok`, then the requested size needs
no more blocks than the header of the file announces, and the image buffer holds the pixels. -/
theorem C65_unity_ok_means_sizes_fit [Build] (file : List UInt8) (hsmall : file.length < 2 ^ 32)
    (w h : Nat) (image image' : List UInt32) (hi : image.length < 2 ^ 61)
    (hok : Model.Crn.Unity.decodeUnityCrunch file w h image = .ok (.ok (), image')) :
    Spec.numBlocks 4 4 w h ≤ faces file * blocksY file * blocksX file ∧ w * h ≤ image.length := by
  obtain ⟨dxt, h1, h2, h3, -⟩ := C65_unity_ok_means_decoded file hsmall w h image image' hi hok
  refine ⟨?_, h3⟩
  have h4 := Nat.le_trans h2 h1
  unfold Spec.Format.need Spec.bytesNeeded at h4
  rw [Nat.mul_comm] at h4
  exact Nat.le_of_mul_le_mul_left h4 (blockSize_pos _)

/-- A file of two faces of 4×8 texels, four blocks, can be decoded as one image of 16×4 pixels, but
nothing that needs a fifth block. -/
example [Build] (image image' : List UInt32) (hi : image.length < 2 ^ 61) :
    Model.Crn.decodeCrunch CrnDemo.crnFaces 17 4 image ≠ .ok (.ok (), image') := by
  intro h
  have := (C65_crunch_ok_means_sizes_fit CrnDemo.crnFaces (by decide +kernel) 17 4 image image' hi h).1
  exact absurd this (by decide +kernel)

example : ∃ image', @Model.Crn.decodeCrunch Build.release CrnDemo.crnFaces 16 4 (List.replicate 64 0)
    = .ok (.ok (), image') := by
  letI := Build.release
  have h : unpack CrnDemo.crnFaces = some ((unpack CrnDemo.crnFaces).getD []) := by decide +kernel
  rw [C51_blocks CrnDemo.crnFaces _ h
    ⟨by decide +kernel, ⟨by decide +kernel, by decide +kernel, by decide +kernel⟩, by decide +kernel,
      by decide +kernel, by decide +kernel⟩]
  obtain ⟨i, e, _⟩ := (crnBlockDecoder_decodes (format CrnDemo.crnFaces)).success
    ((unpack CrnDemo.crnFaces).getD []) 16 4 (List.replicate 64 0)
    ⟨by decide, by decide +kernel, by decide⟩ (by decide +kernel) (by decide) (fun _ _ => trivial)
  exact ⟨i, e⟩

/-! ## C10 -/

/-- **C10** (violated, Crunch) With overflow checks: a file is decoded without a panic if, and only if,
the number of bytes of the blocks of the requested size fits in `usize`. -/
theorem C10_crunch_debug (file dxt : List UInt8) (hu : unpack file = some dxt) (hl : Limits file)
    (w h : Nat) (image : List UInt32) (hi : image.length < 2 ^ 61) :
    @Model.Crn.decodeCrunch Build.debug file w h image = .panic ↔
      2 ^ 64 ≤ (crunchFormat (format file)).need w h := by
  rw [@C51_blocks Build.debug file dxt hu hl, @crnBlockDecoder_decoder Build.debug]
  obtain ⟨_, hf, hlen⟩ := @crunchUnpackLevel_ok Build.debug _ _ hu hl
  have hb := hl.big
  exact C10_exact_debug _ _ _ _ _ (by rw [hlen]; split <;> omega) hi (crunchFormat_legal _ _ _ _)

/-- **C10** (violated, Crunch) Without overflow checks: the same, as long as the checks see the products
modulo `2 ^ 64`. -/
theorem C10_crunch_release (file dxt : List UInt8) (hu : unpack file = some dxt) (hl : Limits file)
    (w h : Nat) (image : List UInt32) (hi : image.length < 2 ^ 61) :
    @Model.Crn.decodeCrunch Build.release file w h image = .panic ↔
      2 ^ 64 ≤ (crunchFormat (format file)).need w h ∧
      (crunchFormat (format file)).need w h % 2 ^ 64 ≤ dxt.length ∧
      w * h % 2 ^ 64 ≤ image.length := by
  rw [@C51_blocks Build.release file dxt hu hl, @crnBlockDecoder_decoder Build.release]
  obtain ⟨_, hf, hlen⟩ := @crunchUnpackLevel_ok Build.release _ _ hu hl
  have hb := hl.big
  exact C10_exact_release _ _ _ _ _ (by rw [hlen]; split <;> omega) hi (crunchFormat_legal _ _ _ _)

/-- **C10** (violated, Unity Crunch) With overflow checks. -/
theorem C10_unity_debug (file dxt : List UInt8) (hu : Unity.unpack file = some dxt)
    (hl : Limits file) (hodd : blocksX file % 2 = 0) (w h : Nat) (image : List UInt32)
    (hi : image.length < 2 ^ 61) :
    @Model.Crn.Unity.decodeUnityCrunch Build.debug file w h image = .panic ↔
      2 ^ 64 ≤ (unityFormat (format file)).need w h := by
  rw [@C55_blocks Build.debug file dxt hu hl (.inr hodd), @unityBlockDecoder_decoder Build.debug]
  obtain ⟨_, hf, hlen⟩ := @Proofs.Crn.Unity.unityCrunchUnpackLevel_ok Build.debug _ _ hu hl (.inr hodd)
  have hb := hl.big
  have hl63 : dxt.length < 2 ^ 63 := by
    rw [hlen]; unfold Proofs.Crn.Unity.wordsOf; split <;> omega
  exact C10_exact_debug _ _ _ _ _ hl63 hi (unityFormat_legal _ _ _ _)

/-- **C10** (violated, Unity Crunch) Without overflow checks. -/
theorem C10_unity_release (file dxt : List UInt8) (hu : Unity.unpack file = some dxt)
    (hl : Limits file) (w h : Nat) (image : List UInt32) (hi : image.length < 2 ^ 61) :
    @Model.Crn.Unity.decodeUnityCrunch Build.release file w h image = .panic ↔
      2 ^ 64 ≤ (unityFormat (format file)).need w h ∧
      (unityFormat (format file)).need w h % 2 ^ 64 ≤ dxt.length ∧
      w * h % 2 ^ 64 ≤ image.length := by
  rw [@C55_blocks Build.release file dxt hu hl (.inl rfl), @unityBlockDecoder_decoder Build.release]
  obtain ⟨_, hf, hlen⟩ := @Proofs.Crn.Unity.unityCrunchUnpackLevel_ok Build.release _ _ hu hl (.inl rfl)
  have hb := hl.big
  have hl63 : dxt.length < 2 ^ 63 := by
    rw [hlen]; unfold Proofs.Crn.Unity.wordsOf; split <;> omega
  exact C10_exact_release _ _ _ _ _ hl63 hi (unityFormat_legal _ _ _ _)

/-- A DXT1 file and `2^32 × 2^34` pixels: a panic in both builds. -/
example : @Model.Crn.decodeCrunch Build.debug CrnDemo.crnDxt1 (2 ^ 32) (2 ^ 34) [] = .panic ∧
    @Model.Crn.decodeCrunch Build.release CrnDemo.crnDxt1 (2 ^ 32) (2 ^ 34) [] = .panic := by
  have h : unpack CrnDemo.crnDxt1 = some ((unpack CrnDemo.crnDxt1).getD []) := by decide +kernel
  have hl : Limits CrnDemo.crnDxt1 :=
    ⟨by decide +kernel, ⟨by decide +kernel, by decide +kernel, by decide +kernel⟩, by decide +kernel,
      by decide +kernel, by decide +kernel⟩
  have hf : format CrnDemo.crnDxt1 = 0 := by decide +kernel
  constructor
  · rw [C10_crunch_debug _ _ h hl _ _ _ (by decide), hf]; decide
  · rw [C10_crunch_release _ _ h hl _ _ _ (by decide), hf]
    exact ⟨by decide, Nat.zero_le _, by decide⟩

/-- The conditions hold for a Unity Crunch file. -/
example : Limits UnityDemo.uDxt1 ∧ (Unity.unpack UnityDemo.uDxt1).isSome ∧
    blocksX UnityDemo.uDxt1 % 2 = 0 :=
  ⟨⟨by decide +kernel, ⟨by decide +kernel, by decide +kernel, by decide +kernel⟩, by decide +kernel,
    by decide +kernel, by decide +kernel⟩, by decide +kernel, by decide +kernel⟩

end Verif.Props
