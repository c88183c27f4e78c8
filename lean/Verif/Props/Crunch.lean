import Verif.Proofs.Crn.File
import Verif.Proofs.Crn.OddFaces
import Verif.Props.Bcn

/-!
# Properties of `decode_crunch` (C51, C52, C53)

`Spec.Crn.unpack file` are the bytes of the DXT blocks that the Crunch file holds
(Spec/CrnFile.lean). The demo files below were made by an encoder written for this purpose.
-/

namespace Verif.Props

open Verif Verif.Spec.Crn Verif.Proofs.Crn

namespace CrnDemo

/-- A DXT1 texture of 12×9 texels, 3×3 blocks. -/
def crnDxt1 : List UInt8 := [
  72, 120, 0, 74, 0, 0, 0, 0, 0, 161, 0, 0, 0, 12, 0, 9, 1, 1, 0, 0, 0, 0, 0, 0, 0, 0, 0, 0, 0,
  0, 0, 0, 0, 0, 0, 74, 0, 0, 33, 0, 3, 0, 0, 107, 0, 0, 17, 0, 2, 0, 0, 124, 0, 0, 0, 0, 0, 0,
  0, 124, 0, 0, 0, 0, 0, 0, 32, 0, 0, 124, 0, 0, 0, 156, 0, 129, 161, 0, 128, 0, 0, 145, 80, 65,
  131, 170, 2, 3, 210, 1, 0, 0, 0, 4, 136, 201, 211, 163, 0, 2, 128, 146, 120, 198, 141, 26,
  128, 0, 194, 41, 0, 128, 0, 0, 0, 8, 114, 77, 153, 46, 238, 241, 17, 0, 4, 46, 97, 0, 128, 0,
  0, 0, 0, 33, 191, 220, 208, 0, 226, 0, 0, 0, 0, 0, 0, 64, 0, 83, 0, 0, 0, 0, 0, 0, 0, 128,
  165, 21, 171, 194, 112]

/-- A DXT5 texture of 12×9 texels. -/
def crnDxt5 : List UInt8 := [
  72, 120, 0, 74, 0, 0, 0, 0, 0, 226, 0, 0, 0, 12, 0, 9, 1, 1, 2, 0, 0, 0, 0, 0, 0, 0, 0, 0, 0,
  0, 0, 0, 0, 0, 0, 74, 0, 0, 33, 0, 3, 0, 0, 107, 0, 0, 17, 0, 2, 0, 0, 124, 0, 0, 14, 0, 2, 0,
  0, 138, 0, 0, 25, 0, 2, 0, 54, 0, 0, 163, 0, 0, 0, 217, 0, 129, 161, 0, 128, 0, 0, 145, 80,
  65, 131, 170, 2, 3, 210, 1, 0, 0, 0, 4, 136, 201, 211, 163, 0, 2, 128, 146, 120, 198, 141, 26,
  128, 0, 194, 41, 0, 128, 0, 0, 0, 8, 114, 77, 153, 46, 238, 241, 17, 0, 4, 2, 32, 128, 0, 0,
  0, 0, 5, 178, 215, 85, 142, 64, 3, 129, 233, 0, 0, 0, 0, 2, 105, 20, 34, 132, 80, 133, 145,
  66, 40, 69, 9, 119, 151, 118, 136, 104, 128, 7, 102, 105, 0, 0, 0, 0, 0, 0, 38, 23, 251, 253,
  254, 78, 0, 7, 16, 0, 0, 0, 0, 0, 2, 0, 2, 152, 0, 0, 0, 0, 0, 0, 4, 0, 10, 96, 0, 0, 0, 0, 0,
  0, 16, 0, 41, 128, 0, 0, 0, 0, 0, 0, 64, 147, 158, 132, 150, 200, 103, 28, 1, 132]

/-- A DXN texture of 9×12 texels. -/
def crnDxn : List UInt8 := [
  72, 120, 0, 74, 0, 0, 0, 0, 0, 156, 0, 0, 0, 9, 0, 12, 1, 1, 7, 0, 0, 0, 0, 0, 0, 0, 0, 0, 0,
  0, 0, 0, 0, 0, 0, 74, 0, 0, 0, 0, 0, 0, 0, 74, 0, 0, 0, 0, 0, 0, 0, 74, 0, 0, 14, 0, 2, 0, 0,
  88, 0, 0, 25, 0, 2, 0, 35, 0, 0, 113, 0, 0, 0, 148, 4, 2, 32, 128, 0, 0, 0, 0, 5, 178, 215,
  85, 142, 64, 3, 129, 233, 0, 0, 0, 0, 2, 105, 20, 34, 132, 80, 133, 145, 66, 40, 69, 9, 119,
  151, 118, 136, 104, 128, 7, 186, 105, 0, 0, 0, 0, 0, 0, 36, 151, 251, 253, 254, 126, 0, 5, 48,
  0, 0, 0, 0, 0, 0, 8, 0, 20, 192, 0, 0, 0, 0, 0, 0, 32, 183, 208, 135, 79, 146, 144, 81, 0]

/-- A DXT5A texture of 12×9 texels. -/
def crnDxt5a : List UInt8 := [
  72, 120, 0, 74, 0, 0, 0, 0, 0, 149, 0, 0, 0, 12, 0, 9, 1, 1, 9, 0, 0, 0, 0, 0, 0, 0, 0, 0, 0,
  0, 0, 0, 0, 0, 0, 74, 0, 0, 0, 0, 0, 0, 0, 74, 0, 0, 0, 0, 0, 0, 0, 74, 0, 0, 14, 0, 2, 0, 0,
  88, 0, 0, 25, 0, 2, 0, 32, 0, 0, 113, 0, 0, 0, 145, 4, 2, 32, 128, 0, 0, 0, 0, 5, 178, 215,
  85, 142, 64, 3, 129, 233, 0, 0, 0, 0, 2, 105, 20, 34, 132, 80, 133, 145, 66, 40, 69, 9, 119,
  151, 118, 136, 104, 128, 3, 30, 96, 128, 0, 0, 0, 0, 0, 23, 253, 128, 0, 41, 128, 0, 0, 0, 0,
  0, 0, 64, 0, 166, 0, 0, 0, 0, 0, 0, 1, 0, 229, 147, 151, 64]

/-- A DXT1 texture with two faces of 4×8 texels, an even number of block rows. -/
def crnFaces : List UInt8 := [
  72, 120, 0, 74, 0, 0, 0, 0, 0, 151, 0, 0, 0, 4, 0, 8, 1, 2, 0, 0, 0, 0, 0, 0, 0, 0, 0, 0, 0,
  0, 0, 0, 0, 0, 0, 74, 0, 0, 27, 0, 2, 0, 0, 101, 0, 0, 17, 0, 2, 0, 0, 118, 0, 0, 0, 0, 0, 0,
  0, 118, 0, 0, 0, 0, 0, 0, 31, 0, 0, 118, 0, 0, 0, 149, 0, 129, 225, 0, 128, 0, 0, 2, 69, 135,
  42, 2, 4, 66, 1, 0, 0, 0, 0, 18, 50, 244, 104, 6, 10, 164, 192, 0, 194, 41, 0, 128, 0, 0, 0,
  8, 114, 77, 153, 46, 238, 241, 17, 0, 0, 158, 96, 128, 0, 0, 0, 0, 0, 25, 176, 0, 83, 0, 0, 0,
  0, 0, 0, 0, 128, 1, 76, 0, 0, 0, 0, 0, 0, 2, 0, 6, 230]

/-- A DXT1 texture with two faces of 4×4 texels, an odd number of block rows. -/
def crnOddFaces : List UInt8 := [
  72, 120, 0, 74, 0, 0, 0, 0, 0, 151, 0, 0, 0, 4, 0, 4, 1, 2, 0, 0, 0, 0, 0, 0, 0, 0, 0, 0, 0,
  0, 0, 0, 0, 0, 0, 74, 0, 0, 27, 0, 2, 0, 0, 101, 0, 0, 17, 0, 2, 0, 0, 118, 0, 0, 0, 0, 0, 0,
  0, 118, 0, 0, 0, 0, 0, 0, 31, 0, 0, 118, 0, 0, 0, 149, 0, 129, 225, 0, 128, 0, 0, 2, 69, 135,
  42, 2, 4, 66, 1, 0, 0, 0, 0, 18, 50, 244, 104, 6, 10, 164, 192, 0, 194, 41, 0, 128, 0, 0, 0,
  8, 114, 77, 153, 46, 238, 241, 17, 0, 0, 66, 96, 128, 0, 0, 0, 0, 0, 24, 64, 0, 83, 0, 0, 0,
  0, 0, 0, 0, 128, 1, 76, 0, 0, 0, 0, 0, 0, 2, 0, 76, 156]

/-- A DXT1 texture of 4×4 texels; the tables are the last section of the file. -/
def crnTail : List UInt8 := [
  72, 120, 0, 74, 0, 0, 0, 0, 0, 149, 0, 0, 0, 4, 0, 4, 1, 1, 0, 0, 0, 0, 0, 0, 0, 0, 0, 0, 0,
  0, 0, 0, 0, 0, 0, 75, 0, 0, 27, 0, 2, 0, 0, 102, 0, 0, 17, 0, 2, 0, 0, 119, 0, 0, 0, 0, 0, 0,
  0, 119, 0, 0, 0, 0, 0, 0, 30, 0, 0, 119, 0, 0, 0, 74, 10, 0, 129, 225, 0, 128, 0, 0, 2, 69,
  135, 42, 2, 4, 66, 1, 0, 0, 0, 0, 18, 50, 244, 104, 6, 10, 164, 192, 0, 194, 41, 0, 128, 0, 0,
  0, 8, 114, 77, 153, 46, 238, 241, 17, 0, 0, 18, 100, 0, 0, 0, 0, 0, 0, 24, 0, 5, 48, 0, 32, 0,
  0, 0, 0, 10, 0, 20, 192, 0, 0, 0, 0, 0, 0, 32]

end CrnDemo

/-- The colours of a texel of a block in a Crunch file of the given format: those of BC1, BC3, BC4
and BC5. -/
def crnTexel (format : Nat) : List UInt8 → Nat → UInt32 :=
  if format = 0 then Spec.bc1Texel false
  else if format = 9 then Spec.bc4Texel
  else if format = 7 ∨ format = 8 then Spec.bc5Texel
  else Spec.bc3Texel

/-- The decoder for the blocks of a format. -/
def crnBlockDecoder [Build] (format : Nat) :
    List UInt8 → Nat → Nat → List UInt32 → Out (Except String Unit × List UInt32) :=
  if format = 0 then Model.decodeBc1
  else if format = 9 then Model.decodeBc4
  else if format = 7 ∨ format = 8 then Model.decodeBc5
  else Model.decodeBc3

theorem crnBlockDecoder_decodes [Build] (format : Nat) :
    Spec.Decodes (crnBlockDecoder format) 4 4 (if format = 0 ∨ format = 9 then 8 else 16)
      (crnTexel format) := by
  unfold crnBlockDecoder crnTexel
  by_cases h0 : format = 0
  · rw [if_pos h0, if_pos h0, if_pos (Or.inl h0)]; exact C12_bc1
  · rw [if_neg h0, if_neg h0]
    by_cases h9 : format = 9
    · rw [if_pos h9, if_pos h9, if_pos (Or.inr h9)]; exact C16_bc4
    · rw [if_neg h9, if_neg h9, if_neg (show ¬ (format = 0 ∨ format = 9) by omega)]
      by_cases h7 : format = 7 ∨ format = 8
      · rw [if_pos h7, if_pos h7]; exact C17_bc5
      · rw [if_neg h7, if_neg h7]; exact C15_bc3

/-- **C51.** `decode_crunch` of a file is the block decoder of its format on the DXT blocks that
the file holds, whatever sizes it is called with. -/
theorem C51_blocks [Build] (file dxt : List UInt8) (h : unpack file = some dxt) (hl : Limits file)
    (w ht : Nat) (image : List UInt32) :
    Model.Crn.decodeCrunch file w ht image = crnBlockDecoder (format file) dxt w ht image := by
  obtain ⟨e, hf, _⟩ := crunchUnpackLevel_ok h hl
  unfold Model.Crn.decodeCrunch
  rw [e]
  generalize format file = n at hf
  have hn : n < 10 := by omega
  match n, hn with
  | 0, _ | 2, _ | 3, _ | 4, _ | 5, _ | 6, _ | 7, _ | 8, _ | 9, _ => rfl
  | 1, _ => omega

/-- **C51.** Decoding a file at its own size succeeds, and every pixel has the colour of its texel
in the DXT blocks. -/
theorem C51_pixels [Build] (file dxt : List UInt8) (h : unpack file = some dxt) (hl : Limits file)
    (image : List UInt32) (himg : image.length < 2 ^ 61)
    (hroom : width file * height file ≤ image.length) :
    ∃ image', Model.Crn.decodeCrunch file (width file) (height file) image = .ok (.ok (), image') ∧
      Spec.IsDecoded 4 4 (if format file = 0 ∨ format file = 9 then 8 else 16)
        (crnTexel (format file)) dxt (width file) (height file) image image' := by
  obtain ⟨_, hf, hlen⟩ := crunchUnpackLevel_ok h hl
  rw [C51_blocks file dxt h hl]
  have hwl : width file < 2 ^ 16 := be_lt file _ 2
  have hhl : height file < 2 ^ 16 := be_lt file _ 2
  have hx : Spec.ceilDiv (width file) 4 ≤ blocksX file := by
    unfold Spec.ceilDiv blocksX blocksOf; omega
  have hy : Spec.ceilDiv (height file) 4 ≤ blocksY file := by
    unfold Spec.ceilDiv blocksY blocksOf; omega
  have hxy : Spec.numBlocks 4 4 (width file) (height file)
      ≤ faces file * blocksY file * blocksX file := by
    unfold Spec.numBlocks
    have h1 := Nat.mul_le_mul hx hy
    have h2 : blocksY file * blocksX file ≤ faces file * (blocksY file * blocksX file) :=
      Nat.le_mul_of_pos_left _ hl.faces
    rw [Nat.mul_comm (blocksX file)] at h1
    rw [Nat.mul_assoc]
    omega
  have hb := hl.big
  have hneed : Spec.bytesNeeded 4 4 (if format file = 0 ∨ format file = 9 then 8 else 16)
      (width file) (height file) ≤ dxt.length := by
    unfold Spec.bytesNeeded
    rw [hlen, Nat.mul_comm]
    exact Nat.mul_le_mul_left _ hxy
  refine (crnBlockDecoder_decodes (format file)).success dxt _ _ image ⟨himg, ?_, ?_⟩ hneed hroom
    (fun _ _ => trivial)
  · refine Nat.lt_of_le_of_lt hneed ?_
    rw [hlen]
    split <;> omega
  · have := Nat.mul_lt_mul'' hwl hhl
    omega

/-- The demo files meet the conditions, in the four formats and with two faces. -/
example : Limits CrnDemo.crnDxt1 ∧ unpack CrnDemo.crnDxt1 = some
    [67, 8, 157, 247, 5, 5, 5, 5, 67, 8, 157, 247, 5, 5, 5, 5, 67, 8, 157, 247, 5, 5, 5, 5,
     67, 8, 157, 247, 120, 120, 120, 120, 67, 8, 157, 247, 120, 120, 120, 120, 0, 248, 224, 7, 120,
     120, 120, 120, 0, 248, 224, 7, 120, 120, 120, 120, 0, 248, 224, 7, 5, 5, 5, 5, 199, 40, 199,
     40, 120, 120, 120, 120] :=
  ⟨⟨by decide +kernel, ⟨by decide +kernel, by decide +kernel, by decide +kernel⟩, by decide +kernel,
    by decide +kernel, by decide +kernel⟩, by decide +kernel⟩

example : Limits CrnDemo.crnDxt5 ∧ format CrnDemo.crnDxt5 = 2 ∧
    (unpack CrnDemo.crnDxt5).map List.length = some 144 :=
  ⟨⟨by decide +kernel, ⟨by decide +kernel, by decide +kernel, by decide +kernel⟩, by decide +kernel,
    by decide +kernel, by decide +kernel⟩, by decide +kernel, by decide +kernel⟩

example : Limits CrnDemo.crnDxn ∧ format CrnDemo.crnDxn = 7 ∧
    (unpack CrnDemo.crnDxn).map List.length = some 144 :=
  ⟨⟨by decide +kernel, ⟨by decide +kernel, by decide +kernel, by decide +kernel⟩, by decide +kernel,
    by decide +kernel, by decide +kernel⟩, by decide +kernel, by decide +kernel⟩

example : Limits CrnDemo.crnDxt5a ∧ format CrnDemo.crnDxt5a = 9 ∧
    (unpack CrnDemo.crnDxt5a).map List.length = some 72 :=
  ⟨⟨by decide +kernel, ⟨by decide +kernel, by decide +kernel, by decide +kernel⟩, by decide +kernel,
    by decide +kernel, by decide +kernel⟩, by decide +kernel, by decide +kernel⟩

example : Limits CrnDemo.crnFaces ∧ faces CrnDemo.crnFaces = 2 ∧
    (unpack CrnDemo.crnFaces).map List.length = some 32 :=
  ⟨⟨by decide +kernel, ⟨by decide +kernel, by decide +kernel, by decide +kernel⟩, by decide +kernel,
    by decide +kernel, by decide +kernel⟩, by decide +kernel, by decide +kernel⟩

/-- **C52, violated.** A complete file with two faces of 4×4 texels makes `decode_crunch` panic, in
both builds: after every face with an odd number of block rows the decoder goes one row too far, and
the last face is written beyond the end of the buffer. C51 covers files with one face, and files
with an even number of block rows. -/
theorem C52_faces_panic : ∃ file dxt, unpack file = some dxt ∧ SectionsInside file ∧
    faces file = 2 ∧ blocksY file = 1 ∧ ∀ (b : Build) (w h : Nat) (image : List UInt32),
      @Model.Crn.decodeCrunch b file w h image = .panic := by
  refine ⟨CrnDemo.crnOddFaces, _, show _ = some [67, 8, 157, 247, 5, 5, 5, 5, 0, 248, 224, 7, 5, 5, 5, 5]
    by decide +kernel, ⟨by decide +kernel, by decide +kernel, by decide +kernel⟩, by decide +kernel,
    by decide +kernel, ?_⟩
  have key : ∀ ck : Bool, (match @Model.Crn.crunchUnpackLevel ⟨ck⟩ CrnDemo.crnOddFaces
      (asU 32 CrnDemo.crnOddFaces.length) 0 with | .panic => true | _ => false) = true := by
    decide +kernel
  intro ⟨ck⟩ w h image
  have hk := key ck
  unfold Model.Crn.decodeCrunch
  split at hk
  · rename_i e; rw [e]
  · exact absurd hk (by simp)

/-- **C52, how far it is violated.** Every complete file with several faces and an odd number of
block rows makes `decode_crunch` panic, in both builds and whatever sizes it is called with. -/
theorem C52_odd_rows_panic [Build] (file dxt : List UInt8) (h : unpack file = some dxt)
    (hsmall : file.length < 2 ^ 32) (hins : SectionsInside file) (hf : 2 ≤ faces file)
    (hodd : blocksY file % 2 = 1)
    (hbig : 16 * (faces file * blocksY file * blocksX file) < 2 ^ 30)
    (w ht : Nat) (image : List UInt32) :
    Model.Crn.decodeCrunch file w ht image = .panic := by
  unfold Model.Crn.decodeCrunch
  rw [crunchUnpackLevel_panic h hsmall hins hf hodd hbig]

example : (unpack CrnDemo.crnOddFaces).isSome ∧ SectionsInside CrnDemo.crnOddFaces ∧
    2 ≤ faces CrnDemo.crnOddFaces ∧ blocksY CrnDemo.crnOddFaces % 2 = 1 ∧
    16 * (faces CrnDemo.crnOddFaces * blocksY CrnDemo.crnOddFaces * blocksX CrnDemo.crnOddFaces)
      < 2 ^ 30 :=
  ⟨by decide +kernel, ⟨by decide +kernel, by decide +kernel, by decide +kernel⟩, by decide +kernel,
    by decide +kernel, by decide +kernel⟩

/-- **C53, violated.** A complete file whose last section are the tables makes `decode_crunch`
panic, in both builds: the decoder fetches the byte after the section. C51 covers the files where
a byte follows. -/
theorem C53_last_section_panic : ∃ file dxt, unpack file = some dxt ∧ faces file = 1 ∧
    tablesOfs file + tablesSize file = file.length ∧
    ∀ (b : Build) (w h : Nat) (image : List UInt32),
      @Model.Crn.decodeCrunch b file w h image = .panic := by
  refine ⟨CrnDemo.crnTail, _, show _ = some [67, 8, 157, 247, 5, 5, 5, 5]
    by decide +kernel, by decide +kernel, by decide +kernel, ?_⟩
  have key : ∀ ck : Bool, (match @Model.Crn.crunchUnpackLevel ⟨ck⟩ CrnDemo.crnTail
      (asU 32 CrnDemo.crnTail.length) 0 with | .panic => true | _ => false) = true := by
    decide +kernel
  intro ⟨ck⟩ w h image
  have hk := key ck
  unfold Model.Crn.decodeCrunch
  split at hk
  · rename_i e; rw [e]
  · exact absurd hk (by simp)

/-- **C54.** A buffer that is too short, or whose header is not acceptable, or whose format code is
unknown, is refused with one error, and the image is left alone. -/
theorem C54_refused [Build] (file : List UInt8) (hsmall : file.length < 2 ^ 32)
    (h : file.length < 74 ∨ headerBytes file ≤ file.length ∧
      (¬ HeaderOk file file.length ∨ 15 < format file)) (w ht : Nat) (image : List UInt32) :
    Model.Crn.decodeCrunch file w ht image
      = .ok (.error "Invalid crunch texture encoding.", image) := by
  have key : ∃ info, Model.crndGetTextureInfo Model.CrnTextureInfo.default file file.length
      = .ok (false, info) := by
    by_cases h74 : file.length < 74
    · exact ⟨_, textureInfo_short (Or.inl h74)⟩
    · rcases h with h | ⟨h1, h2⟩
      · omega
      · by_cases hok : HeaderOk file file.length
        · rcases h2 with h2 | h2
          · exact absurd hok h2
          · exact ⟨_, textureInfo_format (by omega) rfl h1 hok h2⟩
        · exact ⟨_, textureInfo_bad (by omega) rfl h1 hok⟩
  obtain ⟨info, e⟩ := key
  unfold Model.Crn.decodeCrunch Model.Crn.crunchUnpackLevel
  rw [show asU 32 file.length = file.length from Nat.mod_eq_of_lt hsmall, e, Res.lift_ok,
    Res.ok_bind]
  rfl

example : headerBytes (CrnDemo.crnDxt1.set 0 0) ≤ (CrnDemo.crnDxt1.set 0 0).length ∧
    ¬ HeaderOk (CrnDemo.crnDxt1.set 0 0) (CrnDemo.crnDxt1.set 0 0).length := by decide +kernel

/-- **C54.** `decode_crunch` succeeds only on a buffer of at least 74 bytes with an acceptable
header and one of the formats DXT1, DXT5 (five kinds), DXN (two kinds) and DXT5A. -/
theorem C54_accepted [Build] (file : List UInt8) (hsmall : file.length < 2 ^ 32) (w ht : Nat)
    (image image' : List UInt32)
    (h : Model.Crn.decodeCrunch file w ht image = .ok (.ok (), image')) :
    74 ≤ file.length ∧ headerBytes file ≤ file.length ∧ HeaderOk file file.length ∧
      (format file = 0 ∨ 2 ≤ format file ∧ format file ≤ 9) := by
  have h74 : 74 ≤ file.length := by
    apply Nat.le_of_not_lt
    intro hl
    rw [C54_refused file hsmall (Or.inl hl)] at h
    simp at h
  have hhb : headerBytes file ≤ file.length := by
    apply Nat.le_of_not_lt
    intro hl
    unfold Model.Crn.decodeCrunch Model.Crn.crunchUnpackLevel at h
    rw [show asU 32 file.length = file.length from Nat.mod_eq_of_lt hsmall,
      textureInfo_panic h74 rfl hl, Res.lift_panic, Res.panic_bind] at h
    simp at h
  have hok : HeaderOk file file.length ∧ format file ≤ 15 := by
    apply Classical.byContradiction
    intro hn
    rw [C54_refused file hsmall (Or.inr ⟨hhb, by
      by_cases hh : HeaderOk file file.length
      · right
        apply Nat.lt_of_not_le
        exact fun hf => hn ⟨hh, hf⟩
      · exact Or.inl hh⟩)] at h
    simp at h
  refine ⟨h74, hhb, hok.1, ?_⟩
  have hf15 := hok.2
  unfold Model.Crn.decodeCrunch at h
  rw [show asU 32 file.length = file.length from Nat.mod_eq_of_lt hsmall] at h
  cases e : Model.Crn.crunchUnpackLevel file file.length 0 with
  | panic => rw [e] at h; simp at h
  | fail m => rw [e] at h; simp at h
  | ok r =>
    rw [e] at h
    have hr : r.format = Model.crnFormatOf (format file) := by
      unfold Model.Crn.crunchUnpackLevel at e
      rw [textureInfo_ok h74 rfl hhb hok.1 hok.2, Res.lift_ok, Res.ok_bind] at e
      simp only at e
      rw [if_neg (by simp)] at e
      obtain ⟨_, _, e⟩ := Res.bind_eq_ok.mp e
      obtain ⟨_, _, e⟩ := Res.bind_eq_ok.mp e
      obtain ⟨_, _, e⟩ := Res.bind_eq_ok.mp e
      obtain ⟨_, _, e⟩ := Res.bind_eq_ok.mp e
      obtain ⟨_, _, e⟩ := Res.bind_eq_ok.mp e
      obtain ⟨_, _, e⟩ := Res.bind_eq_ok.mp e
      obtain ⟨_, _, e⟩ := Res.bind_eq_ok.mp e
      obtain ⟨_, _, e⟩ := Res.bind_eq_ok.mp e
      obtain ⟨_, _, e⟩ := Res.bind_eq_ok.mp e
      rw [Res.pure_eq, Res.ok.injEq] at e
      rw [← e]
    simp only [hr] at h
    generalize format file = n at h hf15
    have hn : n < 16 := by omega
    match n, hn with
    | 0, _ | 2, _ | 3, _ | 4, _ | 5, _ | 6, _ | 7, _ | 8, _ | 9, _ => omega
    | 1, _ | 10, _ | 11, _ | 12, _ | 13, _ | 14, _ | 15, _ => exact absurd h (by simp [Model.crnFormatOf])

/-- A file with a success. -/
example : ∃ image', @Model.Crn.decodeCrunch Build.release CrnDemo.crnFaces 4 8 (List.replicate 32 0)
    = .ok (.ok (), image') := by
  letI := Build.release
  have h : unpack CrnDemo.crnFaces = some ((unpack CrnDemo.crnFaces).getD []) := by decide +kernel
  obtain ⟨i, e, _⟩ := C51_pixels CrnDemo.crnFaces _ h
    ⟨by decide +kernel, ⟨by decide +kernel, by decide +kernel, by decide +kernel⟩, by decide +kernel,
      by decide +kernel, by decide +kernel⟩ (List.replicate 32 0) (by decide) (by decide +kernel)
  exact ⟨i, (show width CrnDemo.crnFaces = 4 by decide +kernel) ▸
    (show height CrnDemo.crnFaces = 8 by decide +kernel) ▸ e⟩

end Verif.Props
