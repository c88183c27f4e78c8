import Verif.Proofs.Crn.UnityOddFaces
import Verif.Proofs.Crn.UnityFile
import Verif.Props.Bcn
import Verif.Props.Etc

/-!
# Properties of `decode_unity_crunch` (C44, C55, C56, C57, C58)

`Spec.Crn.Unity.unpack file` are the bytes of the blocks that a file of Unity's variant of Crunch
holds (Spec/UnityFile.lean). The demo files below were made by an encoder written for this purpose.
-/

namespace Verif.Props

open Verif Verif.Spec.Crn Verif.Proofs.Crn

namespace UnityDemo

/-- A DXT1 texture of 13×9 texels, 4×3 blocks. -/
def uDxt1 : List UInt8 := [
  72, 120, 0, 74, 0, 0, 0, 0, 0, 162, 0, 0, 0, 13, 0, 9, 1, 1, 0, 0, 0, 0, 0, 0, 0, 0, 0, 0, 0,
  0, 0, 0, 0, 0, 0, 74, 0, 0, 33, 0, 3, 0, 0, 107, 0, 0, 18, 0, 2, 0, 0, 125, 0, 0, 0, 0, 0, 0,
  0, 125, 0, 0, 0, 0, 0, 0, 33, 0, 0, 125, 0, 0, 0, 158, 0, 129, 161, 0, 128, 0, 0, 145, 80, 65,
  131, 170, 2, 3, 210, 1, 0, 0, 0, 4, 136, 201, 211, 163, 0, 2, 128, 146, 120, 198, 141, 26,
  128, 0, 61, 232, 0, 128, 0, 0, 2, 4, 98, 168, 167, 28, 113, 211, 80, 94, 64, 3, 94, 32, 128,
  0, 0, 0, 0, 6, 53, 20, 235, 82, 128, 3, 152, 0, 16, 0, 0, 0, 0, 6, 128, 5, 48, 0, 0, 0, 0, 0,
  0, 8, 144, 135, 24, 96]

/-- A DXT5 texture of 13×9 texels. -/
def uDxt5 : List UInt8 := [
  72, 120, 0, 74, 0, 0, 0, 0, 0, 219, 0, 0, 0, 13, 0, 9, 1, 1, 2, 0, 0, 0, 0, 0, 0, 0, 0, 0, 0,
  0, 0, 0, 0, 0, 0, 74, 0, 0, 33, 0, 3, 0, 0, 107, 0, 0, 18, 0, 2, 0, 0, 125, 0, 0, 14, 0, 2, 0,
  0, 139, 0, 0, 21, 0, 2, 0, 53, 0, 0, 160, 0, 0, 0, 213, 0, 129, 161, 0, 128, 0, 0, 145, 80,
  65, 131, 170, 2, 3, 210, 1, 0, 0, 0, 4, 136, 201, 211, 163, 0, 2, 128, 146, 120, 198, 141, 26,
  128, 0, 61, 232, 0, 128, 0, 0, 2, 4, 98, 168, 167, 28, 113, 211, 80, 94, 64, 4, 2, 32, 128, 0,
  0, 0, 0, 5, 178, 215, 85, 142, 64, 0, 253, 232, 0, 128, 0, 0, 2, 171, 54, 232, 51, 104, 221,
  154, 21, 225, 94, 115, 135, 56, 3, 190, 32, 128, 0, 0, 0, 0, 6, 57, 110, 238, 70, 0, 2, 152,
  0, 16, 0, 0, 0, 0, 5, 0, 10, 96, 0, 0, 0, 0, 0, 0, 16, 0, 25, 128, 0, 0, 0, 0, 0, 0, 64, 1,
  76, 0, 0, 0, 0, 0, 0, 2, 0, 6, 32, 31, 228, 124, 160]

/-- A DXN texture of 8×12 texels. -/
def uDxn : List UInt8 := [
  72, 120, 0, 74, 0, 0, 0, 0, 0, 145, 0, 0, 0, 8, 0, 12, 1, 1, 7, 0, 0, 0, 0, 0, 0, 0, 0, 0, 0,
  0, 0, 0, 0, 0, 0, 74, 0, 0, 0, 0, 0, 0, 0, 74, 0, 0, 0, 0, 0, 0, 0, 74, 0, 0, 14, 0, 2, 0, 0,
  88, 0, 0, 21, 0, 2, 0, 33, 0, 0, 109, 0, 0, 0, 142, 4, 2, 32, 128, 0, 0, 0, 0, 5, 178, 215,
  85, 142, 64, 0, 253, 232, 0, 128, 0, 0, 2, 171, 54, 232, 51, 104, 221, 154, 21, 225, 94, 115,
  135, 56, 3, 238, 96, 128, 0, 0, 0, 0, 0, 25, 135, 254, 8, 0, 41, 128, 0, 0, 0, 0, 0, 0, 64, 0,
  166, 0, 0, 0, 0, 0, 0, 1, 0, 207, 153, 228]

/-- A DXT5A texture of 13×9 texels. -/
def uDxt5a : List UInt8 := [
  72, 120, 0, 74, 0, 0, 0, 0, 0, 147, 0, 0, 0, 13, 0, 9, 1, 1, 9, 0, 0, 0, 0, 0, 0, 0, 0, 0, 0,
  0, 0, 0, 0, 0, 0, 74, 0, 0, 0, 0, 0, 0, 0, 74, 0, 0, 0, 0, 0, 0, 0, 74, 0, 0, 14, 0, 2, 0, 0,
  88, 0, 0, 21, 0, 2, 0, 34, 0, 0, 109, 0, 0, 0, 143, 4, 2, 32, 128, 0, 0, 0, 0, 5, 178, 215,
  85, 142, 64, 0, 253, 232, 0, 128, 0, 0, 2, 171, 54, 232, 51, 104, 221, 154, 21, 225, 94, 115,
  135, 56, 3, 254, 33, 0, 128, 0, 0, 0, 10, 255, 32, 100, 140, 45, 16, 0, 102, 0, 0, 0, 0, 0, 0,
  1, 0, 5, 48, 0, 0, 0, 0, 0, 0, 8, 8, 158, 59, 128]

/-- An ETC1 texture of 13×9 texels. -/
def uEtc1 : List UInt8 := [
  72, 120, 0, 74, 0, 0, 0, 0, 0, 155, 0, 0, 0, 13, 0, 9, 1, 1, 10, 0, 0, 0, 0, 0, 0, 0, 0, 0, 0,
  0, 0, 0, 0, 0, 0, 74, 0, 0, 19, 0, 3, 0, 0, 93, 0, 0, 18, 0, 2, 0, 0, 111, 0, 0, 0, 0, 0, 0,
  0, 111, 0, 0, 0, 0, 0, 0, 35, 0, 0, 111, 0, 0, 0, 146, 0, 129, 169, 0, 128, 0, 0, 149, 68, 96,
  224, 208, 70, 65, 22, 72, 92, 161, 140, 0, 61, 232, 0, 128, 0, 0, 2, 4, 98, 168, 167, 28, 113,
  211, 80, 94, 64, 3, 41, 224, 128, 0, 0, 0, 1, 144, 83, 32, 82, 42, 4, 66, 20, 0, 14, 32, 0, 0,
  0, 0, 0, 4, 0, 5, 48, 0, 0, 0, 0, 0, 0, 8, 176, 144, 100, 67, 97, 23, 94, 49, 96]

/-- An ETC2 texture of 8×4 texels. -/
def uEtc2 : List UInt8 := [
  72, 120, 0, 74, 0, 0, 0, 0, 0, 143, 0, 0, 0, 8, 0, 4, 1, 1, 11, 0, 0, 0, 0, 0, 0, 0, 0, 0, 0,
  0, 0, 0, 0, 0, 0, 74, 0, 0, 19, 0, 3, 0, 0, 93, 0, 0, 18, 0, 2, 0, 0, 111, 0, 0, 0, 0, 0, 0,
  0, 111, 0, 0, 0, 0, 0, 0, 30, 0, 0, 111, 0, 0, 0, 141, 0, 129, 169, 0, 128, 0, 0, 149, 68, 96,
  224, 208, 70, 65, 22, 72, 92, 161, 140, 0, 61, 232, 0, 128, 0, 0, 2, 4, 98, 168, 167, 28, 113,
  211, 80, 94, 64, 0, 230, 96, 128, 0, 0, 0, 0, 0, 21, 96, 0, 56, 128, 0, 0, 0, 0, 0, 16, 0, 12,
  192, 0, 0, 0, 0, 0, 0, 32, 169, 0]

/-- An ETC2 texture with alpha of 13×9 texels. -/
def uEtc2a : List UInt8 := [
  72, 120, 0, 74, 0, 0, 0, 0, 0, 214, 0, 0, 0, 13, 0, 9, 1, 1, 12, 0, 0, 0, 0, 0, 0, 0, 0, 0, 0,
  0, 0, 0, 0, 0, 0, 74, 0, 0, 19, 0, 3, 0, 0, 93, 0, 0, 18, 0, 2, 0, 0, 111, 0, 0, 14, 0, 2, 0,
  0, 125, 0, 0, 21, 0, 2, 0, 57, 0, 0, 146, 0, 0, 0, 203, 0, 129, 169, 0, 128, 0, 0, 149, 68,
  96, 224, 208, 70, 65, 22, 72, 92, 161, 140, 0, 61, 232, 0, 128, 0, 0, 2, 4, 98, 168, 167, 28,
  113, 211, 80, 94, 64, 4, 2, 32, 128, 0, 0, 0, 0, 5, 178, 215, 85, 142, 64, 0, 253, 232, 0,
  128, 0, 0, 2, 171, 54, 232, 51, 104, 221, 154, 21, 225, 94, 115, 135, 56, 3, 233, 233, 0, 0,
  0, 0, 2, 129, 16, 178, 132, 65, 200, 113, 11, 16, 76, 192, 0, 226, 0, 0, 0, 0, 0, 0, 64, 0,
  83, 0, 0, 0, 0, 0, 0, 0, 128, 1, 76, 0, 8, 0, 0, 0, 0, 2, 128, 5, 48, 0, 0, 0, 0, 0, 0, 8, 33,
  116, 125, 129, 209, 72, 157, 89, 1, 132, 16]

/-- An ETC1S texture of 13×9 texels. -/
def uEtc1s : List UInt8 := [
  72, 120, 0, 74, 0, 0, 0, 0, 0, 148, 0, 0, 0, 13, 0, 9, 1, 1, 13, 0, 0, 0, 0, 0, 0, 0, 0, 0, 0,
  0, 0, 0, 0, 0, 0, 74, 0, 0, 19, 0, 3, 0, 0, 93, 0, 0, 18, 0, 2, 0, 0, 111, 0, 0, 0, 0, 0, 0,
  0, 111, 0, 0, 0, 0, 0, 0, 33, 0, 0, 111, 0, 0, 0, 144, 0, 129, 169, 0, 128, 0, 0, 149, 68, 96,
  224, 208, 70, 65, 22, 72, 92, 161, 140, 0, 61, 232, 0, 128, 0, 0, 2, 4, 98, 168, 167, 28, 113,
  211, 80, 94, 64, 3, 30, 33, 0, 128, 0, 0, 0, 10, 202, 205, 17, 132, 32, 1, 76, 0, 0, 0, 0, 0,
  0, 2, 0, 5, 48, 0, 0, 0, 0, 0, 0, 8, 160, 170, 204, 44]

/-- An ETC2AS texture of 13×9 texels. -/
def uEtc2as : List UInt8 := [
  72, 120, 0, 74, 0, 0, 0, 0, 0, 207, 0, 0, 0, 13, 0, 9, 1, 1, 14, 0, 0, 0, 0, 0, 0, 0, 0, 0, 0,
  0, 0, 0, 0, 0, 0, 74, 0, 0, 19, 0, 3, 0, 0, 93, 0, 0, 18, 0, 2, 0, 0, 111, 0, 0, 14, 0, 2, 0,
  0, 125, 0, 0, 21, 0, 2, 0, 54, 0, 0, 146, 0, 0, 0, 200, 0, 129, 169, 0, 128, 0, 0, 149, 68,
  96, 224, 208, 70, 65, 22, 72, 92, 161, 140, 0, 61, 232, 0, 128, 0, 0, 2, 4, 98, 168, 167, 28,
  113, 211, 80, 94, 64, 4, 2, 32, 128, 0, 0, 0, 0, 5, 178, 215, 85, 142, 64, 0, 253, 232, 0,
  128, 0, 0, 2, 171, 54, 232, 51, 104, 221, 154, 21, 225, 94, 115, 135, 56, 3, 190, 41, 0, 0, 0,
  0, 0, 10, 6, 95, 229, 35, 72, 96, 0, 28, 64, 0, 0, 0, 0, 0, 8, 0, 10, 96, 0, 0, 0, 0, 0, 0,
  16, 0, 25, 128, 0, 0, 0, 0, 0, 0, 64, 1, 76, 0, 0, 0, 0, 0, 0, 2, 0, 64, 108, 8, 75, 142, 136,
  0]

/-- A DXT1 texture with two faces of 8×8 texels, an even number of block rows. -/
def uFaces : List UInt8 := [
  72, 120, 0, 74, 0, 0, 0, 0, 0, 159, 0, 0, 0, 8, 0, 8, 1, 2, 0, 0, 0, 0, 0, 0, 0, 0, 0, 0, 0,
  0, 0, 0, 0, 0, 0, 74, 0, 0, 33, 0, 3, 0, 0, 107, 0, 0, 18, 0, 2, 0, 0, 125, 0, 0, 0, 0, 0, 0,
  0, 125, 0, 0, 0, 0, 0, 0, 32, 0, 0, 125, 0, 0, 0, 157, 0, 129, 161, 0, 128, 0, 0, 145, 80, 65,
  131, 170, 2, 3, 210, 1, 0, 0, 0, 4, 136, 201, 211, 163, 0, 2, 128, 146, 120, 198, 141, 26,
  128, 0, 61, 232, 0, 128, 0, 0, 2, 4, 98, 168, 167, 28, 113, 211, 80, 94, 64, 1, 38, 96, 128,
  0, 0, 0, 0, 0, 26, 180, 48, 0, 41, 128, 0, 0, 0, 0, 0, 0, 64, 0, 166, 0, 0, 0, 0, 0, 0, 1, 0,
  214, 0]

/-- A DXT1 texture of 9×8 texels, three block columns. -/
def uOdd : List UInt8 := [
  72, 120, 0, 74, 0, 0, 0, 0, 0, 159, 0, 0, 0, 9, 0, 8, 1, 1, 0, 0, 0, 0, 0, 0, 0, 0, 0, 0, 0,
  0, 0, 0, 0, 0, 0, 74, 0, 0, 33, 0, 3, 0, 0, 107, 0, 0, 18, 0, 2, 0, 0, 125, 0, 0, 0, 0, 0, 0,
  0, 125, 0, 0, 0, 0, 0, 0, 31, 0, 0, 125, 0, 0, 0, 156, 0, 129, 161, 0, 128, 0, 0, 145, 80, 65,
  131, 170, 2, 3, 210, 1, 0, 0, 0, 4, 136, 201, 211, 163, 0, 2, 128, 146, 120, 198, 141, 26,
  128, 0, 61, 232, 0, 128, 0, 0, 2, 4, 98, 168, 167, 28, 113, 211, 80, 94, 64, 0, 206, 96, 128,
  0, 0, 0, 0, 0, 25, 84, 48, 0, 56, 128, 0, 0, 0, 0, 0, 16, 0, 20, 192, 0, 0, 0, 0, 0, 0, 32,
  198, 181, 16]

/-- A DXT1 texture with two faces of 8×4 texels, an odd number of block rows. -/
def uOddFaces : List UInt8 := [
  72, 120, 0, 74, 0, 0, 0, 0, 0, 159, 0, 0, 0, 8, 0, 4, 1, 2, 0, 0, 0, 0, 0, 0, 0, 0, 0, 0, 0,
  0, 0, 0, 0, 0, 0, 74, 0, 0, 33, 0, 3, 0, 0, 107, 0, 0, 18, 0, 2, 0, 0, 125, 0, 0, 0, 0, 0, 0,
  0, 125, 0, 0, 0, 0, 0, 0, 32, 0, 0, 125, 0, 0, 0, 157, 0, 129, 161, 0, 128, 0, 0, 145, 80, 65,
  131, 170, 2, 3, 210, 1, 0, 0, 0, 4, 136, 201, 211, 163, 0, 2, 128, 146, 120, 198, 141, 26,
  128, 0, 61, 232, 0, 128, 0, 0, 2, 4, 98, 168, 167, 28, 113, 211, 80, 94, 64, 3, 38, 96, 128,
  0, 0, 0, 0, 0, 29, 198, 168, 0, 57, 128, 1, 0, 0, 0, 0, 0, 88, 0, 83, 0, 0, 0, 0, 0, 0, 0,
  128, 85, 160]

/-- A DXT1 texture of 8×8 texels; the tables are the last section of the file. -/
def uTail : List UInt8 := [
  72, 120, 0, 74, 0, 0, 0, 0, 0, 156, 0, 0, 0, 8, 0, 8, 1, 1, 0, 0, 0, 0, 0, 0, 0, 0, 0, 0, 0,
  0, 0, 0, 0, 0, 0, 75, 0, 0, 33, 0, 3, 0, 0, 108, 0, 0, 18, 0, 2, 0, 0, 126, 0, 0, 0, 0, 0, 0,
  0, 126, 0, 0, 0, 0, 0, 0, 30, 0, 0, 126, 0, 0, 0, 74, 40, 0, 129, 161, 0, 128, 0, 0, 145, 80,
  65, 131, 170, 2, 3, 210, 1, 0, 0, 0, 4, 136, 201, 211, 163, 0, 2, 128, 146, 120, 198, 141, 26,
  128, 0, 61, 232, 0, 128, 0, 0, 2, 4, 98, 168, 167, 28, 113, 211, 80, 94, 64, 0, 46, 100, 0, 0,
  0, 0, 0, 0, 31, 0, 7, 48, 0, 32, 0, 0, 0, 0, 11, 0, 10, 96, 0, 0, 0, 0, 0, 0, 16]

end UnityDemo

/-- The bytes of a block in a file of the given format: 8 for DXT1, DXT5A, ETC1, ETC2 without alpha
and ETC1S, and 16 for the others. -/
def unityBlockBytes (format : Nat) : Nat :=
  if format = 0 ∨ format = 9 ∨ format = 10 ∨ format = 11 ∨ format = 13 then 8 else 16

/-- The colours of a texel of a block in a file of the given format: those of BC1, BC3, BC4, BC5,
ETC1, ETC2, and ETC2 with alpha. -/
def unityTexel (format : Nat) : List UInt8 → Nat → UInt32 :=
  if format = 0 then Spec.bc1Texel false
  else if format = 9 then Spec.bc4Texel
  else if format = 7 ∨ format = 8 then Spec.bc5Texel
  else if format = 10 ∨ format = 13 then Spec.Etc.etc1Texel
  else if format = 11 then Spec.Etc.etc2RgbTexel
  else if format = 12 ∨ format = 14 then Spec.Etc.etc2Rgba8Texel
  else Spec.bc3Texel

/-- The decoder for the blocks of a format. -/
def unityBlockDecoder [Build] (format : Nat) :
    List UInt8 → Nat → Nat → List UInt32 → Out (Except String Unit × List UInt32) :=
  if format = 0 then Model.decodeBc1
  else if format = 9 then Model.decodeBc4
  else if format = 7 ∨ format = 8 then Model.decodeBc5
  else if format = 10 ∨ format = 13 then Model.decodeEtc1
  else if format = 11 then Model.decodeEtc2Rgb
  else if format = 12 ∨ format = 14 then Model.decodeEtc2Rgba8
  else Model.decodeBc3

theorem unityBlockDecoder_decodes [Build] (format : Nat) :
    Spec.Decodes (unityBlockDecoder format) 4 4 (unityBlockBytes format) (unityTexel format) := by
  unfold unityBlockDecoder unityTexel unityBlockBytes
  by_cases h0 : format = 0
  · rw [if_pos h0, if_pos h0, if_pos (by omega)]; exact C12_bc1
  rw [if_neg h0, if_neg h0]
  by_cases h9 : format = 9
  · rw [if_pos h9, if_pos h9, if_pos (by omega)]; exact C16_bc4
  rw [if_neg h9, if_neg h9]
  by_cases h7 : format = 7 ∨ format = 8
  · rw [if_pos h7, if_pos h7, if_neg (by omega)]; exact C17_bc5
  rw [if_neg h7, if_neg h7]
  by_cases h10 : format = 10 ∨ format = 13
  · rw [if_pos h10, if_pos h10, if_pos (by omega)]; exact C24_etc1
  rw [if_neg h10, if_neg h10]
  by_cases h11 : format = 11
  · rw [if_pos h11, if_pos h11, if_pos (by omega)]; exact C26_etc2_rgb
  rw [if_neg h11, if_neg h11, if_neg (show ¬ (format = 0 ∨ format = 9 ∨ format = 10 ∨ format = 11 ∨
    format = 13) by omega)]
  by_cases h12 : format = 12 ∨ format = 14
  · rw [if_pos h12, if_pos h12]; exact C28_etc2_rgba8
  rw [if_neg h12, if_neg h12]; exact C15_bc3

/-! ## C55 -/

/-- **C55.** `decode_unity_crunch` of a file is the block decoder of its format on the blocks that
the file holds, whatever sizes it is called with. This holds in every build if the number of block
columns is even, and in builds without overflow checks also if it is odd (see C44). -/
theorem C55_blocks [Build] (file dxt : List UInt8) (h : Unity.unpack file = some dxt)
    (hl : Limits file) (hodd : Build.overflowChecks = false ∨ blocksX file % 2 = 0)
    (w ht : Nat) (image : List UInt32) :
    Model.Crn.Unity.decodeUnityCrunch file w ht image
      = unityBlockDecoder (format file) dxt w ht image := by
  obtain ⟨e, hf, _⟩ := Proofs.Crn.Unity.unityCrunchUnpackLevel_ok h hl hodd
  unfold Model.Crn.Unity.decodeUnityCrunch
  rw [e]
  unfold Proofs.Crn.Unity.Known at hf
  generalize format file = n at hf
  have hn : n < 15 := by omega
  match n, hn with
  | 0, _ | 2, _ | 3, _ | 4, _ | 5, _ | 6, _ | 7, _ | 8, _ | 9, _ | 10, _ | 11, _ | 12, _ | 13, _
  | 14, _ => rfl
  | 1, _ => omega

/-- **C55.** Decoding a file at its own size succeeds, and every pixel has the colour of its texel
in the blocks that the file holds. -/
theorem C55_pixels [Build] (file dxt : List UInt8) (h : Unity.unpack file = some dxt)
    (hl : Limits file) (hodd : Build.overflowChecks = false ∨ blocksX file % 2 = 0)
    (image : List UInt32) (himg : image.length < 2 ^ 61)
    (hroom : width file * height file ≤ image.length) :
    ∃ image', Model.Crn.Unity.decodeUnityCrunch file (width file) (height file) image
        = .ok (.ok (), image') ∧
      Spec.IsDecoded 4 4 (unityBlockBytes (format file)) (unityTexel (format file)) dxt
        (width file) (height file) image image' := by
  obtain ⟨_, hf, hlen⟩ := Proofs.Crn.Unity.unityCrunchUnpackLevel_ok h hl hodd
  rw [C55_blocks file dxt h hl hodd]
  have hbytes : 4 * Proofs.Crn.Unity.wordsOf (format file) = unityBlockBytes (format file) := by
    unfold Proofs.Crn.Unity.wordsOf unityBlockBytes; split <;> rfl
  rw [hbytes] at hlen
  have hwl : width file < 2 ^ 16 := be_lt file _ 2
  have hhl : height file < 2 ^ 16 := be_lt file _ 2
  have hx : Spec.ceilDiv (width file) 4 ≤ blocksX file := by
    unfold Spec.ceilDiv blocksX blocksOf; omega
  have hy : Spec.ceilDiv (height file) 4 ≤ blocksY file := by
    unfold Spec.ceilDiv blocksY blocksOf; omega
  have hxy : Spec.numBlocks 4 4 (width file) (height file)
      ≤ faces file * blocksY file * blocksX file := by
    unfold Spec.numBlocks
    have h1 := Nat.mul_le_mul hx hy
    have h2 : blocksY file * blocksX file ≤ faces file * (blocksY file * blocksX file) :=
      Nat.le_mul_of_pos_left _ hl.faces
    rw [Nat.mul_comm (blocksX file)] at h1
    rw [Nat.mul_assoc]
    omega
  have hb := hl.big
  have hneed : Spec.bytesNeeded 4 4 (unityBlockBytes (format file)) (width file) (height file)
      ≤ dxt.length := by
    unfold Spec.bytesNeeded
    rw [hlen, Nat.mul_comm]
    exact Nat.mul_le_mul_left _ hxy
  refine (unityBlockDecoder_decodes (format file)).success dxt _ _ image ⟨himg, ?_, ?_⟩ hneed hroom
    (fun _ _ => trivial)
  · refine Nat.lt_of_le_of_lt hneed ?_
    rw [hlen]
    unfold unityBlockBytes
    split <;> omega
  · have := Nat.mul_lt_mul'' hwl hhl
    omega

/-- The demo files meet the conditions, in all formats and with two faces. -/
example : Limits UnityDemo.uDxt1 ∧ blocksX UnityDemo.uDxt1 = 4 ∧
    (Unity.unpack UnityDemo.uDxt1).map List.length = some 96 :=
  ⟨⟨by decide +kernel, ⟨by decide +kernel, by decide +kernel, by decide +kernel⟩, by decide +kernel,
    by decide +kernel, by decide +kernel⟩, by decide +kernel, by decide +kernel⟩

example : Limits UnityDemo.uDxt5 ∧ format UnityDemo.uDxt5 = 2 ∧ blocksX UnityDemo.uDxt5 % 2 = 0 ∧
    (Unity.unpack UnityDemo.uDxt5).map List.length = some 192 :=
  ⟨⟨by decide +kernel, ⟨by decide +kernel, by decide +kernel, by decide +kernel⟩, by decide +kernel,
    by decide +kernel, by decide +kernel⟩, by decide +kernel, by decide +kernel, by decide +kernel⟩

example : Limits UnityDemo.uDxn ∧ format UnityDemo.uDxn = 7 ∧ blocksX UnityDemo.uDxn % 2 = 0 ∧
    (Unity.unpack UnityDemo.uDxn).map List.length = some 96 :=
  ⟨⟨by decide +kernel, ⟨by decide +kernel, by decide +kernel, by decide +kernel⟩, by decide +kernel,
    by decide +kernel, by decide +kernel⟩, by decide +kernel, by decide +kernel, by decide +kernel⟩

example : Limits UnityDemo.uDxt5a ∧ format UnityDemo.uDxt5a = 9 ∧ blocksX UnityDemo.uDxt5a % 2 = 0 ∧
    (Unity.unpack UnityDemo.uDxt5a).map List.length = some 96 :=
  ⟨⟨by decide +kernel, ⟨by decide +kernel, by decide +kernel, by decide +kernel⟩, by decide +kernel,
    by decide +kernel, by decide +kernel⟩, by decide +kernel, by decide +kernel, by decide +kernel⟩

example : Limits UnityDemo.uEtc1 ∧ format UnityDemo.uEtc1 = 10 ∧ blocksX UnityDemo.uEtc1 % 2 = 0 ∧
    (Unity.unpack UnityDemo.uEtc1).map List.length = some 96 :=
  ⟨⟨by decide +kernel, ⟨by decide +kernel, by decide +kernel, by decide +kernel⟩, by decide +kernel,
    by decide +kernel, by decide +kernel⟩, by decide +kernel, by decide +kernel, by decide +kernel⟩

example : Limits UnityDemo.uEtc2a ∧ format UnityDemo.uEtc2a = 12 ∧ blocksX UnityDemo.uEtc2a % 2 = 0 ∧
    (Unity.unpack UnityDemo.uEtc2a).map List.length = some 192 :=
  ⟨⟨by decide +kernel, ⟨by decide +kernel, by decide +kernel, by decide +kernel⟩, by decide +kernel,
    by decide +kernel, by decide +kernel⟩, by decide +kernel, by decide +kernel, by decide +kernel⟩

example : Limits UnityDemo.uEtc1s ∧ format UnityDemo.uEtc1s = 13 ∧ blocksX UnityDemo.uEtc1s % 2 = 0 ∧
    (Unity.unpack UnityDemo.uEtc1s).map List.length = some 96 :=
  ⟨⟨by decide +kernel, ⟨by decide +kernel, by decide +kernel, by decide +kernel⟩, by decide +kernel,
    by decide +kernel, by decide +kernel⟩, by decide +kernel, by decide +kernel, by decide +kernel⟩

example : Limits UnityDemo.uEtc2as ∧ format UnityDemo.uEtc2as = 14 ∧ blocksX UnityDemo.uEtc2as % 2 = 0 ∧
    (Unity.unpack UnityDemo.uEtc2as).map List.length = some 192 :=
  ⟨⟨by decide +kernel, ⟨by decide +kernel, by decide +kernel, by decide +kernel⟩, by decide +kernel,
    by decide +kernel, by decide +kernel⟩, by decide +kernel, by decide +kernel, by decide +kernel⟩

example : Limits UnityDemo.uFaces ∧ format UnityDemo.uFaces = 0 ∧ blocksX UnityDemo.uFaces % 2 = 0 ∧
    (Unity.unpack UnityDemo.uFaces).map List.length = some 64 :=
  ⟨⟨by decide +kernel, ⟨by decide +kernel, by decide +kernel, by decide +kernel⟩, by decide +kernel,
    by decide +kernel, by decide +kernel⟩, by decide +kernel, by decide +kernel, by decide +kernel⟩

/-- The two ETC2 blocks of a file. -/
example : Limits UnityDemo.uEtc2 ∧ format UnityDemo.uEtc2 = 11 ∧ blocksX UnityDemo.uEtc2 % 2 = 0 ∧
    Unity.unpack UnityDemo.uEtc2
      = some [241, 22, 55, 62, 51, 51, 153, 153, 0, 248, 136, 147, 0, 255, 240, 15] :=
  ⟨⟨by decide +kernel, ⟨by decide +kernel, by decide +kernel, by decide +kernel⟩, by decide +kernel,
    by decide +kernel, by decide +kernel⟩, by decide +kernel, by decide +kernel, by decide +kernel⟩

/-! ## C44 -/

/-- **C44, violated.** In a build with overflow checks every complete file with an odd number of
block columns makes `decode_unity_crunch` panic. -/
theorem C44_odd_columns_panic (file dxt : List UInt8) (h : Unity.unpack file = some dxt)
    (hl : Limits file) (hodd : blocksX file % 2 = 1) (w ht : Nat) (image : List UInt32) :
    @Model.Crn.Unity.decodeUnityCrunch Build.debug file w ht image = .panic := by
  letI := Build.debug
  have e := Proofs.Crn.Unity.unityCrunchUnpackLevel_panic h hl rfl hodd
  unfold Model.Crn.Unity.decodeUnityCrunch
  rw [e]

/-- **C44.** There are such files: this one has three block columns, and without overflow checks it
decodes. -/
theorem C44_witness : ∃ file dxt, Unity.unpack file = some dxt ∧ Limits file ∧ blocksX file = 3 ∧
    (∀ (w ht : Nat) (image : List UInt32),
      @Model.Crn.Unity.decodeUnityCrunch Build.debug file w ht image = .panic) ∧
    ∃ image', @Model.Crn.Unity.decodeUnityCrunch Build.release file 9 8 (List.replicate 72 0)
      = .ok (.ok (), image') := by
  have h : Unity.unpack UnityDemo.uOdd = some ((Unity.unpack UnityDemo.uOdd).getD []) := by
    decide +kernel
  have hl : Limits UnityDemo.uOdd :=
    ⟨by decide +kernel, ⟨by decide +kernel, by decide +kernel, by decide +kernel⟩,
      by decide +kernel, by decide +kernel, by decide +kernel⟩
  refine ⟨UnityDemo.uOdd, _, h, hl, by decide +kernel,
    C44_odd_columns_panic _ _ h hl (by decide +kernel), ?_⟩
  letI := Build.release
  obtain ⟨i, e, _⟩ := C55_pixels UnityDemo.uOdd _ h hl (Or.inl rfl) (List.replicate 72 0) (by decide)
    (by decide +kernel)
  exact ⟨i, (show width UnityDemo.uOdd = 9 by decide +kernel) ▸
    (show height UnityDemo.uOdd = 8 by decide +kernel) ▸ e⟩

/-! ## C56, C57 -/

/-- **C56, violated.** A complete file with two faces of 8×4 texels makes `decode_unity_crunch`
panic, in both builds: after every face with an odd number of block rows the decoder goes one row
too far, and the last face is written beyond the end of the buffer. C55 covers files with one face,
and files with an even number of block rows. -/
theorem C56_faces_panic : ∃ file dxt, Unity.unpack file = some dxt ∧ SectionsInside file ∧
    faces file = 2 ∧ blocksX file = 2 ∧ blocksY file = 1 ∧
    ∀ (b : Build) (w h : Nat) (image : List UInt32),
      @Model.Crn.Unity.decodeUnityCrunch b file w h image = .panic := by
  refine ⟨UnityDemo.uOddFaces, (Unity.unpack UnityDemo.uOddFaces).getD [], by decide +kernel,
    ⟨by decide +kernel, by decide +kernel, by decide +kernel⟩, by decide +kernel,
    by decide +kernel, by decide +kernel, ?_⟩
  have key : ∀ ck : Bool, (match @Model.Crn.Unity.unityCrunchUnpackLevel ⟨ck⟩ UnityDemo.uOddFaces
      (asU 32 UnityDemo.uOddFaces.length) 0 with | .panic => true | _ => false) = true := by
    decide +kernel
  intro ⟨ck⟩ w h image
  have hk := key ck
  unfold Model.Crn.Unity.decodeUnityCrunch
  split at hk
  · rename_i e; rw [e]
  · exact absurd hk (by simp)

/-- **C56, the rest.** Whatever it holds, every complete file with two or more faces and an odd
number of block rows makes `decode_unity_crunch` panic, in both builds. -/
theorem C56_odd_rows_panic [Build] (file dxt : List UInt8) (h : Unity.unpack file = some dxt)
    (hsmall : file.length < 2 ^ 32) (hins : SectionsInside file) (hf : 2 ≤ faces file)
    (hodd : blocksY file % 2 = 1)
    (hbig : 16 * (faces file * blocksY file * blocksX file) < 2 ^ 30)
    (w ht : Nat) (image : List UInt32) :
    Model.Crn.Unity.decodeUnityCrunch file w ht image = .panic := by
  unfold Model.Crn.Unity.decodeUnityCrunch
  rw [Unity.unityOddRows_panic h ⟨hsmall, hins, hf, hodd, hbig⟩]

example : (Unity.unpack UnityDemo.uOddFaces).isSome ∧ SectionsInside UnityDemo.uOddFaces ∧
    2 ≤ faces UnityDemo.uOddFaces ∧ blocksY UnityDemo.uOddFaces % 2 = 1 ∧
    16 * (faces UnityDemo.uOddFaces * blocksY UnityDemo.uOddFaces * blocksX UnityDemo.uOddFaces)
      < 2 ^ 30 :=
  ⟨by decide +kernel, ⟨by decide +kernel, by decide +kernel, by decide +kernel⟩, by decide +kernel,
    by decide +kernel, by decide +kernel⟩

/-- **C57, violated.** A complete file whose last section are the tables makes `decode_unity_crunch`
panic, in both builds: the decoder fetches the byte after the section. C55 covers the files where
a byte follows. -/
theorem C57_last_section_panic : ∃ file dxt, Unity.unpack file = some dxt ∧ faces file = 1 ∧
    blocksX file = 2 ∧ tablesOfs file + tablesSize file = file.length ∧
    ∀ (b : Build) (w h : Nat) (image : List UInt32),
      @Model.Crn.Unity.decodeUnityCrunch b file w h image = .panic := by
  refine ⟨UnityDemo.uTail, (Unity.unpack UnityDemo.uTail).getD [], by decide +kernel,
    by decide +kernel, by decide +kernel, by decide +kernel, ?_⟩
  have key : ∀ ck : Bool, (match @Model.Crn.Unity.unityCrunchUnpackLevel ⟨ck⟩ UnityDemo.uTail
      (asU 32 UnityDemo.uTail.length) 0 with | .panic => true | _ => false) = true := by
    decide +kernel
  intro ⟨ck⟩ w h image
  have hk := key ck
  unfold Model.Crn.Unity.decodeUnityCrunch
  split at hk
  · rename_i e; rw [e]
  · exact absurd hk (by simp)

/-! ## C58 -/

/-- **C58.** A buffer that is too short, or whose header is not acceptable, or whose format code is
unknown, is refused with one error, and the image is left alone. -/
theorem C58_refused [Build] (file : List UInt8) (hsmall : file.length < 2 ^ 32)
    (h : file.length < 74 ∨ headerBytes file ≤ file.length ∧
      (¬ HeaderOk file file.length ∨ 15 < format file)) (w ht : Nat) (image : List UInt32) :
    Model.Crn.Unity.decodeUnityCrunch file w ht image
      = .ok (.error "Invalid crunch texture encoding.", image) := by
  have key : ∃ info, Model.crndGetTextureInfo Model.CrnTextureInfo.default file file.length
      = .ok (false, info) := by
    by_cases h74 : file.length < 74
    · exact ⟨_, textureInfo_short (Or.inl h74)⟩
    · rcases h with h | ⟨h1, h2⟩
      · omega
      · by_cases hok : HeaderOk file file.length
        · rcases h2 with h2 | h2
          · exact absurd hok h2
          · exact ⟨_, textureInfo_format (by omega) rfl h1 hok h2⟩
        · exact ⟨_, textureInfo_bad (by omega) rfl h1 hok⟩
  obtain ⟨info, e⟩ := key
  unfold Model.Crn.Unity.decodeUnityCrunch Model.Crn.Unity.unityCrunchUnpackLevel
  rw [show asU 32 file.length = file.length from Nat.mod_eq_of_lt hsmall, e, Res.lift_ok,
    Res.ok_bind]
  rfl

example : headerBytes (UnityDemo.uDxt1.set 0 0) ≤ (UnityDemo.uDxt1.set 0 0).length ∧
    ¬ HeaderOk (UnityDemo.uDxt1.set 0 0) (UnityDemo.uDxt1.set 0 0).length := by decide +kernel

/-- **C58.** `decode_unity_crunch` succeeds only on a buffer of at least 74 bytes with an acceptable
header and one of the formats 0 and 2 to 14. -/
theorem C58_accepted [Build] (file : List UInt8) (hsmall : file.length < 2 ^ 32) (w ht : Nat)
    (image image' : List UInt32)
    (h : Model.Crn.Unity.decodeUnityCrunch file w ht image = .ok (.ok (), image')) :
    74 ≤ file.length ∧ headerBytes file ≤ file.length ∧ HeaderOk file file.length ∧
      (format file = 0 ∨ 2 ≤ format file ∧ format file ≤ 14) := by
  have h74 : 74 ≤ file.length := by
    apply Nat.le_of_not_lt
    intro hl
    rw [C58_refused file hsmall (Or.inl hl)] at h
    simp at h
  have hhb : headerBytes file ≤ file.length := by
    apply Nat.le_of_not_lt
    intro hl
    unfold Model.Crn.Unity.decodeUnityCrunch Model.Crn.Unity.unityCrunchUnpackLevel at h
    rw [show asU 32 file.length = file.length from Nat.mod_eq_of_lt hsmall,
      textureInfo_panic h74 rfl hl, Res.lift_panic, Res.panic_bind] at h
    simp at h
  have hok : HeaderOk file file.length ∧ format file ≤ 15 := by
    apply Classical.byContradiction
    intro hn
    rw [C58_refused file hsmall (Or.inr ⟨hhb, by
      by_cases hh : HeaderOk file file.length
      · right
        apply Nat.lt_of_not_le
        exact fun hf => hn ⟨hh, hf⟩
      · exact Or.inl hh⟩)] at h
    simp at h
  refine ⟨h74, hhb, hok.1, ?_⟩
  have hf15 := hok.2
  unfold Model.Crn.Unity.decodeUnityCrunch at h
  rw [show asU 32 file.length = file.length from Nat.mod_eq_of_lt hsmall] at h
  cases e : Model.Crn.Unity.unityCrunchUnpackLevel file file.length 0 with
  | panic => rw [e] at h; simp at h
  | fail m => rw [e] at h; simp at h
  | ok r =>
    rw [e] at h
    have hr : r.format = Model.crnFormatOf (format file) := by
      unfold Model.Crn.Unity.unityCrunchUnpackLevel at e
      rw [textureInfo_ok h74 rfl hhb hok.1 hok.2, Res.lift_ok, Res.ok_bind] at e
      simp only at e
      rw [if_neg (by simp)] at e
      obtain ⟨_, _, e⟩ := Res.bind_eq_ok.mp e
      obtain ⟨_, _, e⟩ := Res.bind_eq_ok.mp e
      obtain ⟨_, _, e⟩ := Res.bind_eq_ok.mp e
      obtain ⟨_, _, e⟩ := Res.bind_eq_ok.mp e
      obtain ⟨_, _, e⟩ := Res.bind_eq_ok.mp e
      obtain ⟨_, _, e⟩ := Res.bind_eq_ok.mp e
      obtain ⟨_, _, e⟩ := Res.bind_eq_ok.mp e
      obtain ⟨_, _, e⟩ := Res.bind_eq_ok.mp e
      obtain ⟨_, _, e⟩ := Res.bind_eq_ok.mp e
      rw [Res.pure_eq, Res.ok.injEq] at e
      rw [← e]
    simp only [hr] at h
    generalize format file = n at h hf15
    have hn : n < 16 := by omega
    match n, hn with
    | 0, _ | 2, _ | 3, _ | 4, _ | 5, _ | 6, _ | 7, _ | 8, _ | 9, _ | 10, _ | 11, _ | 12, _ | 13, _
    | 14, _ => omega
    | 1, _ | 15, _ => exact absurd h (by simp [Model.crnFormatOf])

/-- A file with a success. -/
example : ∃ image', @Model.Crn.Unity.decodeUnityCrunch Build.debug UnityDemo.uFaces 8 8
    (List.replicate 64 0) = .ok (.ok (), image') := by
  letI := Build.debug
  have h : Unity.unpack UnityDemo.uFaces = some ((Unity.unpack UnityDemo.uFaces).getD []) := by
    decide +kernel
  obtain ⟨i, e, _⟩ := C55_pixels UnityDemo.uFaces _ h
    ⟨by decide +kernel, ⟨by decide +kernel, by decide +kernel, by decide +kernel⟩, by decide +kernel,
      by decide +kernel, by decide +kernel⟩ (Or.inr (by decide +kernel)) (List.replicate 64 0)
    (by decide) (by decide +kernel)
  rw [show width UnityDemo.uFaces = 8 by decide +kernel,
    show height UnityDemo.uFaces = 8 by decide +kernel] at e
  exact ⟨i, e⟩

end Verif.Props
