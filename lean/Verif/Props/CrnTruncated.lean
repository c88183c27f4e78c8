import Verif.Props.CrnChecksum

/-!
# Crunch files that end too early (C71)
-/

namespace Verif.Props

open Verif Verif.Spec.Crn Verif.Proofs.Crn

/-- The first `n` bytes of a file, and `n` (below 256) in its header as the size of the file. -/
def cutAt (n : Nat) (file : List UInt8) : List UInt8 := (file.take n).set 9 (UInt8.ofNat n)

/-- The demo file with two faces, without its last byte. -/
def crnShort : List UInt8 := [
  72, 120, 0, 74, 0, 0, 0, 0, 0, 150, 0, 0, 0, 4, 0, 8, 1, 2, 0, 0, 0, 0, 0, 0, 0, 0, 0, 0, 0, 0,
  0, 0, 0, 0, 0, 74, 0, 0, 27, 0, 2, 0, 0, 101, 0, 0, 17, 0, 2, 0, 0, 118, 0, 0, 0, 0, 0, 0, 0,
  118, 0, 0, 0, 0, 0, 0, 31, 0, 0, 118, 0, 0, 0, 149, 0, 129, 225, 0, 128, 0, 0, 2, 69, 135, 42,
  2, 4, 66, 1, 0, 0, 0, 0, 18, 50, 244, 104, 6, 10, 164, 192, 0, 194, 41, 0, 128, 0, 0, 0, 8, 114,
  77, 153, 46, 238, 241, 17, 0, 0, 158, 96, 128, 0, 0, 0, 0, 0, 25, 176, 0, 83, 0, 0, 0, 0, 0, 0,
  0, 128, 1, 76, 0, 0, 0, 0, 0, 0, 2, 0, 6]

/-- The demo file with two faces, without its level and one more byte. -/
def crnShorter : List UInt8 := [
  72, 120, 0, 74, 0, 0, 0, 0, 0, 148, 0, 0, 0, 4, 0, 8, 1, 2, 0, 0, 0, 0, 0, 0, 0, 0, 0, 0, 0, 0,
  0, 0, 0, 0, 0, 74, 0, 0, 27, 0, 2, 0, 0, 101, 0, 0, 17, 0, 2, 0, 0, 118, 0, 0, 0, 0, 0, 0, 0,
  118, 0, 0, 0, 0, 0, 0, 31, 0, 0, 118, 0, 0, 0, 149, 0, 129, 225, 0, 128, 0, 0, 2, 69, 135, 42,
  2, 4, 66, 1, 0, 0, 0, 0, 18, 50, 244, 104, 6, 10, 164, 192, 0, 194, 41, 0, 128, 0, 0, 0, 8, 114,
  77, 153, 46, 238, 241, 17, 0, 0, 158, 96, 128, 0, 0, 0, 0, 0, 25, 176, 0, 83, 0, 0, 0, 0, 0, 0,
  0, 128, 1, 76, 0, 0, 0, 0, 0, 0, 2]

/-- The demo file of Unity's variant with two faces, without its last byte. -/
def unityShort : List UInt8 := [
  72, 120, 0, 74, 0, 0, 0, 0, 0, 158, 0, 0, 0, 8, 0, 8, 1, 2, 0, 0, 0, 0, 0, 0, 0, 0, 0, 0, 0, 0,
  0, 0, 0, 0, 0, 74, 0, 0, 33, 0, 3, 0, 0, 107, 0, 0, 18, 0, 2, 0, 0, 125, 0, 0, 0, 0, 0, 0, 0,
  125, 0, 0, 0, 0, 0, 0, 32, 0, 0, 125, 0, 0, 0, 157, 0, 129, 161, 0, 128, 0, 0, 145, 80, 65, 131,
  170, 2, 3, 210, 1, 0, 0, 0, 4, 136, 201, 211, 163, 0, 2, 128, 146, 120, 198, 141, 26, 128, 0,
  61, 232, 0, 128, 0, 0, 2, 4, 98, 168, 167, 28, 113, 211, 80, 94, 64, 1, 38, 96, 128, 0, 0, 0, 0,
  0, 26, 180, 48, 0, 41, 128, 0, 0, 0, 0, 0, 0, 64, 0, 166, 0, 0, 0, 0, 0, 0, 1, 0, 214]

/-- The same, without its level and one more byte. -/
def unityShorter : List UInt8 := [
  72, 120, 0, 74, 0, 0, 0, 0, 0, 156, 0, 0, 0, 8, 0, 8, 1, 2, 0, 0, 0, 0, 0, 0, 0, 0, 0, 0, 0, 0,
  0, 0, 0, 0, 0, 74, 0, 0, 33, 0, 3, 0, 0, 107, 0, 0, 18, 0, 2, 0, 0, 125, 0, 0, 0, 0, 0, 0, 0,
  125, 0, 0, 0, 0, 0, 0, 32, 0, 0, 125, 0, 0, 0, 157, 0, 129, 161, 0, 128, 0, 0, 145, 80, 65, 131,
  170, 2, 3, 210, 1, 0, 0, 0, 4, 136, 201, 211, 163, 0, 2, 128, 146, 120, 198, 141, 26, 128, 0,
  61, 232, 0, 128, 0, 0, 2, 4, 98, 168, 167, 28, 113, 211, 80, 94, 64, 1, 38, 96, 128, 0, 0, 0, 0,
  0, 26, 180, 48, 0, 41, 128, 0, 0, 0, 0, 0, 0, 64, 0, 166, 0, 0, 0, 0, 0, 0, 1]

/-- A decoder panicked. -/
def crnPanics (a : Out (Except String Unit × List UInt32)) : Bool :=
  match a with
  | .panic => true
  | _ => false

theorem of_crnPanics {a : Out (Except String Unit × List UInt32)} (h : crnPanics a = true) :
    a = .panic := by
  unfold crnPanics at h
  split at h
  · rfl
  · exact absurd h (by simp)

/-- A decoder succeeded. -/
def crnDecodes (a : Out (Except String Unit × List UInt32)) : Bool :=
  match a with
  | .ok (.ok (), _) => true
  | _ => false

theorem of_crnDecodes {a : Out (Except String Unit × List UInt32)} (h : crnDecodes a = true) :
    ∃ image, a = .ok (.ok (), image) := by
  unfold crnDecodes at h
  split at h
  · next image => exact ⟨image, rfl⟩
  · exact absurd h (by simp)

/-- **C71, violated.** A file without its last byte, whose header gives the new size, does not hold
the whole texture, but `decode_crunch` succeeds, in both builds. If it ends before its level, within
the tables, `decode_crunch` panics. -/
theorem C71_crunch_violated : ∃ file short shorter, (unpack file).isSome ∧ Limits file ∧
    short = cutAt (file.length - 1) file ∧ dataSize short = short.length ∧ unpack short = none ∧
    shorter = cutAt (levelOfs file 0 - 1) file ∧ dataSize shorter = shorter.length ∧
    unpack shorter = none ∧
    ∀ b : Build, (∃ image, @Model.Crn.decodeCrunch b short 4 8 (List.replicate 32 0) = .ok (.ok (), image)) ∧
      @Model.Crn.decodeCrunch b shorter 4 8 (List.replicate 32 0) = .panic := by
  refine ⟨CrnDemo.crnFaces, crnShort, crnShorter, by decide +kernel,
    ⟨by decide +kernel, ⟨by decide +kernel, by decide +kernel, by decide +kernel⟩,
      by decide +kernel, by decide +kernel, by decide +kernel⟩, by decide +kernel, by decide +kernel,
    by decide +kernel, by decide +kernel, by decide +kernel, by decide +kernel, fun ⟨ck⟩ => ⟨?_, ?_⟩⟩
  · apply of_crnDecodes
    revert ck
    decide +kernel
  · apply of_crnPanics
    revert ck
    decide +kernel

/-- **C71, violated.** The same for `decode_unity_crunch`. -/
theorem C71_unity_crunch_violated : ∃ file short shorter, (Unity.unpack file).isSome ∧ Limits file ∧
    short = cutAt (file.length - 1) file ∧ dataSize short = short.length ∧ Unity.unpack short = none ∧
    shorter = cutAt (levelOfs file 0 - 1) file ∧ dataSize shorter = shorter.length ∧
    Unity.unpack shorter = none ∧
    ∀ b : Build, (∃ image, @Model.Crn.Unity.decodeUnityCrunch b short 8 8 (List.replicate 64 0) = .ok (.ok (), image)) ∧
      @Model.Crn.Unity.decodeUnityCrunch b shorter 8 8 (List.replicate 64 0) = .panic := by
  refine ⟨UnityDemo.uFaces, unityShort, unityShorter, by decide +kernel,
    ⟨by decide +kernel, ⟨by decide +kernel, by decide +kernel, by decide +kernel⟩,
      by decide +kernel, by decide +kernel, by decide +kernel⟩, by decide +kernel, by decide +kernel,
    by decide +kernel, by decide +kernel, by decide +kernel, by decide +kernel, fun ⟨ck⟩ => ⟨?_, ?_⟩⟩
  · apply of_crnDecodes
    revert ck
    decide +kernel
  · apply of_crnPanics
    revert ck
    decide +kernel

/-- A file that was cut off, with the old size in its header. -/
theorem cut_header {file : List UInt8} {n : Nat} (hn : 74 ≤ n) :
    headerBytes (file.take n) = headerBytes file ∧ dataSize (file.take n) = dataSize file := by
  have hg : ∀ i, i < 74 → (file.take n)[i]? = file[i]? := fun i hi =>
    List.getElem?_take_of_lt (by omega)
  have h1 : levels (file.take n) = levels file := be_congr fun i _ h2 => hg i (by omega)
  have h2 : dataSize (file.take n) = dataSize file := be_congr fun i _ h2 => hg i (by omega)
  exact ⟨by unfold headerBytes; rw [h1], h2⟩

/-- **C71** (what holds) A file that was cut off anywhere behind the header, or within the first 74
bytes, is refused with an error if its header gives the old size: the image is left alone. -/
theorem C71_crunch_cut_partial [Build] (file : List UInt8) (hsmall : file.length < 2 ^ 32)
    (hsize : dataSize file = file.length) (n : Nat) (hn : n < file.length)
    (hcut : n < 74 ∨ headerBytes file ≤ n) (w h : Nat) (image : List UInt32) :
    Model.Crn.decodeCrunch (file.take n) w h image
      = .ok (.error "Invalid crunch texture encoding.", image) := by
  have hlen : (file.take n).length = n := by rw [List.length_take]; omega
  refine C54_refused _ (by omega) ?_ w h image
  rw [hlen]
  rcases Nat.lt_or_ge n 74 with h74 | h74
  · exact Or.inl h74
  · obtain ⟨h1, h2⟩ := cut_header (file := file) h74
    refine Or.inr ⟨by rw [h1]; omega, Or.inl fun hok => ?_⟩
    have := hok.2.2
    omega

/-- **C71** (what holds) The same for `decode_unity_crunch`. -/
theorem C71_unity_crunch_cut_partial [Build] (file : List UInt8) (hsmall : file.length < 2 ^ 32)
    (hsize : dataSize file = file.length) (n : Nat) (hn : n < file.length)
    (hcut : n < 74 ∨ headerBytes file ≤ n) (w h : Nat) (image : List UInt32) :
    Model.Crn.Unity.decodeUnityCrunch (file.take n) w h image
      = .ok (.error "Invalid crunch texture encoding.", image) := by
  have hlen : (file.take n).length = n := by rw [List.length_take]; omega
  refine C58_refused _ (by omega) ?_ w h image
  rw [hlen]
  rcases Nat.lt_or_ge n 74 with h74 | h74
  · exact Or.inl h74
  · obtain ⟨h1, h2⟩ := cut_header (file := file) h74
    refine Or.inr ⟨by rw [h1]; omega, Or.inl fun hok => ?_⟩
    have := hok.2.2
    omega

/-- The demo files have the sizes their headers give. -/
example : dataSize CrnDemo.crnDxt1 = CrnDemo.crnDxt1.length ∧ headerBytes CrnDemo.crnDxt1 = 74 ∧
    dataSize UnityDemo.uDxt1 = UnityDemo.uDxt1.length ∧ headerBytes UnityDemo.uDxt1 = 74 := by
  decide +kernel

end Verif.Props
