import Verif.Proofs.Crn.Used
import Verif.Props.Crunch
import Verif.Props.UnityCrunch

/-!
# The bytes of a Crunch file that matter, and its checksums (C69, C70)
-/

namespace Verif.Props

open Verif Verif.Spec.Crn Verif.Proofs.Crn

/-! ## C70: only the bytes that hold the first level matter -/

/-- **C70.** Two files of the same length that agree in the bytes that matter for the first level
(`Spec.Crn.Used`) are decoded alike by `decode_crunch`, at whatever size. -/
theorem C70_crunch [Build] (f g dxt : List UInt8) (hu : unpack f = some dxt) (hl : Limits f)
    (hlen : f.length = g.length) (hsame : ∀ i, Used f i → f[i]? = g[i]?) (w h : Nat)
    (image : List UInt32) :
    Model.Crn.decodeCrunch f w h image = Model.Crn.decodeCrunch g w h image := by
  have hs : SameContents f g := ⟨hlen, hsame⟩
  rw [C51_blocks f dxt hu hl, C51_blocks g dxt (hs.unpack ▸ hu) (hs.limits hl), hs.header.format]

/-- **C70.** The same for `decode_unity_crunch`. -/
theorem C70_unity_crunch [Build] (f g dxt : List UInt8) (hu : Unity.unpack f = some dxt)
    (hl : Limits f) (hlen : f.length = g.length) (hsame : ∀ i, Used f i → f[i]? = g[i]?) (w h : Nat)
    (image : List UInt32) :
    Model.Crn.Unity.decodeUnityCrunch f w h image = Model.Crn.Unity.decodeUnityCrunch g w h image := by
  have hs : SameContents f g := ⟨hlen, hsame⟩
  have hx : blocksX f = blocksX g := by unfold blocksX; rw [hs.header.width]
  by_cases hodd : Build.overflowChecks = false ∨ blocksX f % 2 = 0
  · rw [C55_blocks f dxt hu hl hodd, C55_blocks g dxt (hs.unityUnpack ▸ hu) (hs.limits hl) (hx ▸ hodd),
      hs.header.format]
  · rename_i inst
    obtain ⟨ck⟩ := inst
    cases ck
    · exact absurd (Or.inl rfl) hodd
    · have ho : blocksX f % 2 = 1 := by
        have : ¬ blocksX f % 2 = 0 := fun e => hodd (Or.inr e)
        omega
      exact (C44_odd_columns_panic f dxt hu hl ho w h image).trans
        (C44_odd_columns_panic g dxt (hs.unityUnpack ▸ hu) (hs.limits hl) (hx ▸ ho) w h image).symm

/-- The demo files have bytes that do not matter: the checksums, flags, reserved field and user data. -/
example : (List.range 161).filter (fun i => ¬ Used CrnDemo.crnDxt1 i) =
    [4, 5, 10, 11, 19, 20, 21, 22, 23, 24, 25, 26, 27, 28, 29, 30, 31, 32] := by decide +kernel

example : (List.range 162).filter (fun i => ¬ Used UnityDemo.uDxt1 i) =
    [4, 5, 10, 11, 19, 20, 21, 22, 23, 24, 25, 26, 27, 28, 29, 30, 31, 32] := by decide +kernel

/-! ## C69: damaged files are noticed (violated) -/

/-- A file of the Crunch compressor has its checksums. -/
def withChecksums (file : List UInt8) (a b c d : UInt8) : List UInt8 :=
  (((file.set 4 a).set 5 b).set 10 c).set 11 d

/-- The demo file in DXT1, with its checksums. -/
def crnSigned : List UInt8 := withChecksums CrnDemo.crnDxt1 117 128 180 139
/-- The demo file of Unity's variant in DXT1, with its checksums. -/
def unitySigned : List UInt8 := withChecksums UnityDemo.uDxt1 233 36 18 247

/-- Both decoders succeeded, with different images. -/
def decodedDifferently (a b : Out (Except String Unit × List UInt32)) : Bool :=
  match a, b with
  | .ok (.ok (), x), .ok (.ok (), y) => x != y
  | _, _ => false

theorem of_decodedDifferently {a b : Out (Except String Unit × List UInt32)}
    (h : decodedDifferently a b = true) :
    ∃ x y, a = .ok (.ok (), x) ∧ b = .ok (.ok (), y) ∧ x ≠ y := by
  unfold decodedDifferently at h
  split at h
  · next x y => exact ⟨x, y, rfl, rfl, by simpa using h⟩
  · exact absurd h (by simp)

/-- The blocks of the file with checksums. -/
theorem crnSigned_blocks : unpack crnSigned = some [
    67, 8, 157, 247, 5, 5, 5, 5, 67, 8, 157, 247, 5, 5, 5, 5, 67, 8, 157, 247, 5, 5, 5, 5, 67, 8,
    157, 247, 120, 120, 120, 120, 67, 8, 157, 247, 120, 120, 120, 120, 0, 248, 224, 7, 120, 120,
    120, 120, 0, 248, 224, 7, 120, 120, 120, 120, 0, 248, 224, 7, 5, 5, 5, 5, 199, 40, 199, 40,
    120, 120, 120, 120] := by decide +kernel

/-- The blocks of the damaged file. -/
theorem crnDamaged_blocks : unpack (crnSigned.set 157 0) = some [
    67, 8, 157, 247, 5, 5, 5, 5, 67, 8, 157, 247, 5, 5, 5, 5, 67, 8, 157, 247, 120, 120, 120, 120,
    67, 8, 157, 247, 120, 120, 120, 120, 67, 8, 157, 247, 120, 120, 120, 120, 67, 8, 157, 247,
    120, 120, 120, 120, 67, 8, 157, 247, 120, 120, 120, 120, 67, 8, 157, 247, 5, 5, 5, 5, 0, 248,
    224, 7, 120, 120, 120, 120] := by decide +kernel

/-- The blocks of the file with checksums. -/
theorem unitySigned_blocks : Unity.unpack unitySigned = some [
    0, 248, 224, 7, 120, 120, 120, 120, 0, 248, 224, 7, 5, 78, 128, 159, 0, 248, 224, 7, 120, 120,
    120, 120, 0, 248, 224, 7, 5, 78, 128, 159, 0, 248, 224, 7, 120, 120, 120, 120, 0, 248, 224, 7,
    120, 120, 120, 120, 0, 248, 224, 7, 120, 120, 120, 120, 0, 248, 224, 7, 5, 78, 128, 159, 0,
    248, 224, 7, 120, 120, 120, 120, 0, 248, 224, 7, 120, 120, 120, 120, 0, 248, 224, 7, 5, 78,
    128, 159, 0, 248, 224, 7, 120, 120, 120, 120] := by decide +kernel

/-- The blocks of the damaged file. -/
theorem unityDamaged_blocks : Unity.unpack (unitySigned.set 158 145) = some [
    0, 248, 224, 7, 120, 120, 120, 120, 0, 248, 224, 7, 5, 78, 128, 159, 0, 248, 224, 7, 5, 78,
    128, 159, 0, 248, 224, 7, 5, 78, 128, 159, 0, 248, 224, 7, 120, 120, 120, 120, 0, 248, 224, 7,
    120, 120, 120, 120, 0, 248, 224, 7, 120, 120, 120, 120, 0, 248, 224, 7, 5, 78, 128, 159, 0,
    248, 224, 7, 120, 120, 120, 120, 0, 248, 224, 7, 120, 120, 120, 120, 0, 248, 224, 7, 5, 78,
    128, 159, 0, 248, 224, 7, 120, 120, 120, 120] := by decide +kernel

/-- **C69, violated.** One byte of a file with correct checksums is damaged: the checksums tell, but
`decode_crunch` succeeds, in both builds, with another image. -/
theorem C69_crunch_damage_unnoticed : ∃ file i v, ChecksumsOk file ∧ (unpack file).isSome ∧
    Limits file ∧ ¬ ChecksumsOk (file.set i v) ∧ ∀ b : Build, ∃ x y,
      @Model.Crn.decodeCrunch b file 12 9 (List.replicate 108 0) = .ok (.ok (), x) ∧
      @Model.Crn.decodeCrunch b (file.set i v) 12 9 (List.replicate 108 0) = .ok (.ok (), y) ∧
      x ≠ y := by
  have hl : Limits crnSigned :=
    ⟨by decide +kernel, ⟨by decide +kernel, by decide +kernel, by decide +kernel⟩,
      by decide +kernel, by decide +kernel, by decide +kernel⟩
  have hl' : Limits (crnSigned.set 157 0) :=
    ⟨by decide +kernel, ⟨by decide +kernel, by decide +kernel, by decide +kernel⟩,
      by decide +kernel, by decide +kernel, by decide +kernel⟩
  refine ⟨crnSigned, 157, 0, by decide +kernel, by rw [crnSigned_blocks]; rfl, hl, by decide +kernel,
    fun b => ?_⟩
  rw [C51_blocks _ _ crnSigned_blocks hl, C51_blocks _ _ crnDamaged_blocks hl']
  obtain ⟨ck⟩ := b
  apply of_decodedDifferently
  revert ck
  decide +kernel

/-- **C69, violated.** The same for `decode_unity_crunch`. -/
theorem C69_unity_crunch_damage_unnoticed : ∃ file i v, ChecksumsOk file ∧ (Unity.unpack file).isSome ∧
    Limits file ∧ ¬ ChecksumsOk (file.set i v) ∧ ∀ b : Build, ∃ x y,
      @Model.Crn.Unity.decodeUnityCrunch b file 13 9 (List.replicate 117 0) = .ok (.ok (), x) ∧
      @Model.Crn.Unity.decodeUnityCrunch b (file.set i v) 13 9 (List.replicate 117 0) = .ok (.ok (), y) ∧
      x ≠ y := by
  have hl : Limits unitySigned :=
    ⟨by decide +kernel, ⟨by decide +kernel, by decide +kernel, by decide +kernel⟩,
      by decide +kernel, by decide +kernel, by decide +kernel⟩
  have hl' : Limits (unitySigned.set 158 145) :=
    ⟨by decide +kernel, ⟨by decide +kernel, by decide +kernel, by decide +kernel⟩,
      by decide +kernel, by decide +kernel, by decide +kernel⟩
  refine ⟨unitySigned, 158, 145, by decide +kernel, by rw [unitySigned_blocks]; rfl, hl,
    by decide +kernel, fun b => ?_⟩
  rw [C55_blocks _ _ unitySigned_blocks hl (Or.inr (by decide +kernel)),
    C55_blocks _ _ unityDamaged_blocks hl' (Or.inr (by decide +kernel))]
  obtain ⟨ck⟩ := b
  apply of_decodedDifferently
  revert ck
  decide +kernel

theorem withChecksums_get (file : List UInt8) (a b c d : UInt8) {i : Nat}
    (hi : i ≠ 4 ∧ i ≠ 5 ∧ i ≠ 10 ∧ i ≠ 11) : (withChecksums file a b c d)[i]? = file[i]? := by
  unfold withChecksums
  rw [List.getElem?_set_ne (by omega), List.getElem?_set_ne (by omega),
    List.getElem?_set_ne (by omega), List.getElem?_set_ne (by omega)]

/-- **C69, how far it is violated.** Neither checksum of any file is looked at: whatever the four bytes
say, `decode_crunch` does the same. -/
theorem C69_crunch_checksums_ignored [Build] (file dxt : List UInt8) (hu : unpack file = some dxt)
    (hl : Limits file) (hout : ¬ Used file 4 ∧ ¬ Used file 5 ∧ ¬ Used file 10 ∧ ¬ Used file 11)
    (a b c d : UInt8) (w h : Nat) (image : List UInt32) :
    Model.Crn.decodeCrunch (withChecksums file a b c d) w h image
      = Model.Crn.decodeCrunch file w h image := by
  refine (C70_crunch file _ dxt hu hl (by simp [withChecksums]) (fun i hi => ?_) w h image).symm
  refine (withChecksums_get file a b c d ⟨?_, ?_, ?_, ?_⟩).symm <;> (rintro rfl; simp_all)

/-- **C69, how far it is violated.** The same for `decode_unity_crunch`. -/
theorem C69_unity_crunch_checksums_ignored [Build] (file dxt : List UInt8)
    (hu : Unity.unpack file = some dxt) (hl : Limits file)
    (hout : ¬ Used file 4 ∧ ¬ Used file 5 ∧ ¬ Used file 10 ∧ ¬ Used file 11)
    (a b c d : UInt8) (w h : Nat) (image : List UInt32) :
    Model.Crn.Unity.decodeUnityCrunch (withChecksums file a b c d) w h image
      = Model.Crn.Unity.decodeUnityCrunch file w h image := by
  refine (C70_unity_crunch file _ dxt hu hl (by simp [withChecksums]) (fun i hi => ?_) w h image).symm
  refine (withChecksums_get file a b c d ⟨?_, ?_, ?_, ?_⟩).symm <;> (rintro rfl; simp_all)

example : (unpack crnSigned).isSome ∧ ¬ Used crnSigned 4 ∧ ¬ Used crnSigned 5 ∧ ¬ Used crnSigned 10 ∧
    ¬ Used crnSigned 11 := by decide +kernel

example : (Unity.unpack unitySigned).isSome ∧ ¬ Used unitySigned 4 ∧ ¬ Used unitySigned 5 ∧
    ¬ Used unitySigned 10 ∧ ¬ Used unitySigned 11 := by decide +kernel

end Verif.Props
