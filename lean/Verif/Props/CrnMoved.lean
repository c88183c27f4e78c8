import Verif.Props.CrnChecksum
import Verif.Proofs.Crn.Moved

/-!
# C53 and C57: the order of the sections of a Crunch file

The sections can be in any order and at any place, if a byte follows each of those with codes and palettes. Without
this condition the property is false: `C53_last_section_panic` and `C57_last_section_panic`.
-/

namespace Verif.Props

open Verif Verif.Proofs Verif.Proofs.Crn Verif.Spec.Crn

/-- **C53** (what holds) Files that differ only in the places and the order of their sections give the same results,
for all sizes and images. -/
theorem C53_moved_partial [Build] (f g dxt : List UInt8) (hu : unpack f = some dxt) (hl : Limits f) (hm : Moved f g)
    (hsmall : g.length < 2 ^ 32) (hs : SectionsInside g) (w h : Nat) (image : List UInt32) :
    Model.Crn.decodeCrunch g w h image = Model.Crn.decodeCrunch f w h image := by
  rw [C51_blocks f dxt hu hl, C51_blocks g dxt (moved_unpack hm hu) (moved_limits hm hl hsmall hs), hm.format]

/-- **C57** (what holds) The same for `decode_unity_crunch`. -/
theorem C57_moved_partial [Build] (f g dxt : List UInt8) (hu : Unity.unpack f = some dxt) (hl : Limits f)
    (hm : Moved f g) (hsmall : g.length < 2 ^ 32) (hs : SectionsInside g) (w h : Nat) (image : List UInt32) :
    Model.Crn.Unity.decodeUnityCrunch g w h image = Model.Crn.Unity.decodeUnityCrunch f w h image := by
  have hx : blocksX f = blocksX g := moved_blocksX hm
  have hu' := moved_unityUnpack hm hu
  have hl' := moved_limits hm hl hsmall hs
  by_cases hodd : Build.overflowChecks = false ∨ blocksX f % 2 = 0
  · rw [C55_blocks f dxt hu hl hodd, C55_blocks g dxt hu' hl' (hx ▸ hodd), hm.format]
  · rename_i inst
    obtain ⟨ck⟩ := inst
    cases ck
    · exact absurd (Or.inl rfl) hodd
    · have ho : blocksX f % 2 = 1 := by
        have : ¬ blocksX f % 2 = 0 := fun e => hodd (Or.inr e)
        omega
      exact (C44_odd_columns_panic g dxt hu' hl' (hx ▸ ho) w h image).trans
        (C44_odd_columns_panic f dxt hu hl ho w h image).symm

/-- The demo file in DXT1 with its sections in another order, and another byte at the end. -/
def crnMoved : List UInt8 := [
  72, 120, 0, 74, 0, 0, 0, 0, 0, 162, 0, 0, 0, 12, 0, 9, 1, 1, 0, 0, 0, 0, 0, 0, 0, 0, 0, 0, 0, 0,
  0, 0, 0, 0, 0, 128, 0, 0, 33, 0, 3, 0, 0, 74, 0, 0, 17, 0, 2, 0, 0, 124, 0, 0, 0, 0, 0, 0, 0,
  124, 0, 0, 0, 0, 0, 0, 32, 0, 0, 96, 0, 0, 0, 91, 0, 194, 41, 0, 128, 0, 0, 0, 8, 114, 77, 153,
  46, 238, 241, 17, 0, 165, 21, 171, 194, 112, 4, 46, 97, 0, 128, 0, 0, 0, 0, 33, 191, 220, 208, 0,
  226, 0, 0, 0, 0, 0, 0, 64, 0, 83, 0, 0, 0, 0, 0, 0, 0, 128, 0, 129, 161, 0, 128, 0, 0, 145, 80,
  65, 131, 170, 2, 3, 210, 1, 0, 0, 0, 4, 136, 201, 211, 163, 0, 2, 128, 146, 120, 198, 141, 26,
  128, 255]

/-- The demo file of Unity's variant in DXT1 with its sections in another order, and another byte at the end. -/
def unityMoved : List UInt8 := [
  72, 120, 0, 74, 0, 0, 0, 0, 0, 163, 0, 0, 0, 13, 0, 9, 1, 1, 0, 0, 0, 0, 0, 0, 0, 0, 0, 0, 0, 0,
  0, 0, 0, 0, 0, 129, 0, 0, 33, 0, 3, 0, 0, 74, 0, 0, 18, 0, 2, 0, 0, 125, 0, 0, 0, 0, 0, 0, 0,
  125, 0, 0, 0, 0, 0, 0, 33, 0, 0, 96, 0, 0, 0, 92, 0, 61, 232, 0, 128, 0, 0, 2, 4, 98, 168, 167,
  28, 113, 211, 80, 94, 64, 144, 135, 24, 96, 3, 94, 32, 128, 0, 0, 0, 0, 6, 53, 20, 235, 82, 128,
  3, 152, 0, 16, 0, 0, 0, 0, 6, 128, 5, 48, 0, 0, 0, 0, 0, 0, 8, 0, 129, 161, 0, 128, 0, 0, 145,
  80, 65, 131, 170, 2, 3, 210, 1, 0, 0, 0, 4, 136, 201, 211, 163, 0, 2, 128, 146, 120, 198, 141,
  26, 128, 255]

/- The sections of these files are in another order: the level comes before the tables, and the palette of colours is
last. -/
example : (colorSelectors crnMoved).ofs < levelOfs crnMoved 0 ∧ levelOfs crnMoved 0 < tablesOfs crnMoved ∧
    tablesOfs crnMoved < (colorEndpoints crnMoved).ofs ∧ crnMoved.length = 162 := by decide +kernel

example [Build] (w h : Nat) (image : List UInt32) :
    Model.Crn.decodeCrunch crnMoved w h image = Model.Crn.decodeCrunch CrnDemo.crnDxt1 w h image :=
  C53_moved_partial _ _ _ (show unpack CrnDemo.crnDxt1 = some ((unpack CrnDemo.crnDxt1).getD []) by decide +kernel)
    ⟨by decide +kernel, ⟨by decide +kernel, fun _ => by decide +kernel, fun _ => by decide +kernel⟩, by decide +kernel,
      by decide +kernel, by decide +kernel⟩
    { header := by decide +kernel, levels := by decide +kernel, complete := by decide +kernel,
      width := by decide +kernel, height := by decide +kernel, faces := by decide +kernel,
      format := by decide +kernel,
      tables := ⟨by decide +kernel, by decide +kernel, by decide +kernel⟩,
      colours := by decide +kernel,
      colour := fun _ => ⟨⟨by decide +kernel, ⟨by decide +kernel, by decide +kernel, by decide +kernel⟩⟩,
        ⟨by decide +kernel, ⟨by decide +kernel, by decide +kernel, by decide +kernel⟩⟩⟩,
      alphas := by decide +kernel,
      alpha := fun e => absurd (show (alphaEndpoints CrnDemo.crnDxt1).num = 0 by decide +kernel) e,
      levelInside := by decide +kernel, level := by decide +kernel }
    (by decide +kernel) ⟨by decide +kernel, fun _ => by decide +kernel, fun e =>
      absurd (show (alphaEndpoints crnMoved).num = 0 by decide +kernel) e⟩ w h image

example [Build] (w h : Nat) (image : List UInt32) :
    Model.Crn.Unity.decodeUnityCrunch unityMoved w h image =
      Model.Crn.Unity.decodeUnityCrunch UnityDemo.uDxt1 w h image :=
  C57_moved_partial _ _ _
    (show Unity.unpack UnityDemo.uDxt1 = some ((Unity.unpack UnityDemo.uDxt1).getD []) by decide +kernel)
    ⟨by decide +kernel, ⟨by decide +kernel, fun _ => by decide +kernel, fun _ => by decide +kernel⟩, by decide +kernel,
      by decide +kernel, by decide +kernel⟩
    { header := by decide +kernel, levels := by decide +kernel, complete := by decide +kernel,
      width := by decide +kernel, height := by decide +kernel, faces := by decide +kernel,
      format := by decide +kernel,
      tables := ⟨by decide +kernel, by decide +kernel, by decide +kernel⟩,
      colours := by decide +kernel,
      colour := fun _ => ⟨⟨by decide +kernel, ⟨by decide +kernel, by decide +kernel, by decide +kernel⟩⟩,
        ⟨by decide +kernel, ⟨by decide +kernel, by decide +kernel, by decide +kernel⟩⟩⟩,
      alphas := by decide +kernel,
      alpha := fun e => absurd (show (alphaEndpoints UnityDemo.uDxt1).num = 0 by decide +kernel) e,
      levelInside := by decide +kernel, level := by decide +kernel }
    (by decide +kernel) ⟨by decide +kernel, fun _ => by decide +kernel, fun e =>
      absurd (show (alphaEndpoints unityMoved).num = 0 by decide +kernel) e⟩ w h image

end Verif.Props
