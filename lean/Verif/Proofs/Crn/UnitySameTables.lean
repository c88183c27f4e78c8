import Verif.Proofs.Crn.SameTables
import Verif.Spec.UnityClosed

/-! # Files of Unity's variant with the same codes and palettes -/

namespace Verif.Proofs.Crn

open Verif Verif.Spec.Crn

variable {f g : List UInt8} (h : SameTables f g)
include h

theorem SameTables.unityIndices (c : Codes) : Unity.fileIndices f c = Unity.fileIndices g c := by
  have H := h.header
  have hp : (colorEndpoints f).num ≠ 0 → Unity.colourPalettes f = Unity.colourPalettes g := fun hn => by
    unfold Unity.colourPalettes filePalette
    rw [← H.ce, ← H.cs, ← H.format]
    split
    · rw [h.endpoints hn, h.selectors hn]
    · rw [h.endpoints hn, h.selectors hn]
  have hc : Unity.colourPlane f c = Unity.colourPlane g c := by
    unfold Unity.colourPlane
    rw [← H.ce]
    split
    · rfl
    · next hn => rw [hp hn]
  have ha : Unity.alphaPlane f c = Unity.alphaPlane g c := by
    unfold Unity.alphaPlane filePalette
    rw [← H.ae, ← H.as, ← H.format]
    split
    · rfl
    · next hn => rw [h.alphaEndpoints hn, h.alphaSelectors hn]
  unfold Unity.fileIndices
  rw [hc, ha, ← H.format]
  unfold Unity.halfBlocks.require' filePalette
  rw [← H.ce, ← H.cs, ← H.ae, ← H.as]
  by_cases hn : (colorEndpoints f).num = 0
  · simp only [hn, ne_eq, not_true_eq_false, if_false]
    rfl
  · rw [h.endpoints hn, h.selectors hn]
    by_cases hm : (Spec.Crn.alphaEndpoints f).num = 0
    · simp only [hm, ne_eq, not_true_eq_false, if_false]
      rfl
    · rw [h.alphaEndpoints hm, h.alphaSelectors hm]

theorem SameTables.unityGood (hg : Unity.GoodTables f) : Unity.GoodTables g := by
  have H := h.header
  obtain ⟨h1, h2, h3, h4, h5, cs, planes, e1, e2, e3, e4⟩ := hg
  rw [h.length] at h1
  unfold headerBytes at h3
  rw [H.levels] at h2 h3
  rw [h.length] at h3 h4
  rw [H.l0, H.le] at h4
  rw [h.codes] at e1
  rw [h.unityIndices] at e2
  exact ⟨H.ok.mp h1, h2, h3, h4, h.limits h5, cs, planes, e1, e2, e3, e4⟩

end Verif.Proofs.Crn
