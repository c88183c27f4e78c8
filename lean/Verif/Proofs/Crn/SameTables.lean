import Verif.Proofs.Crn.Used
import Verif.Spec.CrnClosed

/-! # Crunch files with the same codes and palettes -/

namespace Verif.Proofs.Crn

open Verif Verif.Spec.Crn

/-- Two files of the same length with the same header, codes and palettes. -/
structure SameTables (f g : List UInt8) : Prop where
  length : f.length = g.length
  bytes : ∀ i, UsedByTables f i → f[i]? = g[i]?

theorem SameTables.header {f g : List UInt8} (h : SameTables f g) : SameHeader f g := by
  have hlv : Spec.Crn.levels f = Spec.Crn.levels g :=
    be_congr fun i h1 h2 => h.bytes i (by unfold UsedByTables; omega)
  refine ⟨?_, be_congr fun i h1 h2 => h.bytes i (by unfold UsedByTables; omega),
    be_congr fun i h1 h2 => h.bytes i (by unfold UsedByTables; omega), hlv,
    be_congr fun i h1 h2 => h.bytes i (by unfold UsedByTables; omega),
    be_congr fun i h1 h2 => h.bytes i (by unfold UsedByTables; omega),
    palette_congr fun i h1 h2 => h.bytes i (by unfold UsedByTables; omega),
    palette_congr fun i h1 h2 => h.bytes i (by unfold UsedByTables; omega),
    palette_congr fun i h1 h2 => h.bytes i (by unfold UsedByTables; omega),
    palette_congr fun i h1 h2 => h.bytes i (by unfold UsedByTables; omega),
    be_congr fun i h1 h2 => h.bytes i (by unfold UsedByTables; omega),
    be_congr fun i h1 h2 => h.bytes i (by unfold UsedByTables; omega),
    be_congr fun i h1 h2 => h.bytes i (by unfold UsedByTables; omega), ?_⟩
  · unfold HeaderOk sig headerSize dataSize
    rw [be_congr (o := 0) (n := 2) fun i h1 h2 => h.bytes i (by unfold UsedByTables; omega),
      be_congr (o := 2) (n := 2) fun i h1 h2 => h.bytes i (by unfold UsedByTables; omega),
      be_congr (o := 6) (n := 4) fun i h1 h2 => h.bytes i (by unfold UsedByTables; omega)]
  · unfold levelEnd
    rw [← hlv, h.length]
    split
    · next hlt => exact be_congr fun i h1 h2 => h.bytes i (by unfold UsedByTables; omega)
    · rfl

variable {f g : List UInt8} (h : SameTables f g)
include h

theorem SameTables.codes : fileCodes f = fileCodes g := by
  have H := h.header
  unfold fileCodes
  rw [section_congr h.length (fun i hi => h.bytes i (by unfold UsedByTables; simp only [hi, true_or, or_true])),
    H.to, H.ts, H.ce, H.ae]

theorem SameTables.endpoints {α : Type} (hn : (colorEndpoints f).num ≠ 0) (r : Reader α) :
    readSection f (colorEndpoints f).ofs (colorEndpoints f).size r =
      readSection g (colorEndpoints f).ofs (colorEndpoints f).size r :=
  section_congr h.length (fun i hi => h.bytes i (by
    unfold UsedByTables; simp only [hi, hn, ne_eq, not_false_eq_true, and_self, true_or, or_true])) r

theorem SameTables.selectors {α : Type} (hn : (colorEndpoints f).num ≠ 0) (r : Reader α) :
    readSection f (colorSelectors f).ofs (colorSelectors f).size r =
      readSection g (colorSelectors f).ofs (colorSelectors f).size r :=
  section_congr h.length (fun i hi => h.bytes i (by
    unfold UsedByTables; simp only [hi, hn, ne_eq, not_false_eq_true, and_self, true_or, or_true])) r

theorem SameTables.alphaEndpoints {α : Type} (hn : (Spec.Crn.alphaEndpoints f).num ≠ 0) (r : Reader α) :
    readSection f (Spec.Crn.alphaEndpoints f).ofs (Spec.Crn.alphaEndpoints f).size r =
      readSection g (Spec.Crn.alphaEndpoints f).ofs (Spec.Crn.alphaEndpoints f).size r :=
  section_congr h.length (fun i hi => h.bytes i (by
    unfold UsedByTables; simp only [hi, hn, ne_eq, not_false_eq_true, and_self, true_or, or_true])) r

theorem SameTables.alphaSelectors {α : Type} (hn : (Spec.Crn.alphaEndpoints f).num ≠ 0) (r : Reader α) :
    readSection f (Spec.Crn.alphaSelectors f).ofs (Spec.Crn.alphaSelectors f).size r =
      readSection g (Spec.Crn.alphaSelectors f).ofs (Spec.Crn.alphaSelectors f).size r :=
  section_congr h.length (fun i hi => h.bytes i (by
    unfold UsedByTables; simp only [hi, hn, ne_eq, not_false_eq_true, and_self, true_or, or_true])) r

theorem SameTables.limits (hl : Limits f) : Limits g := by
  have H := h.header
  obtain ⟨h1, ⟨h2, h3, h4⟩, h5, h6, h7⟩ := hl
  rw [H.to, H.ts, h.length] at h2
  rw [H.ce, H.cs, h.length] at h3
  rw [H.ae, H.as, h.length] at h4
  have hx : blocksX f = blocksX g := by unfold blocksX; rw [H.width]
  have hy : blocksY f = blocksY g := by unfold blocksY; rw [H.height]
  rw [H.faces] at h5 h6 h7
  rw [hy] at h6 h7
  rw [hx] at h7
  exact ⟨h.length ▸ h1, ⟨h2, h3, h4⟩, h5, h6, h7⟩

theorem SameTables.good (hg : GoodTables f) : GoodTables g := by
  have H := h.header
  obtain ⟨h1, h2, h3, h4, h5, cs, colour, alpha, planes, e1, e2, e3, e4, e5, e6⟩ := hg
  have hc : ∀ c, colourPlane f c = colourPlane g c := fun c => by
    unfold colourPlane filePalette
    rw [← H.ce, ← H.cs]
    split
    · rfl
    · next hn => rw [h.endpoints hn, h.selectors hn]
  have ha : ∀ c, alphaPlane f c = alphaPlane g c := fun c => by
    unfold alphaPlane filePalette
    rw [← H.ae, ← H.as]
    split
    · rfl
    · next hn => rw [h.alphaEndpoints hn, h.alphaSelectors hn]
  rw [h.length] at h1
  unfold headerBytes at h3
  rw [H.levels] at h2 h3
  rw [h.length] at h3 h4
  rw [H.le] at h4
  rw [h.codes] at e1
  rw [hc] at e2
  rw [ha] at e3
  rw [H.format] at e4
  exact ⟨H.ok.mp h1, h2, h3, h4, h.limits h5, cs, colour, alpha, planes, e1, e2, e3, e4, e5, e6⟩

end Verif.Proofs.Crn
