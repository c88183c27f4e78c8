import Verif.Spec.CrnUsed
import Verif.Spec.UnityFile

/-! # Crunch files with the same contents -/

namespace Verif.Proofs.Crn

open Verif Verif.Spec.Crn

theorem be_congr {f g : List UInt8} {o n : Nat} (h : ∀ i, o ≤ i → i < o + n → f[i]? = g[i]?) :
    be f o n = be g o n := by
  unfold be
  congr 1
  apply List.ext_getElem?
  intro i
  rw [List.getElem?_take, List.getElem?_take]
  split
  · rw [List.getElem?_drop, List.getElem?_drop]
    exact h _ (by omega) (by omega)
  · rfl

theorem palette_congr {f g : List UInt8} {o : Nat} (h : ∀ i, o ≤ i → i < o + 8 → f[i]? = g[i]?) :
    palette f o = palette g o := by
  unfold palette
  rw [be_congr (n := 3) (fun i h1 h2 => h i h1 (by omega)),
    be_congr (o := o + 3) (n := 3) (fun i h1 h2 => h i (by omega) (by omega)),
    be_congr (o := o + 6) (n := 2) (fun i h1 h2 => h i (by omega) (by omega))]

theorem section_congr {f g : List UInt8} (hl : f.length = g.length) {ofs size : Nat}
    (h : ∀ i, InSection ofs size i → f[i]? = g[i]?) {α : Type} (r : Reader α) :
    readSection f ofs size r = readSection g ofs size r := by
  have : sectionBits f ofs size = sectionBits g ofs size := by
    unfold sectionBits
    rw [hl]
    congr 3
    apply List.ext_getElem?
    intro i
    rw [List.getElem?_take, List.getElem?_take]
    split
    · rw [List.getElem?_drop, List.getElem?_drop]
      exact h _ ⟨by omega, by omega⟩
    · rfl
  unfold readSection
  rw [this]

/-- Two files of the same length that agree in all bytes that matter. -/
structure SameContents (f g : List UInt8) : Prop where
  length : f.length = g.length
  bytes : ∀ i, Used f i → f[i]? = g[i]?

/-- Their headers. -/
structure SameHeader (f g : List UInt8) : Prop where
  ok : HeaderOk f g.length ↔ HeaderOk g g.length
  width : width f = width g
  height : height f = height g
  levels : levels f = levels g
  faces : faces f = faces g
  format : format f = format g
  ce : colorEndpoints f = colorEndpoints g
  cs : colorSelectors f = colorSelectors g
  ae : alphaEndpoints f = alphaEndpoints g
  as : alphaSelectors f = alphaSelectors g
  ts : tablesSize f = tablesSize g
  to : tablesOfs f = tablesOfs g
  l0 : levelOfs f 0 = levelOfs g 0
  le : levelEnd f = levelEnd g

theorem SameContents.header {f g : List UInt8} (h : SameContents f g) : SameHeader f g := by
  have hlv : Spec.Crn.levels f = Spec.Crn.levels g :=
    be_congr fun i h1 h2 => h.bytes i (by unfold Used; omega)
  refine ⟨?_, be_congr fun i h1 h2 => h.bytes i (by unfold Used; omega),
    be_congr fun i h1 h2 => h.bytes i (by unfold Used; omega), hlv,
    be_congr fun i h1 h2 => h.bytes i (by unfold Used; omega),
    be_congr fun i h1 h2 => h.bytes i (by unfold Used; omega),
    palette_congr fun i h1 h2 => h.bytes i (by unfold Used; omega),
    palette_congr fun i h1 h2 => h.bytes i (by unfold Used; omega),
    palette_congr fun i h1 h2 => h.bytes i (by unfold Used; omega),
    palette_congr fun i h1 h2 => h.bytes i (by unfold Used; omega),
    be_congr fun i h1 h2 => h.bytes i (by unfold Used; omega),
    be_congr fun i h1 h2 => h.bytes i (by unfold Used; omega),
    be_congr fun i h1 h2 => h.bytes i (by unfold Used; omega), ?_⟩
  · unfold HeaderOk sig headerSize dataSize
    rw [be_congr (o := 0) (n := 2) fun i h1 h2 => h.bytes i (by unfold Used; omega),
      be_congr (o := 2) (n := 2) fun i h1 h2 => h.bytes i (by unfold Used; omega),
      be_congr (o := 6) (n := 4) fun i h1 h2 => h.bytes i (by unfold Used; omega)]
  · unfold levelEnd
    rw [← hlv, h.length]
    split
    · next hlt => exact be_congr fun i h1 h2 => h.bytes i (by unfold Used; omega)
    · rfl

variable {f g : List UInt8} (h : SameContents f g)
include h

theorem SameContents.codes : fileCodes f = fileCodes g := by
  have H := h.header
  unfold fileCodes
  rw [section_congr h.length (fun i hi => h.bytes i (by unfold Used; simp only [hi, true_or, or_true])),
    H.to, H.ts, H.ce, H.ae]

theorem SameContents.level {α : Type} (r : Reader α) :
    readSection f (levelOfs f 0) (levelEnd f - levelOfs f 0) r =
      readSection g (levelOfs g 0) (levelEnd g - levelOfs g 0) r := by
  have H := h.header
  rw [section_congr h.length (fun i hi => h.bytes i (by unfold Used; simp only [hi, or_true])), H.l0, H.le]

theorem SameContents.endpoints {α : Type} (hn : (colorEndpoints f).num ≠ 0) (r : Reader α) :
    readSection f (colorEndpoints f).ofs (colorEndpoints f).size r =
      readSection g (colorEndpoints f).ofs (colorEndpoints f).size r :=
  section_congr h.length (fun i hi => h.bytes i (by
    unfold Used; simp only [hi, hn, ne_eq, not_false_eq_true, and_self, true_or, or_true])) r

theorem SameContents.selectors {α : Type} (hn : (colorEndpoints f).num ≠ 0) (r : Reader α) :
    readSection f (colorSelectors f).ofs (colorSelectors f).size r =
      readSection g (colorSelectors f).ofs (colorSelectors f).size r :=
  section_congr h.length (fun i hi => h.bytes i (by
    unfold Used; simp only [hi, hn, ne_eq, not_false_eq_true, and_self, true_or, or_true])) r

theorem SameContents.alphaEndpoints {α : Type} (hn : (Spec.Crn.alphaEndpoints f).num ≠ 0) (r : Reader α) :
    readSection f (Spec.Crn.alphaEndpoints f).ofs (Spec.Crn.alphaEndpoints f).size r =
      readSection g (Spec.Crn.alphaEndpoints f).ofs (Spec.Crn.alphaEndpoints f).size r :=
  section_congr h.length (fun i hi => h.bytes i (by
    unfold Used; simp only [hi, hn, ne_eq, not_false_eq_true, and_self, true_or, or_true])) r

theorem SameContents.alphaSelectors {α : Type} (hn : (Spec.Crn.alphaEndpoints f).num ≠ 0) (r : Reader α) :
    readSection f (Spec.Crn.alphaSelectors f).ofs (Spec.Crn.alphaSelectors f).size r =
      readSection g (Spec.Crn.alphaSelectors f).ofs (Spec.Crn.alphaSelectors f).size r :=
  section_congr h.length (fun i hi => h.bytes i (by
    unfold Used; simp only [hi, hn, ne_eq, not_false_eq_true, and_self, true_or, or_true])) r

theorem SameContents.unpack : Spec.Crn.unpack f = Spec.Crn.unpack g := by
  have H := h.header
  have hc : ∀ c, colourPlane f c = colourPlane g c := fun c => by
    unfold colourPlane filePalette
    rw [← H.ce, ← H.cs]
    split
    · rfl
    · next hn => rw [h.endpoints hn, h.selectors hn]
  have ha : ∀ c, alphaPlane f c = alphaPlane g c := fun c => by
    unfold alphaPlane filePalette
    rw [← H.ae, ← H.as]
    split
    · rfl
    · next hn => rw [h.alphaEndpoints hn, h.alphaSelectors hn]
  unfold Spec.Crn.unpack
  simp only [hc, ha, h.codes, h.level, H.format, chunkCount, headerBytes, H.levels, H.faces, blocksX,
    blocksY, H.width, H.height, H.ok, h.length]
  exact ite_congr rfl (fun _ => rfl) (fun _ => rfl)

theorem SameContents.unityUnpack : Spec.Crn.Unity.unpack f = Spec.Crn.Unity.unpack g := by
  have H := h.header
  have hp : (colorEndpoints f).num ≠ 0 → Unity.colourPalettes f = Unity.colourPalettes g := fun hn => by
    unfold Unity.colourPalettes filePalette
    rw [← H.ce, ← H.cs, ← H.format]
    split
    · rw [h.endpoints hn, h.selectors hn]
    · rw [h.endpoints hn, h.selectors hn]
  have hc : ∀ c, Unity.colourPlane f c = Unity.colourPlane g c := fun c => by
    unfold Unity.colourPlane
    rw [← H.ce]
    split
    · rfl
    · next hn => rw [hp hn]
  have ha : ∀ c, Unity.alphaPlane f c = Unity.alphaPlane g c := fun c => by
    unfold Unity.alphaPlane filePalette
    rw [← H.ae, ← H.as, ← H.format]
    split
    · rfl
    · next hn => rw [h.alphaEndpoints hn, h.alphaSelectors hn]
  have hlev : ∀ {β : Type} (d : β) (r : Nat → List β → Reader β),
      Unity.readLevel f d r = Unity.readLevel g d r := fun d r => by
    unfold Unity.readLevel Unity.blockCount blocksX blocksY
    rw [h.level, H.faces, H.width, H.height]
  have hw : ∀ c, Unity.wholeBlocks f c = Unity.wholeBlocks g c := fun c => by
    unfold Unity.wholeBlocks
    simp only [hc, ha, hlev, H.format]
  have hh : ∀ c, Unity.halfBlocks f c = Unity.halfBlocks g c := fun c => by
    unfold Unity.halfBlocks Unity.halfBlocks.require' filePalette
    rw [← H.ce, ← H.cs, ← H.ae, ← H.as, ← H.format]
    simp only [hlev]
    by_cases hn : (colorEndpoints f).num = 0
    · simp only [hn, ne_eq, not_true_eq_false, if_false]
      rfl
    · rw [h.endpoints hn, h.selectors hn]
      by_cases hm : (Spec.Crn.alphaEndpoints f).num = 0
      · simp only [hm, ne_eq, not_true_eq_false, if_false]
        rfl
      · rw [h.alphaEndpoints hm, h.alphaSelectors hm]
  unfold Spec.Crn.Unity.unpack
  simp only [hw, hh, h.codes, H.format, headerBytes, H.levels, H.ok, h.length]
  exact ite_congr rfl (fun _ => rfl) (fun _ => rfl)

theorem SameContents.limits (hl : Limits f) : Limits g := by
  have H := h.header
  obtain ⟨h1, ⟨h2, h3, h4⟩, h5, h6, h7⟩ := hl
  rw [H.to, H.ts, h.length] at h2
  rw [H.ce, H.cs, h.length] at h3
  rw [H.ae, H.as, h.length] at h4
  have hx : blocksX f = blocksX g := by unfold blocksX; rw [H.width]
  have hy : blocksY f = blocksY g := by unfold blocksY; rw [H.height]
  rw [H.faces] at h5 h6 h7
  rw [hy] at h6 h7
  rw [hx] at h7
  exact ⟨h.length ▸ h1, ⟨h2, h3, h4⟩, h5, h6, h7⟩

end Verif.Proofs.Crn
