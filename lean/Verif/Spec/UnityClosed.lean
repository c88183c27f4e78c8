import Verif.Spec.CrnClosed
import Verif.Spec.UnityFile

/-!
# Specification: palettes and codes of Unity's variant that leave no way out
-/

namespace Verif.Spec.Crn.Unity

open Verif.Spec.Crn

/-- The codes have symbols, and only symbols smaller than the palettes. -/
structure Indices.Closed (p : Indices) : Prop where
  endpointUsed : UsedCode p.endpointCode
  endpointBelow : SymbolsBelow p.endpoints p.endpointCode
  selectorUsed : UsedCode p.selectorCode
  selectorBelow : SymbolsBelow p.selectors p.selectorCode

/-- How the palette indices of a file are coded (see `halfBlocks` and `wholeBlocks`). -/
def fileIndices (file : List UInt8) (c : Codes) : Option (List Indices) :=
  if format file = 10 ∨ format file = 11 ∨ format file = 12 then do
    halfBlocks.require' ((colorEndpoints file).num ≠ 0)
    let colours ← readSection file (colorEndpoints file).ofs (colorEndpoints file).size
      (etcColours (colorEndpoints file).num)
    let sels ← readSection file (colorSelectors file).ofs (colorSelectors file).size
      (selectorEntries 4 (colorSelectors file).num)
    let colour : Indices := ⟨c.colourEndpoint, colours.length, c.colourSelector, sels.length⟩
    if format file = 12 then do
      halfBlocks.require' ((alphaEndpoints file).num ≠ 0)
      let alphas ← filePalette file (alphaEndpoints file) alphaEndpointPalette
      let asels ← readSection file (alphaSelectors file).ofs (alphaSelectors file).size
        (selectorEntries 8 (alphaSelectors file).num)
      some [colour, ⟨c.alphaEndpoint, alphas.length, c.alphaSelector, asels.length⟩]
    else do
      halfBlocks.require' ((alphaEndpoints file).num = 0)
      some [colour]
  else do
    let colour ← colourPlane file c
    let alpha ← alphaPlane file c
    let (planes, _) ← planesOf (format file) colour alpha
    some (planes.map Plane.indices)

/-- A file with a good header, codes and palettes; nothing is said about the level data, except that
the level is inside the file. -/
structure GoodTables (file : List UInt8) : Prop where
  header : HeaderOk file file.length
  levels : 0 < levels file
  length : headerBytes file ≤ file.length
  level : levelOfs file 0 < levelEnd file ∧ levelEnd file ≤ file.length
  limits : Limits file
  tables : ∃ cs planes, fileCodes file = some cs ∧ fileIndices file cs = some planes ∧
    UsedCode cs.encoding ∧ ∀ p ∈ planes, p.Closed

end Verif.Spec.Crn.Unity
