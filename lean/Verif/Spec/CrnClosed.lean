import Verif.Spec.CrnUsed

/-!
# Specification: palettes and codes that leave no way out

A palette index is coded as the change of the previous one. If no symbol of the code is as large as
the palette, then no sequence of symbols leads to an index outside the palette, whatever the level
data are.
-/

namespace Verif.Spec.Crn

/-- Some symbol has a code. -/
def UsedCode (code : List Nat) : Prop := ∃ l ∈ code, 0 < l

/-- Every symbol with a code is smaller than `num`. -/
def SymbolsBelow (num : Nat) (code : List Nat) : Prop := ∀ s, 0 < code.getD s 0 → s < num

/-- The codes of a plane have symbols, and only symbols smaller than the palettes. -/
structure Plane.Closed (p : Plane) : Prop where
  endpointUsed : UsedCode p.endpointCode
  endpointBelow : SymbolsBelow p.endpoints.length p.endpointCode
  selectorUsed : UsedCode p.selectorCode
  selectorBelow : SymbolsBelow p.selectors.length p.selectorCode

/-- A file with a good header, codes and palettes; nothing is said about the level data, except that
the level ends inside the file. -/
structure GoodTables (file : List UInt8) : Prop where
  header : HeaderOk file file.length
  levels : 0 < levels file
  length : headerBytes file ≤ file.length
  level : levelEnd file ≤ file.length
  limits : Limits file
  tables : ∃ cs colour alpha planes, fileCodes file = some cs ∧ colourPlane file cs = some colour ∧
    alphaPlane file cs = some alpha ∧ planesOf (format file) colour alpha = some planes ∧
    UsedCode cs.encoding ∧ ∀ p ∈ planes, p.Closed

/-- Byte `i` belongs to the header, the codes or the palettes (see `Used`): the bytes that matter, but
not those of the level. -/
def UsedByTables (file : List UInt8) (i : Nat) : Prop :=
  i < 4 ∨ (6 ≤ i ∧ i < 10) ∨ (12 ≤ i ∧ i < 19) ∨ (33 ≤ i ∧ i < 74) ∨
  (1 < levels file ∧ 74 ≤ i ∧ i < 78) ∨
  InSection (tablesOfs file) (tablesSize file) i ∨
  ((colorEndpoints file).num ≠ 0 ∧ InSection (colorEndpoints file).ofs (colorEndpoints file).size i) ∨
  ((colorEndpoints file).num ≠ 0 ∧ InSection (colorSelectors file).ofs (colorSelectors file).size i) ∨
  ((alphaEndpoints file).num ≠ 0 ∧ InSection (alphaEndpoints file).ofs (alphaEndpoints file).size i) ∨
  ((alphaEndpoints file).num ≠ 0 ∧ InSection (alphaSelectors file).ofs (alphaSelectors file).size i)

instance (file : List UInt8) (i : Nat) : Decidable (UsedByTables file i) := by
  unfold UsedByTables; infer_instance

end Verif.Spec.Crn
