import Verif.Spec.CrnLimits

/-!
# Specification: Crunch files with the same sections in other places
-/

namespace Verif.Spec.Crn

/-- The `size` bytes from `ofs` on of the file `f` are the `size'` bytes from `ofs'` on of the file `g`, and lie
within `g`. -/
structure SameSection (f : List UInt8) (ofs size : Nat) (g : List UInt8) (ofs' size' : Nat) : Prop where
  sizes : size = size'
  inside : ofs' + size' ≤ g.length
  bytes : (f.drop ofs).take size = (g.drop ofs').take size'

/-- The same for palettes, which also have the same number of entries. -/
structure SamePalette (f : List UInt8) (p : Palette) (g : List UInt8) (p' : Palette) : Prop where
  num : p.num = p'.num
  bytes : SameSection f p.ofs p.size g p'.ofs p'.size

/-- The file `g` holds the same texture as the file `f`, but its sections may be in other places and in another
order, and what it has besides these sections may be different. The first level of `g` may be followed by other
bytes: in a file with one level it reaches to the end of the file. -/
structure Moved (f g : List UInt8) : Prop where
  header : HeaderOk g g.length
  levels : 0 < levels g
  complete : headerBytes g ≤ g.length
  width : width f = width g
  height : height f = height g
  faces : faces f = faces g
  format : format f = format g
  tables : SameSection f (tablesOfs f) (tablesSize f) g (tablesOfs g) (tablesSize g)
  colours : (colorEndpoints f).num = (colorEndpoints g).num
  colour : (colorEndpoints f).num ≠ 0 → SamePalette f (colorEndpoints f) g (colorEndpoints g) ∧
    SamePalette f (colorSelectors f) g (colorSelectors g)
  alphas : (alphaEndpoints f).num = (alphaEndpoints g).num
  alpha : (alphaEndpoints f).num ≠ 0 → SamePalette f (alphaEndpoints f) g (alphaEndpoints g) ∧
    SamePalette f (alphaSelectors f) g (alphaSelectors g)
  levelInside : levelEnd g ≤ g.length
  level : (f.drop (levelOfs f 0)).take (levelEnd f - levelOfs f 0) <+:
    (g.drop (levelOfs g 0)).take (levelEnd g - levelOfs g 0)

end Verif.Spec.Crn
