import Verif.Rust
import Verif.Spec.CrnHeader
import Verif.Spec.Image

/-!
# Specification: storing block data in Crunch files

A Crunch file keeps the endpoints and the selectors of the blocks in palettes of at most 8192 entries
each, the number of symbols of the codes that select them.
-/

namespace Verif.Spec.Crn

/-- `part k` takes at most 8192 different values for the numbers `k` below `n`. -/
def FewKinds (n : Nat) (part : Nat → List UInt8) : Prop :=
  ∃ kinds : List (List UInt8), kinds.length ≤ 8192 ∧ ∀ k, k < n → part k ∈ kinds

/-- There is a file of a `w × h` texture with format code `code`, smaller than 4 GiB, that `crunch`, the
decoder of Crunch files, treats as `blocks`, the decoder of the block format, treats `data`: the results
are the same for all sizes and all image buffers, in all the `builds`. -/
def Stores (builds : Build → Prop) (crunch blocks : Build → List UInt8 → Nat → Nat → List UInt32 →
    Out (Except String Unit × List UInt32)) (code : Nat) (data : List UInt8) (w h : Nat) : Prop :=
  ∃ file : List UInt8, file.length < 2 ^ 32 ∧ width file = w ∧ height file = h ∧ format file = code ∧
    ∀ b : Build, builds b → ∀ (w' h' : Nat) (image : List UInt32),
      crunch b file w' h' image = blocks b data w' h' image

/-- The sizes of the textures that the files can hold. -/
structure Sizes (w h : Nat) : Prop where
  w_pos : 0 < w
  h_pos : 0 < h
  w_lt : w < 65536
  h_lt : h < 65536
  blocks_lt : numBlocks 4 4 w h < 2 ^ 26

/-- Every build, with or without overflow checks. -/
def everyBuild : Build → Prop := fun _ => True

/-- The builds that can decode files of Unity's variant for textures of width `w`. -/
def panicFree (w : Nat) : Build → Prop := fun b => b.overflowChecks = false ∨ ceilDiv w 4 % 2 = 0

end Verif.Spec.Crn
