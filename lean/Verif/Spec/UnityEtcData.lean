import Verif.Spec.CrnRoundTrip

/-!
# Specification: ETC blocks that Unity's variant of Crunch can store

The first four bytes of a block of ETC1 data, or of the colours of ETC2 data, give the base colours of
its two halves, their modifier tables, the mode and the direction of the halves. Files of Unity's variant
keep base colours of five bits per component with a table each, and the decoder chooses the mode from the
difference of the two colours.
-/

namespace Verif.Spec.Crn.Unity

/-- `part k` takes at most `m` different values for the numbers `k` below `n`. -/
def AtMost (m n : Nat) (part : Nat → List UInt8) : Prop :=
  ∃ kinds : List (List UInt8), kinds.length ≤ m ∧ ∀ k, k < n → part k ∈ kinds

/-- The component in five bits and a difference of three bits in two's complement: the sum is a value of
five bits. -/
def SumFits (c : Nat) : Prop := (c % 8 < 4 → c / 8 + c % 8 < 32) ∧ (4 ≤ c % 8 → 8 ≤ c / 8 + c % 8)

/-- The two components of four bits in a byte differ by two or more. -/
def Apart (c : Nat) : Prop := c / 16 + 2 ≤ c % 16 ∨ c % 16 + 2 ≤ c / 16

/-- The first half of a block with two base colours that can be stored: in differential mode without
overflow, the case that ETC2 uses for its further modes, or in individual mode with colours that are too
different for the differential mode. -/
def TwoColours (e : List UInt8) : Prop :=
  let c := fun i => (e.getD i 0).toNat
  (c 3 / 2 % 2 = 1 → SumFits (c 0) ∧ SumFits (c 1) ∧ SumFits (c 2)) ∧
  (c 3 / 2 % 2 = 0 → Apart (c 0) ∨ Apart (c 1) ∨ Apart (c 2))

/-- The first half of a block with one base colour and one table: differential mode, all differences
zero, the same table for both halves and halves side by side. -/
def OneColour (e : List UInt8) : Prop :=
  let c := fun i => (e.getD i 0).toNat
  c 0 % 8 = 0 ∧ c 1 % 8 = 0 ∧ c 2 % 8 = 0 ∧ c 3 % 4 = 2 ∧ c 3 / 32 = c 3 / 4 % 8

instance (c : Nat) : Decidable (SumFits c) := by unfold SumFits; infer_instance
instance (c : Nat) : Decidable (Apart c) := by unfold Apart; infer_instance
instance (e : List UInt8) : Decidable (TwoColours e) := by unfold TwoColours; infer_instance
instance (e : List UInt8) : Decidable (OneColour e) := by unfold OneColour; infer_instance

end Verif.Spec.Crn.Unity
