import Verif.Proofs.Termination
import Verif.Spec.Image

/-!
# Property C75: every call ends

A loop of the code that is not a `for` over a range or a slice is stated without a bound
(`Spec.LoopEnds`, with the body from `Model/LoopBodies.lean`). Each theorem says that the loop ends, and
that its outcome is the one of the bounded loop in the model. What is missing from the full property:
that a call ends is not itself a theorem. It follows because the code has no recursion and no other
unbounded loops, which is an observation about the source.
-/

namespace Verif.Props

open Verif Verif.Model Verif.Spec Verif.Proofs.Termination

/-- A loop has at most one outcome, so that the theorems below determine it. -/
theorem C75_outcome_unique {σ β : Type} {body : σ → Res (σ ⊕ β)} {s : σ} {r r' : Res β}
    (h : LoopEnds body s r) (h' : LoopEnds body s r') : r = r' := LoopEnds.unique h h'

/-- The specification can tell the difference: a loop that never changes its state has no outcome. -/
example (r : Res Nat) : ¬ LoopEnds (fun s : Nat => (.ok (.inl s) : Res (Nat ⊕ Nat))) 0 r := by
  intro h
  generalize e : (0 : Nat) = s at h
  induction h with
  | leave h => cases h
  | fail h => cases h
  | panic h => cases h
  | next h _ ih =>
    cases h
    exact ih e

/-- **C75** PVRTC: the loop over the bits of a block position, for every image size of the API. -/
theorem C75_pvrtc_partial [Build] (is2 : Bool) (w h x y : Nat) (hw : w < 2 ^ 64) :
    let d := min (ceilDiv w (if is2 then 8 else 4)) (ceilDiv h 4)
    LoopEnds (mortonBody 64 x y d) (0, 0, 1) (liftM (mortonLoop x y d 64 (0, 0, 1))) := by
  intro d
  refine morton_ends 64 rfl (by omega) (by omega) (Nat.le_trans (Nat.min_le_left _ _) ?_)
  unfold ceilDiv
  split <;> omega

/-- **C75** The same loop on a 32-bit target. -/
theorem C75_pvrtc_32bit_partial [Build] (is2 : Bool) (w h x y : Nat) (hw : w < 2 ^ 32) :
    let d := min (ceilDiv w (if is2 then 8 else 4)) (ceilDiv h 4)
    LoopEnds (mortonBody 32 x y d) (0, 0, 1) (liftM (mortonLoop32 x y d 64 (0, 0, 1))) := by
  intro d
  refine morton32_ends 64 rfl (by omega) (by omega) (Nat.le_trans (Nat.min_le_left _ _) ?_)
  unfold ceilDiv
  split <;> omega

/-- A grid of 8 × 16 blocks: the loop takes three steps. -/
example : @mortonLoop Build.debug 5 3 (min (ceilDiv 32 4) (ceilDiv 64 4)) 64 (0, 0, 1) =
    .ok (39, 3, 8) := by decide +kernel

/-- **C75** BC7: the search for the mode of a block, also in a block of zeros. -/
theorem C75_bc7_partial [Build] (data : List UInt8) (pos : Nat) :
    LoopEnds (bc7ModeBody data) (0, pos) (liftM (bc7Mode data 9 0 pos)) :=
  bc7Mode_ends 9 (by omega) (by omega)

/-- A block of zeros: all nine bits are read. -/
example : @bc7Mode Build.debug (List.replicate 16 0) 9 0 0 = .ok (8, 9) := by decide +kernel

/-- **C75** Crunch: reading bits, in any state of the reader. -/
theorem C75_crunch_bits_partial [Build] (c : Crn.Codec) (numBits : Nat) :
    LoopEnds (Crn.fillBody numBits) c (c.fill numBits 6) :=
  fill_ends 6 (by omega) (by omega)

/-- Twelve bits take two steps. -/
example : (@Crn.Codec.fill Build.debug { buf := [0xAB, 0xCD, 0xEF], last := 2 } 12 6) =
    .ok { buf := [0xAB, 0xCD, 0xEF], last := 2, next := 2, bitBuf := 0xABCD0000, bitCount := 16 } := by
  decide +kernel

/-- **C75** Crunch: the search for the length of a code, for every table built from code lengths of a
file, also if no code matches. -/
theorem C75_crunch_symbol_partial [Build] (lens : List Nat) (m : Crn.DataModel)
    (hm : Crn.DataModel.prepare { codeSizes := lens } = .ok m) (k : Nat) :
    LoopEnds (Crn.findLenBody m.tables.maxCodes k) m.tables.decodeStartCodeSize
      (Crn.findLen m.tables.maxCodes k m.tables.decodeStartCodeSize 18) := by
  have h : m.tables.maxCodes.length = 17 := prepare_length hm
  exact findLen_ends (by omega) 18 (by omega) (by omega)

/-- A table with codes of one and two bits. -/
example : ∃ m, @Crn.DataModel.prepare Build.debug { codeSizes := [1, 2, 2] } = .ok m := by
  have h : (match @Crn.DataModel.prepare Build.debug { codeSizes := [1, 2, 2] } with
    | .ok _ => true | _ => false) = true := by decide +kernel
  split at h
  · exact ⟨_, by assumption⟩
  · cases h

/-- **C75** Crunch: the loop over the code lengths of a table. -/
theorem C75_crunch_lengths_partial [Build] (dm : Crn.DataModel) (total : Nat) (sizes : List Nat)
    (c : Crn.Codec) :
    LoopEnds (Crn.lengthBody dm total) (0, sizes, c) (Crn.lengthLoop dm total total (0, sizes, c)) :=
  length_ends total (by simp)

/-- **C75** Crunch: the search for the longest code in the lookup table. -/
theorem C75_crunch_table_partial (numCodes : List Nat) (tableBits : Nat) :
    LoopEnds (Crn.lastUsedBody numCodes) tableBits (Crn.lastUsed numCodes tableBits) :=
  lastUsed_ends tableBits

/-- **C75** Crunch: counting the bits of a number; the closed form of the model is the outcome. -/
theorem C75_crunch_total_bits_partial [Build] (v : Nat) (hv : v < 2 ^ 32) :
    LoopEnds Crn.totalBitsBody (v, 0) (.ok (Crn.totalBits v)) := by
  have h : Crn.totalBits v ≤ 32 := by
    unfold Crn.totalBits
    split
    · omega
    · have := (Nat.log2_lt (by omega)).mpr hv
      omega
  have := totalBits_ends (v := v) (l := 0) (by omega)
  rwa [Nat.zero_add] at this

example : Crn.totalBits 8192 = 14 := by decide +kernel

/-- **C75** Loops that count in steps of `k` to `m * k`, whatever the rest of their body does: the
repeated code lengths (`k = 1`), the bits of ASTC (`k = 1`) and the alpha selectors of Unity Crunch
(`k = 3` and `k = 6`). The outcome is that of the counted loop of the model. -/
theorem C75_counting_partial {σ : Type} (m k : Nat) (hk : 0 < k) (f : Nat → σ → Res σ) (s : σ) :
    LoopEnds (countBody (m * k) k f) (0, s) (Res.forRange m (fun i => f (i * k)) s) := by
  have := count_ends (f := f) (s := s) hk m (j := 0) (Nat.zero_add m)
  simpa only [Nat.zero_mul, Nat.zero_add] using this

example : Res.forRange 4 (fun i (l : List Nat) => .ok (l ++ [i * 6])) [] = .ok [0, 6, 12, 18] := by
  decide +kernel

end Verif.Props
