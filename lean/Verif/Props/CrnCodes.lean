import Verif.Proofs.Crn.Read

/-!
# Properties of the Crunch prefix codes (C43)

`DataModel.prepare { codeSizes := lens }` models `prepare_decoder_tables()` on a model with the
code lengths `lens`, `Codec.start buf size` models `start_decoding(buf, size)`, and `c.decode m`
models `c.decode(&m)`.
-/

namespace Verif.Props

open Verif Verif.Model.Crn Verif.Proofs.Crn

/-- `n` calls of `decode` and what they return. -/
def decodeMany [Build] (m : DataModel) : Nat → Codec → Res (List Nat × Codec)
  | 0, c => .ok ([], c)
  | n + 1, c => do
    let (s, c) ← c.decode m
    let (l, c) ← decodeMany m n c
    pure (s :: l, c)

theorem decodeMany_ok [Build] {lens : List Nat} {m : DataModel} (hm : TablesOk lens m) {n : Nat}
    {c : Codec} {bits rest : List Bool} {syms : List Nat}
    (hr : Spec.Crn.readSymbols lens n bits = some (syms, rest)) (h : St c bits) :
    ∃ c', decodeMany m n c = .ok (syms, c') ∧ St c' rest := by
  induction n generalizing c bits syms with
  | zero =>
    obtain ⟨rfl, rfl⟩ : [] = syms ∧ bits = rest := by simpa [Spec.Crn.readSymbols] using hr
    exact ⟨c, rfl, h⟩
  | succ n ih =>
    unfold Spec.Crn.readSymbols at hr
    obtain ⟨⟨s, b1⟩, h1, hr⟩ := Option.bind_eq_some_iff.mp hr
    obtain ⟨⟨l, b2⟩, h2, hr⟩ := Option.bind_eq_some_iff.mp hr
    obtain ⟨rfl, rfl⟩ : s :: l = syms ∧ b2 = rest := by simpa using hr
    obtain ⟨c1, e1, s1, _⟩ := decode_read hm h1 h
    obtain ⟨c2, e2, s2⟩ := ih h2 s1
    refine ⟨c2, ?_, s2⟩
    unfold decodeMany
    rw [e1, Res.ok_bind]
    simp only
    rw [e2, Res.ok_bind]
    rfl

/-- A code with lengths 1, 0, 2, 3, 3 and the stream 0 10 110 111 0 0 …. -/
def codeDemo : List Nat := [1, 0, 2, 3, 3]
def codeDemoStream : List UInt8 := [0x5b, 0x9f, 0x55]

/-- **C43.** Whatever code lengths the model was prepared with, `n` calls of `decode` return the
`n` symbols whose canonical codes the stream starts with. In particular every call takes exactly
the bits of its code. -/
theorem C43_decode [Build] (lens : List Nat) (hlens : lens.length < 2 ^ 32) (m : DataModel)
    (hm : DataModel.prepare { codeSizes := lens } = .ok m)
    (buf : List UInt8) (size : Nat) (hsize : 0 < size) (hbuf : size ≤ buf.length)
    (n : Nat) (syms : List Nat) (rest : List Bool)
    (hread : Spec.Crn.readSymbols lens n (Spec.Crn.byteBits (buf.take size)) = some (syms, rest)) :
    ∃ c c', Codec.start buf size = .ok c ∧ decodeMany m n c = .ok (syms, c') := by
  obtain ⟨_, _, ht⟩ := prepare_inv hlens hm
  obtain ⟨c, e, hst, _⟩ := start_ok hsize hbuf
  obtain ⟨c', e', _⟩ := decodeMany_ok ht hread hst
  exact ⟨c, c', e, e'⟩

example : (∃ m, @DataModel.prepare Build.debug { codeSizes := codeDemo } = .ok m) ∧
    ∃ rest, Spec.Crn.readSymbols codeDemo 5 (Spec.Crn.byteBits (codeDemoStream.take 2)) =
      some ([0, 2, 3, 4, 0], rest) := by
  refine ⟨⟨_, rfl⟩, ⟨_, rfl⟩⟩

/-- **C43.** If none of the codes is at the front of the stream, and the stream has two bytes,
`decode` reports a failure instead of a symbol. -/
theorem C43_invalid [Build] (lens : List Nat) (hlens : lens.length < 2 ^ 32) (m : DataModel)
    (hm : DataModel.prepare { codeSizes := lens } = .ok m) (hused : ∃ l ∈ lens, 0 < l)
    (buf : List UInt8) (size : Nat) (hsize : 2 ≤ size) (hbuf : size ≤ buf.length)
    (hnone : Spec.Crn.readSymbol lens (Spec.Crn.byteBits (buf.take size)) = none) :
    ∃ c, Codec.start buf size = .ok c ∧ c.decode m = .fail "" := by
  obtain ⟨hl, _, ht⟩ := prepare_inv hlens hm
  obtain ⟨c, e, hst, _⟩ := start_ok (show 0 < size by omega) hbuf
  refine ⟨c, e, decode_none ht ?_ ?_ hnone hst⟩
  · obtain ⟨l, h1, h2⟩ := hused
    refine ⟨l, h2, hl.le16 l h1, ?_⟩
    have := List.count_pos_iff.mpr h1
    omega
  · have h := remBits_length { buf, last := size - 1 } 0
    unfold remBits at h
    simp only [List.drop_zero, Nat.sub_zero] at h
    rw [show size - 1 + 1 = size by omega] at h
    omega

example : (∃ m, @DataModel.prepare Build.debug { codeSizes := [2, 2, 2] } = .ok m) ∧
    (∃ l ∈ [2, 2, 2], 0 < l) ∧
    Spec.Crn.readSymbol [2, 2, 2] (Spec.Crn.byteBits ([0xff, 0xff] : List UInt8)) = none := by
  refine ⟨⟨_, rfl⟩, by decide +kernel, by decide +kernel⟩

/-- **C43.** The codes are a prefix code: no code is the beginning of another. -/
theorem C43_prefix_free [Build] (lens : List Nat) (hlens : lens.length < 2 ^ 32) (m : DataModel)
    (hm : DataModel.prepare { codeSizes := lens } = .ok m) (s t : Nat)
    (hs : Spec.Crn.HasCode lens s) (ht : Spec.Crn.HasCode lens t)
    (h : Spec.Crn.codeBits lens s <+: Spec.Crn.codeBits lens t) : s = t :=
  prefix_free (prepare_inv hlens hm).1 hs ht h

example : Spec.Crn.HasCode codeDemo 2 ∧ Spec.Crn.HasCode codeDemo 3 ∧
    ¬ Spec.Crn.codeBits codeDemo 2 <+: Spec.Crn.codeBits codeDemo 3 := by decide +kernel

/-- **C43.** Which code lengths are accepted: all lengths of a prefix code (Kraft's inequality)
with 1 to 8192 symbols and codes of at most 16 bits, and in such a code every symbol with a nonzero
length has a code. -/
theorem C43_accepts [Build] (lens : List Nat) (hpos : 0 < lens.length) (hlen : lens.length ≤ 8192)
    (h16 : ∀ l ∈ lens, l ≤ 16) (hkraft : Spec.Crn.usedSpace lens 16 ≤ 2 ^ 16) :
    (∃ m, DataModel.prepare { codeSizes := lens } = .ok m) ∧
    ∀ s, 0 < Spec.Crn.lenOf lens s → Spec.Crn.HasCode lens s := by
  have hl : LensOk lens := ⟨hpos, hlen, h16⟩
  obtain ⟨m, e, _⟩ := prepare_ok hl (kraft_fits hkraft)
  exact ⟨⟨m, e⟩, fun s hs => kraft_hasCode hl hkraft hs⟩

example : 0 < codeDemo.length ∧ (∀ l ∈ codeDemo, l ≤ 16) ∧
    Spec.Crn.usedSpace codeDemo 16 ≤ 2 ^ 16 := by decide +kernel

/-- **C43.** Lengths that are refused are not those of a prefix code; no lengths up to 16 bits make
`prepare_decoder_tables` panic. -/
theorem C43_refused [Build] (lens : List Nat) (hlen : lens.length < 2 ^ 32)
    (h16 : ∀ l ∈ lens, l ≤ 16) (hno : ∀ m, DataModel.prepare { codeSizes := lens } ≠ .ok m) :
    DataModel.prepare { codeSizes := lens } = .fail "" ∧
    (lens.length = 0 ∨ 8192 < lens.length ∨ 2 ^ 16 < Spec.Crn.usedSpace lens 16) := by
  by_cases hsz : lens.length = 0 ∨ 8192 < lens.length
  · exact ⟨prepare_size hsz hlen, by omega⟩
  · have hl : LensOk lens := ⟨by omega, by omega, h16⟩
    by_cases hf : Fits lens
    · obtain ⟨m, e, _⟩ := prepare_ok hl hf
      exact absurd e (hno m)
    · refine ⟨prepare_fail hl hf, Or.inr (Or.inr ?_)⟩
      apply Nat.lt_of_not_le
      intro hk
      exact hf (kraft_fits hk)

example : @DataModel.prepare Build.debug { codeSizes := [1, 1, 1] ++ List.replicate 20 2 } = .fail "" ∧
    2 ^ 16 < Spec.Crn.usedSpace ([1, 1, 1] ++ List.replicate 20 2) 16 := by
  refine ⟨rfl, by decide +kernel⟩

end Verif.Props
