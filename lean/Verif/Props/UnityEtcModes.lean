import Verif.Props.UnityCrunch
import Verif.Props.Etc
import Verif.Proofs.Crn.UnityEtcOnly

/-!
# The ETC blocks in files of Unity's variant of Crunch (C87)

Files with the format codes of ETC2 hold blocks in the two modes of ETC1 only; the blocks that C86 asks
for are all there are.
-/

namespace Verif.Props

open Verif Verif.Spec Verif.Spec.Crn Verif.Proofs.Crn

/-- **C87** The blocks of a file: bytes `8 k` to `8 k + 3` of the data, or `16 k + 8` to `16 k + 11` with
alpha, have base colours that can be stored. -/
theorem C87_blocks (file data : List UInt8) (h : Unity.unpack file = some data) (hl : Limits file)
    (k : Nat) (hk : k < faces file * blocksY file * blocksX file) :
    (format file = 10 ∨ format file = 11 → Unity.TwoColours ((Spec.blockBytes 8 data k).take 4)) ∧
    (format file = 12 → Unity.TwoColours ((Spec.blockBytes 8 data (2 * k + 1)).take 4)) ∧
    (format file = 13 → Unity.OneColour ((Spec.blockBytes 8 data k).take 4)) ∧
    (format file = 14 → Unity.OneColour ((Spec.blockBytes 8 data (2 * k + 1)).take 4)) := by
  have hlen := (@Proofs.Crn.Unity.unityCrunchUnpackLevel_ok Build.release _ _ h hl (.inl rfl)).2.2
  unfold Unity.unpack at h
  split at h
  case isFalse => exact absurd h (by simp)
  obtain ⟨cs, h1, h⟩ := Option.bind_eq_some_iff.mp h
  obtain ⟨bl, h2, h⟩ := Option.bind_eq_some_iff.mp h
  obtain rfl := Option.some.inj h
  have big : ∀ k, Spec.blockBytes 8 bl.flatten (2 * k + 1) = (Spec.blockBytes 16 bl.flatten k).drop 8 := by
    intro k
    unfold Spec.blockBytes
    rw [List.drop_take, List.drop_drop, show (2 * k + 1) * 8 = k * 16 + 8 by omega]
  by_cases hf : format file = 10 ∨ format file = 11 ∨ format file = 12
  · rw [if_pos hf] at h2
    obtain ⟨hn, hb⟩ := Proofs.Crn.Unity.halfBlocks_two hl h2
    by_cases f12 : format file = 12
    · rw [f12, if_pos rfl] at hb
      have h16 := Proofs.Crn.Unity.flatten_tight (L := bl) (m := 16)
        (fun b hm => by
          obtain ⟨pre, e, s, rfl, a1, a2, a3, _⟩ := hb b hm
          rw [List.length_append, List.length_append]; omega)
        (by rw [hlen, hn, f12]; rfl)
      have key : Unity.TwoColours ((Spec.blockBytes 8 bl.flatten (2 * k + 1)).take 4) := by
        have hm : bl[k]'(by omega) ∈ bl := List.getElem_mem _
        have hlk := h16 _ hm
        rw [big, Proofs.Crn.Unity.blockBytes_flatten h16 (by omega)]
        obtain ⟨pre, e, s, hbk, a1, a2, a3, a4⟩ := hb _ hm
        rw [hbk, List.length_append, List.length_append] at hlk
        rw [hbk, List.drop_append_of_le_length (by omega), List.drop_of_length_le (by omega), List.nil_append,
          List.take_append_of_le_length (by omega), List.take_of_length_le (by omega)]
        exact a4
      exact ⟨fun hc => absurd hc (by omega), fun _ => key, fun hc => absurd hc (by omega), fun hc => absurd hc (by omega)⟩
    · rw [if_neg f12] at hb
      have h8 := Proofs.Crn.Unity.flatten_tight (L := bl) (m := 8)
        (fun b hm => by
          obtain ⟨pre, e, s, rfl, a1, a2, a3, _⟩ := hb b hm
          rw [List.length_append, List.length_append]; omega)
        (by
          rw [hlen, hn]
          rcases hf with f | f | f
          · rw [f]; rfl
          · rw [f]; rfl
          · exact absurd f f12)
      have key : Unity.TwoColours ((Spec.blockBytes 8 bl.flatten k).take 4) := by
        have hm : bl[k]'(by omega) ∈ bl := List.getElem_mem _
        rw [Proofs.Crn.Unity.blockBytes_flatten h8 (by omega)]
        obtain ⟨pre, e, s, hbk, a1, a2, a3, a4⟩ := hb _ hm
        obtain rfl := List.eq_nil_of_length_eq_zero (Nat.le_zero.mp a1)
        rw [hbk, List.nil_append, List.take_append_of_le_length (by omega), List.take_of_length_le (by omega)]
        exact a4
      exact ⟨fun _ => key, fun hc => absurd hc f12, fun hc => absurd hc (by omega), fun hc => absurd hc (by omega)⟩
  · rw [if_neg hf] at h2
    by_cases f1 : format file = 13 ∨ format file = 14
    · obtain ⟨hn, hb⟩ := Proofs.Crn.Unity.wholeBlocks_one hl f1 h2
      by_cases f14 : format file = 14
      · rw [f14, if_pos rfl] at hb
        have h16 := Proofs.Crn.Unity.flatten_tight (L := bl) (m := 16)
          (fun b hm => by
            obtain ⟨pre, e, s, rfl, a1, a2, a3, _⟩ := hb b hm
            rw [List.length_append, List.length_append]; omega)
          (by rw [hlen, hn, f14]; rfl)
        have key : Unity.OneColour ((Spec.blockBytes 8 bl.flatten (2 * k + 1)).take 4) := by
          have hm : bl[k]'(by omega) ∈ bl := List.getElem_mem _
          have hlk := h16 _ hm
          rw [big, Proofs.Crn.Unity.blockBytes_flatten h16 (by omega)]
          obtain ⟨pre, e, s, hbk, a1, a2, a3, a4⟩ := hb _ hm
          rw [hbk, List.length_append, List.length_append] at hlk
          rw [hbk, List.drop_append_of_le_length (by omega), List.drop_of_length_le (by omega), List.nil_append,
            List.take_append_of_le_length (by omega), List.take_of_length_le (by omega)]
          exact a4 (by omega)
        exact ⟨fun hc => absurd hc (by omega), fun hc => absurd hc (by omega), fun hc => absurd hc (by omega), fun _ => key⟩
      · have f13 : format file = 13 := by omega
        rw [if_neg f14] at hb
        have h8 := Proofs.Crn.Unity.flatten_tight (L := bl) (m := 8)
          (fun b hm => by
            obtain ⟨pre, e, s, rfl, a1, a2, a3, _⟩ := hb b hm
            rw [List.length_append, List.length_append]; omega)
          (by rw [hlen, hn, f13]; rfl)
        have key : Unity.OneColour ((Spec.blockBytes 8 bl.flatten k).take 4) := by
          have hm : bl[k]'(by omega) ∈ bl := List.getElem_mem _
          have hlk := h8 _ hm
          rw [Proofs.Crn.Unity.blockBytes_flatten h8 (by omega)]
          obtain ⟨pre, e, s, hbk, a1, a2, a3, a4⟩ := hb _ hm
          obtain rfl := List.eq_nil_of_length_eq_zero (Nat.le_zero.mp a1)
          rw [hbk, List.nil_append, List.length_append] at hlk
          rw [hbk, List.nil_append, List.take_append_of_le_length (by omega), List.take_of_length_le (by omega)]
          exact a4 (by omega)
        exact ⟨fun hc => absurd hc (by omega), fun hc => absurd hc (by omega), fun _ => key, fun hc => absurd hc f14⟩
    · exact ⟨fun hc => absurd hc (by omega), fun hc => absurd hc (by omega), fun hc => absurd hc (by omega),
        fun hc => absurd hc (by omega)⟩

/-- Blocks of two base colours are in the modes of ETC1. -/
theorem twoColours_legacy {b : List UInt8} (hl : b.length = 8) (h : Unity.TwoColours (b.take 4)) :
    Spec.Etc.diffBit b = false ∨ ∀ ch, ch < 3 → ¬ Spec.Etc.overflows b ch := by
  match b, hl with
  | [b0, b1, b2, b3, b4, b5, b6, b7], _ =>
    have l0 := b0.toNat_lt
    have l1 := b1.toNat_lt
    have l2 := b2.toNat_lt
    have l3 := b3.toNat_lt
    have l4 := b4.toNat_lt
    have l5 := b5.toNat_lt
    have l6 := b6.toNat_lt
    have l7 := b7.toNat_lt
    obtain ⟨h1, h2⟩ := h
    simp only [List.take_succ_cons, List.take_zero, List.getD_cons_zero, List.getD_cons_succ] at h1 h2
    have hN : beNat [b0, b1, b2, b3, b4, b5, b6, b7] = ((((((b0.toNat * 256 + b1.toNat) * 256 + b2.toNat) * 256 +
        b3.toNat) * 256 + b4.toNat) * 256 + b5.toNat) * 256 + b6.toNat) * 256 + b7.toNat := by
      simp only [beNat, List.reverse_cons, List.reverse_nil, List.nil_append, List.cons_append, leNat]
      omega
    unfold Spec.Etc.diffBit Spec.Etc.overflows Spec.Etc.diffSum Spec.Etc.signed3 Spec.Etc.bits
    generalize beNat [b0, b1, b2, b3, b4, b5, b6, b7] = N at hN
    by_cases hm : b3.toNat / 2 % 2 = 1
    · right
      obtain ⟨s0, s1, s2⟩ := h1 hm
      unfold Unity.SumFits at s0 s1 s2
      intro ch hch
      match ch, hch with
      | 0, _ =>
        have e1 : N / 2 ^ (59 - 8 * 0) % 2 ^ (63 - 8 * 0 + 1 - (59 - 8 * 0)) = b0.toNat / 8 := by omega
        have e2 : N / 2 ^ (56 - 8 * 0) % 2 ^ (58 - 8 * 0 + 1 - (56 - 8 * 0)) = b0.toNat % 8 := by omega
        rw [e1, e2]
        split <;> omega
      | 1, _ =>
        have e1 : N / 2 ^ (59 - 8 * 1) % 2 ^ (63 - 8 * 1 + 1 - (59 - 8 * 1)) = b1.toNat / 8 := by omega
        have e2 : N / 2 ^ (56 - 8 * 1) % 2 ^ (58 - 8 * 1 + 1 - (56 - 8 * 1)) = b1.toNat % 8 := by omega
        rw [e1, e2]
        split <;> omega
      | 2, _ =>
        have e1 : N / 2 ^ (59 - 8 * 2) % 2 ^ (63 - 8 * 2 + 1 - (59 - 8 * 2)) = b2.toNat / 8 := by omega
        have e2 : N / 2 ^ (56 - 8 * 2) % 2 ^ (58 - 8 * 2 + 1 - (56 - 8 * 2)) = b2.toNat % 8 := by omega
        rw [e1, e2]
        split <;> omega
    · left
      simp only [beq_eq_false_iff_ne]
      omega

/-- **C87** A file with the code of ETC2 without alpha is decoded as ETC1: it never uses the modes that
ETC2 adds. -/
theorem C87_etc2_is_etc1 [Build] (file data : List UInt8) (h : Unity.unpack file = some data) (hl : Limits file)
    (hodd : Build.overflowChecks = false ∨ blocksX file % 2 = 0) (hf : format file = 11)
    (w ht : Nat) (image : List UInt32) (hs : Spec.SizesOk 4 4 8 w ht image) :
    Model.Crn.Unity.decodeUnityCrunch file w ht image = Model.decodeEtc1 data w ht image := by
  have hlen := (Proofs.Crn.Unity.unityCrunchUnpackLevel_ok h hl hodd).2.2
  rw [hf, show 4 * Proofs.Crn.Unity.wordsOf 11 = 8 from rfl] at hlen
  rw [C55_blocks file data h hl hodd, hf]
  refine C25_etc2_extends_etc1_image data w ht image hs fun k _ => ?_
  by_cases hk : k < faces file * blocksY file * blocksX file
  · refine twoColours_legacy ?_ ((C87_blocks file data h hl k hk).1 (.inr hf))
    unfold Spec.blockBytes
    rw [List.length_take, List.length_drop]; omega
  · left
    have : Spec.blockBytes 8 data k = [] := by
      unfold Spec.blockBytes
      rw [List.drop_of_length_le (by omega)]; rfl
    rw [this]
    decide

/- The sample of a file with two colours per block. -/
example : Limits UnityDemo.uEtc2 ∧ format UnityDemo.uEtc2 = 11 ∧ blocksX UnityDemo.uEtc2 % 2 = 0 ∧
    (Unity.unpack UnityDemo.uEtc2).map List.length = some 16 ∧ Spec.SizesOk 4 4 8 8 4 (List.replicate 32 0) :=
  ⟨⟨by decide +kernel, ⟨by decide +kernel, by decide +kernel, by decide +kernel⟩, by decide +kernel,
    by decide +kernel, by decide +kernel⟩, by decide +kernel, by decide +kernel, by decide +kernel,
    ⟨by decide, by decide, by decide⟩⟩

end Verif.Props
