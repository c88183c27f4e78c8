import Verif.Proofs.Formats

/-! # Consequences of the whole-image contract -/

namespace Verif.Proofs

open Verif Verif.Model

theorem forRange_panic_first {σ : Type} {f : Nat → σ → Out σ} {s : σ} (h : f 0 s = .panic) :
    ∀ n, forRange (n + 1) f s = .panic := by
  intro n
  induction n with
  | zero => simp [forRange, h]
  | succ n ih => rw [forRange, ih]; rfl

/-- What a decode that returns `Ok` did. -/
theorem ok_inv [Build] {fmt : Spec.Format} {data : List UInt8} {w h : Nat}
    {image image' : List UInt32} (hs : fmt.SizesOk w h image) (hl : fmt.AllLegal data w h)
    (hok : decoder fmt data w h image = .ok (.ok (), image')) :
    fmt.need w h ≤ data.length ∧ w * h ≤ image.length ∧
      Spec.IsDecoded 4 4 fmt.blockSize fmt.texel data w h image image' := by
  have S := decoder_spec fmt
  by_cases h1 : data.length < fmt.need w h
  · rw [S.not_enough_data _ _ _ _ hs h1] at hok
    injection hok with hok; injection hok with a b; cases a
  · by_cases h2 : image.length < w * h
    · rw [S.image_too_small _ _ _ _ hs (Nat.not_lt.mp h1) h2] at hok
      injection hok with hok; injection hok with a b; cases a
    · obtain ⟨o, e, hd⟩ := S.success _ _ _ _ hs (Nat.not_lt.mp h1) (Nat.not_lt.mp h2) hl
      rw [e] at hok
      injection hok with hok; injection hok with a b
      subst b
      exact ⟨Nat.not_lt.mp h1, Nat.not_lt.mp h2, hd⟩

theorem numBlocks_idx {w h x y : Nat} (hx : x < w) (hy : y < h) :
    y / 4 * Spec.ceilDiv w 4 + x / 4 < Spec.numBlocks 4 4 w h := by
  have h1 := div_lt_ceilDiv (bw := 4) (by omega) hx
  have h2 := div_lt_ceilDiv (bw := 4) (by omega) hy
  unfold Spec.numBlocks
  have := Nat.mul_le_mul_right (Spec.ceilDiv w 4) (show y / 4 + 1 ≤ Spec.ceilDiv h 4 from h2)
  rw [Nat.add_mul, Nat.mul_comm (Spec.ceilDiv h 4)] at this
  omega

theorem blockBytes_append {raw : Nat} {a b : List UInt8} {k n : Nat} (hk : k < n)
    (ha : n * raw ≤ a.length) : Spec.blockBytes raw (a ++ b) k = Spec.blockBytes raw a k := by
  unfold Spec.blockBytes
  have h1 : (k + 1) * raw ≤ n * raw := Nat.mul_le_mul_right raw hk
  rw [Nat.add_mul] at h1
  rw [List.drop_append_of_le_length (by omega), List.take_append_of_le_length (by simp; omega)]

theorem pixel_index {w h j : Nat} (hj : j < w * h) :
    ∃ x y, x < w ∧ y < h ∧ j = y * w + x := by
  have hw : 0 < w := by
    rcases Nat.eq_zero_or_pos w with h0 | h0
    · subst h0; simp at hj
    · exact h0
  refine ⟨j % w, j / w, Nat.mod_lt _ hw, ?_, ?_⟩
  · rw [Nat.div_lt_iff_lt_mul hw, Nat.mul_comm]; exact hj
  · rw [Nat.mul_comm]; exact (Nat.div_add_mod j w).symm

theorem isDecoded_unique {bw bh raw w h : Nat} {texel : List UInt8 → Nat → UInt32}
    {data : List UInt8} {before a b : List UInt32}
    (ha : Spec.IsDecoded bw bh raw texel data w h before a)
    (hb : Spec.IsDecoded bw bh raw texel data w h before b) : a = b := by
  apply List.ext_getElem?
  intro j
  rcases Nat.lt_or_ge j (w * h) with hj | hj
  · obtain ⟨x, y, hx, hy, rfl⟩ := pixel_index hj
    rw [ha.pixel x y hx hy, hb.pixel x y hx hy]
  · rw [ha.rest j hj, hb.rest j hj]

end Verif.Proofs
