import Verif.Spec.FlipEtc
import Verif.Proofs.MoveEtc

/-! # Turning ETC blocks upside down and left to right -/

namespace Verif.Proofs.FlipEtc

open Verif.Spec Verif.Spec.Etc Verif.Proofs Verif.Proofs.MoveEtc

/-- `σ` exchanges the halves in the direction `across` and keeps the others. -/
def Turns (σ : Rearrangement) (across : Nat) : Prop :=
  ∀ from_ to : List UInt8, bits to 32 32 = bits from_ 32 32 → ∀ i, i < 16 →
    second to i = if bits from_ 32 32 = across then !second from_ (σ i) else second from_ (σ i)

theorem turns_flip : Turns flip4 1 := by
  intro from_ to h i hi
  unfold second
  rw [h]
  have e1 : flip4 i / 4 = 3 - i / 4 := by unfold flip4; omega
  have e2 : flip4 i % 4 = i % 4 := by unfold flip4; omega
  rw [e1, e2]
  split
  · rw [← decide_not]; exact decide_eq_decide.2 (by omega)
  · rfl

theorem turns_mirror : Turns mirror4 0 := by
  intro from_ to h i hi
  unfold second
  rw [h]
  have hb : bits from_ 32 32 < 2 := bits_lt from_ 32 32
  have e1 : mirror4 i / 4 = i / 4 := by unfold mirror4; omega
  have e2 : mirror4 i % 4 = 3 - i % 4 := by unfold mirror4; omega
  rw [e1, e2]
  rcases (by omega : bits from_ 32 32 = 0 ∨ bits from_ 32 32 = 1) with e | e
  · simp only [e, if_true, if_neg (show ¬ 0 = 1 by decide)]
    rw [← decide_not]; exact decide_eq_decide.2 (by omega)
  · simp only [e, if_true, if_neg (show ¬ 1 = 0 by decide)]

theorem codeword_x {d : Bool} {from_ to : List UInt8} (h : HalvesExchanged d from_ to) (s : Bool) :
    codeword to s = codeword from_ (!s) := by
  cases s
  · exact h.first_table
  · exact h.second_table

theorem individual_x {from_ to : List UInt8} (h : HalvesExchanged false from_ to) (s : Bool) {ch : Nat}
    (hc : ch < 3) : individual to s ch = individual from_ (!s) ch := by
  have c := h.colours ch hc
  rw [if_neg (by decide)] at c
  cases s
  · exact congrArg expand4 c.1
  · exact congrArg expand4 c.2

theorem five_lt (blk : List UInt8) {ch : Nat} (hc : ch < 3) : bits blk (63 - 8 * ch) (59 - 8 * ch) < 32 := by
  have := bits_lt blk (63 - 8 * ch) (59 - 8 * ch)
  rwa [show 63 - 8 * ch + 1 - (59 - 8 * ch) = 5 by omega] at this

theorem differential_x {from_ to : List UInt8} (h : HalvesExchanged true from_ to) (s : Bool) {ch : Nat}
    (hc : ch < 3) : differential to s ch = differential from_ (!s) ch := by
  have c := h.colours ch hc
  rw [if_pos rfl] at c
  have h1 := five_lt from_ hc
  have h2 := five_lt to hc
  cases s
  · show expand5 _ = expand5 _
    rw [← c.1]
    exact congrArg expand5 (by omega)
  · show expand5 _ = expand5 _
    rw [c.2]
    exact congrArg expand5 (by omega)

theorem mode_x {d : Bool} {from_ to : List UInt8} (h : HalvesExchanged d from_ to) :
    mode d to = if d then .differential else .individual := by
  cases d
  · rfl
  · have key : ∀ ch, ch < 3 → ¬ overflows to ch := fun ch hc => by
      have c := h.colours ch hc
      rw [if_pos rfl] at c
      have h1 := five_lt from_ hc
      unfold overflows
      omega
    unfold mode
    simp [key 0 (by decide), key 1 (by decide), key 2 (by decide)]

theorem diffBit_x {d : Bool} {from_ to : List UInt8} (h : HalvesExchanged d from_ to) :
    diffBit to = diffBit from_ :=
  diffBit_t (same h.bits_kept (by decide) 33 33 (by decide) (by decide) (by decide))

/-- The base colour and the table of a texel. -/
theorem plain_parts {σ : Rearrangement} {across : Nat} (hσ : Turns σ across) {d : Bool} {from_ to : List UInt8}
    (h : PlainMoved σ across d from_ to) {i : Nat} (hi : i < 16) :
    diffBit to = diffBit from_ ∧ codeword to (second to i) = codeword from_ (second from_ (σ i)) ∧
    (∀ ch, ch < 3 → d = false → individual to (second to i) ch = individual from_ (second from_ (σ i)) ch) ∧
    ∀ ch, ch < 3 → d = true → differential to (second to i) ch = differential from_ (second from_ (σ i)) ch := by
  obtain ⟨h, -⟩ := h
  by_cases hx : bits from_ 32 32 = across
  · rw [if_pos hx] at h
    have s := hσ from_ to (same h.bits_kept (by decide) 32 32 (by decide) (by decide) (by decide)) i hi
    rw [if_pos hx] at s
    rw [s]
    refine ⟨diffBit_x h, ?_, fun ch hc hd => ?_, fun ch hc hd => ?_⟩
    · rw [codeword_x h, Bool.not_not]
    · subst hd; rw [individual_x h _ hc, Bool.not_not]
    · subst hd; rw [differential_x h _ hc, Bool.not_not]
  · rw [if_neg hx] at h
    have s := hσ from_ to (same h (by decide) 32 32 (by decide) (by decide) (by decide)) i hi
    rw [if_neg hx] at s
    have h' := same h (by decide) 63 33 (by decide) (by decide) (by decide)
    rw [s]
    exact ⟨diffBit_t (same h (by decide) 33 33 (by decide) (by decide) (by decide)), codeword_t h' _,
      fun ch hc _ => individual_t h' _ hc, fun ch hc _ => differential_t h' _ hc⟩

theorem plain_x {σ : Rearrangement} {across : Nat} (hσ : Turns σ across) {from_ to : List UInt8}
    (h : PlainMoved σ across (diffBit from_) from_ to) {i : Nat} (hi : i < 16) :
    etc1Texel to i = etc1Texel from_ (σ i) := by
  obtain ⟨p1, p2, p3, p4⟩ := plain_parts hσ h hi
  unfold etc1Texel
  simp only
  rw [p1, p2, h.2 i hi]
  refine shade_t (fun ch hc => ?_) _ _
  cases e : diffBit from_
  · exact p3 ch hc e
  · exact p4 ch hc e

/-- The mode does not change, and neither does the diff bit. -/
theorem etc2_mode {σ : Rearrangement} {across : Nat} {d : Bool} {from_ to : List UInt8}
    (h : Etc2Moved σ across d from_ to) : mode d to = mode d from_ ∧ diffBit to = diffBit from_ := by
  have kept : bits to 63 32 = bits from_ 63 32 → mode d to = mode d from_ ∧ diffBit to = diffBit from_ :=
    fun h => ⟨mode_t (same h (by decide) 63 40 (by decide) (by decide) (by decide)) _,
      diffBit_t (same h (by decide) 33 33 (by decide) (by decide) (by decide))⟩
  have plain : PlainMoved σ across d from_ to → (mode d from_ = .individual ∨ mode d from_ = .differential) →
      mode d to = mode d from_ ∧ diffBit to = diffBit from_ := fun h hm => by
    obtain ⟨h, -⟩ := h
    by_cases hx : bits from_ 32 32 = across
    · rw [if_pos hx] at h
      refine ⟨?_, diffBit_x h⟩
      rw [mode_x h]
      cases d
      · rfl
      · rcases hm with hm | hm
        · exfalso
          revert hm
          unfold mode
          rw [if_neg (by decide)]
          split
          · decide
          · split
            · decide
            · split <;> decide
        · rw [hm]; rfl
    · rw [if_neg hx] at h
      exact kept h
  unfold Etc2Moved at h
  cases e : mode d from_ <;> rw [e] at h
  · rw [← e]; exact plain h (.inl e)
  · rw [← e]; exact plain h (.inr e)
  · rw [← e]; exact kept h.1
  · rw [← e]; exact kept h.1
  · exact h.elim

theorem indices_x {σ : Rearrangement} {across : Nat} {d : Bool} {from_ to : List UInt8}
    (h : Etc2Moved σ across d from_ to) : IndicesMoved σ from_ to := by
  unfold Etc2Moved at h
  cases e : mode d from_ <;> rw [e] at h
  · exact h.2
  · exact h.2
  · exact h.2
  · exact h.2
  · exact h.elim

theorem etc2_x {σ : Rearrangement} {across : Nat} (hσ : Turns σ across) {from_ to : List UInt8}
    (h : Etc2Moved σ across (diffBit from_) from_ to) {i : Nat} (hi : i < 16) :
    etc2RgbTexel to i = etc2RgbTexel from_ (σ i) := by
  obtain ⟨k1, k2⟩ := etc2_mode h
  have hidx := indices_x h i hi
  unfold etc2RgbTexel
  rw [k2, k1]
  unfold Etc2Moved at h
  generalize mode (diffBit from_) from_ = m at h
  cases m
  · exact plain_x hσ h hi
  · exact plain_x hσ h hi
  · show tPaint _ _ _ = tPaint _ _ _
    rw [tPaint_t h.1, hidx]
  · show hPaint _ _ _ = hPaint _ _ _
    rw [hPaint_t h.1, hidx]
  · exact h.elim

theorem etc2a1_x {σ : Rearrangement} {across : Nat} (hσ : Turns σ across) {from_ to : List UInt8}
    (h : Etc2Moved σ across true from_ to) {i : Nat} (hi : i < 16) :
    etc2Rgba1Texel to i = etc2Rgba1Texel from_ (σ i) := by
  obtain ⟨k1, k2⟩ := etc2_mode h
  have hidx := indices_x h i hi
  have ht : transparent to i ↔ transparent from_ (σ i) := by
    unfold transparent
    rw [k1, k2, hidx]
  unfold etc2Rgba1Texel
  simp only [ht, k1]
  unfold Etc2Moved at h
  have plainCase : PlainMoved σ across true from_ to → ∀ a : Nat,
      shade (differential to (second to i)) (modifierA (diffBit to) (codeword to (second to i)) (index to i)) a
        = shade (differential from_ (second from_ (σ i)))
          (modifierA (diffBit from_) (codeword from_ (second from_ (σ i))) (index from_ (σ i))) a := fun h a => by
    obtain ⟨_, p2, _, p4⟩ := plain_parts hσ h hi
    rw [p2, k2, hidx]
    exact shade_t (fun ch hc => p4 ch hc rfl) _ _
  generalize mode true from_ = m at h
  cases m
  · exact plainCase h _
  · exact plainCase h _
  · show tPaint _ _ _ = tPaint _ _ _
    rw [tPaint_t h.1, hidx]
  · show hPaint _ _ _ = hPaint _ _ _
    rw [hPaint_t h.1, hidx]
  · exact h.elim

theorem eac_x {σ : Rearrangement} {from_ to : List UInt8} (h : EacMoved σ from_ to) {i : Nat} (hi : i < 16) :
    eacAlpha to i = eacAlpha from_ (σ i) := by
  unfold eacAlpha
  rw [same h.1 (by decide) 63 56 (by decide) (by decide) (by decide),
    same h.1 (by decide) 55 52 (by decide) (by decide) (by decide),
    same h.1 (by decide) 51 48 (by decide) (by decide) (by decide), h.2 i hi]

theorem texel_x {fmt : Format} {σ : Rearrangement} {across : Nat} (hσ : Turns σ across)
    {from_ to : List UInt8} (h : fmt.EtcMoved σ across from_ to) {i : Nat} (hi : i < 16) :
    fmt.texel to i = fmt.texel from_ (σ i) := by
  cases fmt
  case etc1 => exact plain_x hσ h hi
  case etc2rgb => exact etc2_x hσ h hi
  case etc2rgba1 => exact etc2a1_x hσ h hi
  case etc2rgba8 =>
    show withAlpha _ _ = withAlpha _ _
    rw [etc2_x hσ h.2 hi, eac_x h.1 hi]
  all_goals exact h.elim

theorem not_bc6_x {fmt : Format} {σ : Rearrangement} {across : Nat} {from_ to : List UInt8}
    (h : fmt.EtcMoved σ across from_ to) : fmt ≠ .bc6s ∧ fmt ≠ .bc6u := by
  constructor <;> (rintro rfl; exact h)

end Verif.Proofs.FlipEtc
