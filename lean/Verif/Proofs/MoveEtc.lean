import Verif.Spec.MoveEtc
import Verif.Proofs.Recolour

/-! # Exchanging rows and columns in ETC blocks -/

namespace Verif.Proofs.MoveEtc

open Verif.Spec Verif.Spec.Etc Verif.Proofs

theorem same {from_ to : List UInt8} {H L : Nat} (h : bits to H L = bits from_ H L) (hL : L ≤ H) (hi lo : Nat)
    (h1 : hi ≤ H) (h2 : L ≤ lo) (h3 : lo ≤ hi) : bits to hi lo = bits from_ hi lo := by
  have e := Recolour.bits_within (l := to) (l' := from_) h rfl hL hL (hi - L) (lo - L) (by omega) (by omega)
  rwa [show L + (hi - L) = hi by omega, show L + (lo - L) = lo by omega] at e

theorem order_lt {i : Nat} (hi : i < 16) : order i < 16 := by unfold order; omega

/-- The number of the transposed texel is the number of the texel, transposed. -/
theorem order_transpose4 {i : Nat} (hi : i < 16) : order (transpose4 i) = order (order i) := by
  unfold order transpose4; omega

theorem index_t {from_ to : List UInt8} (h : IndicesTransposed from_ to) {i : Nat} (hi : i < 16) :
    index to i = index from_ (transpose4 i) := by
  obtain ⟨h1, h2⟩ := h _ (order_lt hi)
  unfold index
  rw [h1, h2, order_transpose4 hi]

theorem overflows_t {from_ to : List UInt8} (h : bits to 63 40 = bits from_ 63 40) (ch : Nat) (hc : ch < 3) :
    overflows to ch ↔ overflows from_ ch := by
  unfold overflows diffSum
  rw [same h (by decide) (63 - 8 * ch) (59 - 8 * ch) (by omega) (by omega) (by omega),
    same h (by decide) (58 - 8 * ch) (56 - 8 * ch) (by omega) (by omega) (by omega)]

theorem mode_t {from_ to : List UInt8} (h : bits to 63 40 = bits from_ 63 40) (d : Bool) :
    mode d to = mode d from_ := by
  unfold mode
  simp only [overflows_t h 0 (by decide), overflows_t h 1 (by decide), overflows_t h 2 (by decide)]

theorem diffBit_t {from_ to : List UInt8} (h : bits to 33 33 = bits from_ 33 33) :
    diffBit to = diffBit from_ := by
  unfold diffBit; rw [h]

theorem second_t {from_ to : List UInt8} (h : bits to 32 32 = 1 - bits from_ 32 32) {i : Nat} (hi : i < 16) :
    second to i = second from_ (transpose4 i) := by
  have hb : bits from_ 32 32 < 2 := bits_lt from_ 32 32
  have e1 : transpose4 i / 4 = i % 4 := by unfold transpose4; omega
  have e2 : transpose4 i % 4 = i / 4 := by unfold transpose4; omega
  unfold second
  rw [h, e1, e2]
  rcases (by omega : bits from_ 32 32 = 0 ∨ bits from_ 32 32 = 1) with e | e <;> simp [e]

theorem individual_t {from_ to : List UInt8} (h : bits to 63 33 = bits from_ 63 33) (s : Bool) {ch : Nat}
    (hc : ch < 3) : individual to s ch = individual from_ s ch := by
  unfold individual
  rw [same h (by decide) (59 - 8 * ch) (56 - 8 * ch) (by omega) (by omega) (by omega),
    same h (by decide) (63 - 8 * ch) (60 - 8 * ch) (by omega) (by omega) (by omega)]

theorem differential_t {from_ to : List UInt8} (h : bits to 63 33 = bits from_ 63 33) (s : Bool) {ch : Nat}
    (hc : ch < 3) : differential to s ch = differential from_ s ch := by
  unfold differential diffSum
  rw [same h (by decide) (63 - 8 * ch) (59 - 8 * ch) (by omega) (by omega) (by omega),
    same h (by decide) (58 - 8 * ch) (56 - 8 * ch) (by omega) (by omega) (by omega)]

theorem codeword_t {from_ to : List UInt8} (h : bits to 63 33 = bits from_ 63 33) (s : Bool) :
    codeword to s = codeword from_ s := by
  unfold codeword
  rw [same h (by decide) 36 34 (by decide) (by decide) (by decide),
    same h (by decide) 39 37 (by decide) (by decide) (by decide)]

theorem shade_t {c d : Nat → Nat} (h : ∀ ch, ch < 3 → c ch = d ch) (m : Int) (a : Nat) :
    shade c m a = shade d m a := by
  unfold shade
  rw [h 0 (by decide), h 1 (by decide), h 2 (by decide)]

theorem plain {from_ to : List UInt8} (h : PlainTransposed from_ to) {i : Nat} (hi : i < 16) :
    etc1Texel to i = etc1Texel from_ (transpose4 i) := by
  obtain ⟨h1, h2, h3⟩ := h
  unfold etc1Texel
  rw [second_t h2 hi, index_t h3 hi,
    diffBit_t (same h1 (by decide) 33 33 (by decide) (by decide) (by decide))]
  simp only
  rw [codeword_t h1]
  refine shade_t (fun ch hc => ?_) _ _
  cases diffBit from_
  · exact individual_t h1 _ hc
  · exact differential_t h1 _ hc

theorem tPaint_t {from_ to : List UInt8} (h : bits to 63 32 = bits from_ 63 32) (k a : Nat) :
    tPaint to k a = tPaint from_ k a := by
  have s : ∀ hi lo, hi ≤ 63 → 32 ≤ lo → lo ≤ hi → bits to hi lo = bits from_ hi lo :=
    fun hi lo => same h (by decide) hi lo
  unfold tPaint tBase1 tBase2
  rw [s 35 34 (by decide) (by decide) (by decide), s 32 32 (by decide) (by decide) (by decide),
    s 60 59 (by decide) (by decide) (by decide), s 57 56 (by decide) (by decide) (by decide),
    s 55 52 (by decide) (by decide) (by decide), s 51 48 (by decide) (by decide) (by decide),
    s 47 44 (by decide) (by decide) (by decide), s 43 40 (by decide) (by decide) (by decide),
    s 39 36 (by decide) (by decide) (by decide)]

theorem hPaint_t {from_ to : List UInt8} (h : bits to 63 32 = bits from_ 63 32) (k a : Nat) :
    hPaint to k a = hPaint from_ k a := by
  have s : ∀ hi lo, hi ≤ 63 → 32 ≤ lo → lo ≤ hi → bits to hi lo = bits from_ hi lo :=
    fun hi lo => same h (by decide) hi lo
  have r1 : hRed1 to = hRed1 from_ := s 62 59 (by decide) (by decide) (by decide)
  have g1 : hGreen1 to = hGreen1 from_ := by
    unfold hGreen1
    rw [s 58 56 (by decide) (by decide) (by decide), s 52 52 (by decide) (by decide) (by decide)]
  have b1 : hBlue1 to = hBlue1 from_ := by
    unfold hBlue1
    rw [s 51 51 (by decide) (by decide) (by decide), s 49 47 (by decide) (by decide) (by decide)]
  have r2 : hRed2 to = hRed2 from_ := s 46 43 (by decide) (by decide) (by decide)
  have g2 : hGreen2 to = hGreen2 from_ := s 42 39 (by decide) (by decide) (by decide)
  have b2 : hBlue2 to = hBlue2 from_ := s 38 35 (by decide) (by decide) (by decide)
  unfold hPaint hDistance
  rw [r1, g1, b1, r2, g2, b2, s 34 34 (by decide) (by decide) (by decide),
    s 32 32 (by decide) (by decide) (by decide)]

theorem planarO_t {from_ to : List UInt8} (h : bits to 63 39 = bits from_ 63 39) (ch : Nat) :
    planarO to ch = planarO from_ ch := by
  have s : ∀ hi lo, hi ≤ 63 → 39 ≤ lo → lo ≤ hi → bits to hi lo = bits from_ hi lo :=
    fun hi lo => same h (by decide) hi lo
  unfold planarO
  rw [s 62 57 (by decide) (by decide) (by decide), s 56 56 (by decide) (by decide) (by decide),
    s 54 49 (by decide) (by decide) (by decide), s 48 48 (by decide) (by decide) (by decide),
    s 44 43 (by decide) (by decide) (by decide), s 41 39 (by decide) (by decide) (by decide)]

theorem planarH_t {from_ to : List UInt8} (h : PlanarTransposed from_ to) (ch : Nat) :
    planarH to ch = planarV from_ ch := by
  obtain ⟨_, _, a, b, c, _⟩ := h
  unfold planarH planarV
  rw [a, b, c]

theorem planarV_t {from_ to : List UInt8} (h : PlanarTransposed from_ to) (ch : Nat) :
    planarV to ch = planarH from_ ch := by
  obtain ⟨_, _, _, _, _, a, b, c⟩ := h
  unfold planarH planarV
  rw [a, b, c]

theorem planarChannel_t {from_ to : List UInt8} (h : PlanarTransposed from_ to) (x y ch : Nat) :
    planarChannel to x y ch = planarChannel from_ y x ch := by
  unfold planarChannel
  rw [planarH_t h, planarV_t h, planarO_t h.1]
  refine congrArg (fun v : Int => clamp255 (v / 4)) ?_
  omega

theorem planar {from_ to : List UInt8} (h : PlanarTransposed from_ to) {i : Nat} (hi : i < 16) :
    planarTexel to i = planarTexel from_ (transpose4 i) := by
  have e1 : transpose4 i / 4 = i % 4 := by unfold transpose4; omega
  have e2 : transpose4 i % 4 = i / 4 := by unfold transpose4; omega
  unfold planarTexel
  rw [planarChannel_t h, planarChannel_t h, planarChannel_t h, e1, e2]

/-- The bits that select the mode do not change. -/
theorem kept {from_ to : List UInt8} (h : Etc2Transposed from_ to) :
    bits to 63 40 = bits from_ 63 40 ∧ bits to 33 33 = bits from_ 33 33 := by
  unfold Etc2Transposed at h
  split at h
  · exact ⟨same h.1 (by decide) 63 40 (by decide) (by decide) (by decide),
      same h.1 (by decide) 33 33 (by decide) (by decide) (by decide)⟩
  · exact ⟨same h.1 (by decide) 63 40 (by decide) (by decide) (by decide),
      same h.1 (by decide) 33 33 (by decide) (by decide) (by decide)⟩
  · exact ⟨same h.1 (by decide) 63 40 (by decide) (by decide) (by decide),
      same h.1 (by decide) 33 33 (by decide) (by decide) (by decide)⟩
  · exact ⟨same h.1 (by decide) 63 40 (by decide) (by decide) (by decide),
      same h.1 (by decide) 33 33 (by decide) (by decide) (by decide)⟩
  · exact ⟨same h.1 (by decide) 63 40 (by decide) (by decide) (by decide), h.2.1⟩

theorem etc2 {from_ to : List UInt8} (h : Etc2Transposed from_ to) {i : Nat} (hi : i < 16) :
    etc2RgbTexel to i = etc2RgbTexel from_ (transpose4 i) := by
  obtain ⟨k1, k2⟩ := kept h
  have hm : mode (diffBit to) to = mode (diffBit from_) from_ := by rw [diffBit_t k2, mode_t k1]
  unfold etc2RgbTexel
  unfold Etc2Transposed at h
  rw [hm]
  generalize mode (diffBit from_) from_ = m at h
  cases m
  · exact plain h hi
  · exact plain h hi
  · show tPaint _ _ _ = tPaint _ _ _
    rw [tPaint_t h.1, index_t h.2 hi]
  · show hPaint _ _ _ = hPaint _ _ _
    rw [hPaint_t h.1, index_t h.2 hi]
  · exact planar h hi

theorem keptA1 {from_ to : List UInt8} (h : Etc2A1Transposed from_ to) :
    bits to 63 40 = bits from_ 63 40 ∧ bits to 33 33 = bits from_ 33 33 := by
  unfold Etc2A1Transposed at h
  generalize mode true from_ = m at h
  cases m
  case planar => exact ⟨same h.1 (by decide) 63 40 (by decide) (by decide) (by decide), h.2.1⟩
  all_goals exact ⟨same h.1 (by decide) 63 40 (by decide) (by decide) (by decide),
    same h.1 (by decide) 33 33 (by decide) (by decide) (by decide)⟩

theorem transparent_t {from_ to : List UInt8} (h : Etc2A1Transposed from_ to) {i : Nat} (hi : i < 16) :
    transparent to i ↔ transparent from_ (transpose4 i) := by
  obtain ⟨k1, k2⟩ := keptA1 h
  unfold transparent
  rw [diffBit_t k2, mode_t k1]
  unfold Etc2A1Transposed at h
  by_cases hp : mode true from_ = .planar
  · simp [hp]
  · have e : index to i = index from_ (transpose4 i) := by
      generalize mode true from_ = m at h hp
      cases m
      · exact index_t h.2.2 hi
      · exact index_t h.2.2 hi
      · exact index_t h.2 hi
      · exact index_t h.2 hi
      · exact absurd rfl hp
    rw [e]

theorem etc2a1 {from_ to : List UInt8} (h : Etc2A1Transposed from_ to) {i : Nat} (hi : i < 16) :
    etc2Rgba1Texel to i = etc2Rgba1Texel from_ (transpose4 i) := by
  obtain ⟨k1, k2⟩ := keptA1 h
  have ht := transparent_t h hi
  unfold etc2Rgba1Texel
  simp only [ht, mode_t k1]
  unfold Etc2A1Transposed at h
  have plainCase : PlainTransposed from_ to → ∀ a : Nat,
      shade (differential to (second to i)) (modifierA (diffBit to) (codeword to (second to i)) (index to i)) a
        = shade (differential from_ (second from_ (transpose4 i)))
          (modifierA (diffBit from_) (codeword from_ (second from_ (transpose4 i)))
            (index from_ (transpose4 i))) a := fun h a => by
    rw [second_t h.2.1 hi, index_t h.2.2 hi, diffBit_t k2, codeword_t h.1]
    exact shade_t (fun ch hc => differential_t h.1 _ hc) _ _
  generalize mode true from_ = m at h
  cases m
  · exact plainCase h _
  · exact plainCase h _
  · show tPaint _ _ _ = tPaint _ _ _
    rw [tPaint_t h.1, index_t h.2 hi]
  · show hPaint _ _ _ = hPaint _ _ _
    rw [hPaint_t h.1, index_t h.2 hi]
  · exact planar h hi

theorem eac {from_ to : List UInt8} (h : EacTransposed from_ to) {i : Nat} (hi : i < 16) :
    eacAlpha to i = eacAlpha from_ (transpose4 i) := by
  unfold eacAlpha eacIndex
  rw [same h.1 (by decide) 63 56 (by decide) (by decide) (by decide),
    same h.1 (by decide) 55 52 (by decide) (by decide) (by decide),
    same h.1 (by decide) 51 48 (by decide) (by decide) (by decide), h.2 _ (order_lt hi), order_transpose4 hi]

theorem texel {fmt : Format} {from_ to : List UInt8} (h : fmt.EtcTransposed from_ to) {i : Nat} (hi : i < 16) :
    fmt.texel to i = fmt.texel from_ (transpose4 i) := by
  cases fmt
  case etc1 => exact plain h hi
  case etc2rgb => exact etc2 h hi
  case etc2rgba1 => exact etc2a1 h hi
  case etc2rgba8 =>
    show withAlpha _ _ = withAlpha _ _
    rw [etc2 h.2 hi, eac h.1 hi]
  all_goals exact h.elim

theorem not_bc6 {fmt : Format} {from_ to : List UInt8} (h : fmt.EtcTransposed from_ to) :
    fmt ≠ .bc6s ∧ fmt ≠ .bc6u := by
  constructor <;> (rintro rfl; exact h)

end Verif.Proofs.MoveEtc
