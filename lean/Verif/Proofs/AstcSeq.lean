import Verif.Proofs.AstcInts
import Verif.Proofs.Loops
import Verif.Spec.Astc

/-! # Bounded integer sequences -/

namespace Verif.Proofs.Astc

open Verif Verif.Model Verif.Proofs
open Verif.Spec.Astc (bitsAt reverseBits Quant seqBits ise packedTrits packedQuints)

/-! ## Reversal of bits -/

theorem bitsAt_one (s n : Nat) : bitsAt s n 1 = (s.testBit n).toNat := by
  unfold bitsAt
  rw [Nat.testBit_eq_decide_div_mod_eq]
  by_cases h : s / 2 ^ n % 2 = 1
  · simp [h]
  · have : s / 2 ^ n % 2 = 0 := by omega
    simp [this]

theorem testBit_reverseBits (s n i : Nat) :
    (reverseBits s n).testBit i = (decide (i < n) && s.testBit (n - 1 - i)) := by
  induction n generalizing i with
  | zero => simp [reverseBits]
  | succ n ih =>
    unfold reverseBits
    rw [bitsAt_one]
    cases i with
    | zero =>
      rw [Nat.testBit_zero]
      rw [show n + 1 - 1 - 0 = n by omega]
      cases s.testBit n <;> simp
    | succ i =>
      rw [Nat.testBit_succ, show (2 * reverseBits s n + (s.testBit n).toNat) / 2 = reverseBits s n by
        cases s.testBit n <;> simp <;> omega, ih]
      rw [show n + 1 - 1 - (i + 1) = n - 1 - i by omega]
      simp

theorem reverseBits_lt (s n : Nat) : reverseBits s n < 2 ^ n := by
  induction n with
  | zero => simp [reverseBits]
  | succ n ih =>
    unfold reverseBits
    have : bitsAt s n 1 < 2 := Nat.mod_lt _ (by omega)
    rw [Nat.pow_succ]; omega

/-- A part of a reversed bit string. -/
theorem reverse_part {s L off now : Nat} (h : off + now ≤ L) :
    reverseBits s L / 2 ^ off % 2 ^ now = reverseBits (s / 2 ^ (L - off - now)) now := by
  apply Nat.eq_of_testBit_eq
  intro i
  rw [Nat.testBit_mod_two_pow, Nat.testBit_div_two_pow, testBit_reverseBits, testBit_reverseBits,
    Nat.testBit_div_two_pow]
  by_cases hi : i < now
  · simp only [hi, decide_true, Bool.true_and, show i + off < L by omega]
    congr 1; omega
  · simp [hi]

theorem reverse_mod {s m n : Nat} (h : n ≤ m) : reverseBits (s % 2 ^ m) n = reverseBits s n := by
  apply Nat.eq_of_testBit_eq
  intro i
  rw [testBit_reverseBits, testBit_reverseBits, Nat.testBit_mod_two_pow]
  by_cases hi : i < n
  · simp [hi, show n - 1 - i < m by omega]
  · simp [hi]

theorem revTable : ∀ c : Nat, c < 256 → ∃ r, bitReverseTable[c]? = some r ∧ r < 256 ∧
    ∀ i, i < 8 → r.testBit i = c.testBit (7 - i) := by
  have key : ∀ c : Fin 256, (bitReverseTable[c.val]?).isSome ∧
      (bitReverseTable[c.val]?).getD 0 < 256 ∧
      ∀ i : Fin 8, ((bitReverseTable[c.val]?).getD 0).testBit i = c.val.testBit (7 - i) := by
    decide +kernel
  intro c hc
  obtain ⟨h1, h2, h3⟩ := key ⟨c, hc⟩
  obtain ⟨r, hr⟩ := Option.isSome_iff_exists.mp h1
  simp only [hr, Option.getD_some] at h2 h3
  exact ⟨r, hr, h2, fun i hi => h3 ⟨i, hi⟩⟩

/-- One byte of the reversed word. -/
theorem revByte (d k : Nat) (hk : k ≤ 56) (i : Nat) : ∃ r, bitReverseTable[d >>> k &&& 0xff]? = some r ∧
    (r <<< (56 - k)).testBit i = (decide (56 - k ≤ i ∧ i < 64 - k) && d.testBit (63 - i)) := by
  have hlt : d >>> k &&& 0xff < 256 := by rw [and_255]; omega
  obtain ⟨r, e, hr, hb⟩ := revTable _ hlt
  refine ⟨r, e, ?_⟩
  rw [Nat.testBit_shiftLeft]
  by_cases h1 : 56 - k ≤ i
  · by_cases h2 : i < 64 - k
    · rw [hb _ (by omega), and_255, show (256 : Nat) = 2 ^ 8 from rfl, Nat.testBit_mod_two_pow,
        Nat.testBit_shiftRight]
      simp only [h1, h2, show 7 - (i - (56 - k)) < 8 by omega, decide_true, Bool.true_and,
        and_self]
      congr 1; omega
    · have : r.testBit (i - (56 - k)) = false := by
        apply Nat.testBit_lt_two_pow
        exact Nat.lt_of_lt_of_le hr (Nat.pow_le_pow_right (n := 2) (i := 8) (by omega) (by omega))
      rw [this]; simp [h2]
  · simp [h1]

variable [Build]

theorem bitReverseU64_ok {d n : Nat} (h1 : 1 ≤ n) (h2 : n ≤ 64) :
    bitReverseU64 d n = .ok (reverseBits d n) := by
  have ex : ∀ k, k ≤ 56 → ∃ r, bitReverseTable[d >>> k &&& 0xff]? = some r := fun k hk => by
    obtain ⟨r, e, _⟩ := revByte d k hk 0
    exact ⟨r, e⟩
  obtain ⟨r0, e0⟩ := ex 0 (by omega)
  obtain ⟨r1, e1⟩ := ex 8 (by omega)
  obtain ⟨r2, e2⟩ := ex 16 (by omega)
  obtain ⟨r3, e3⟩ := ex 24 (by omega)
  obtain ⟨r4, e4⟩ := ex 32 (by omega)
  obtain ⟨r5, e5⟩ := ex 40 (by omega)
  obtain ⟨r6, e6⟩ := ex 48 (by omega)
  obtain ⟨r7, e7⟩ := ex 56 (by omega)
  have tb : ∀ k r, k ≤ 56 → bitReverseTable[d >>> k &&& 0xff]? = some r → ∀ i,
      (r <<< (56 - k)).testBit i = (decide (56 - k ≤ i ∧ i < 64 - k) && d.testBit (63 - i)) := by
    intro k r hk e i
    obtain ⟨r', e', hb⟩ := revByte d k hk i
    rw [e'] at e
    cases e
    exact hb
  unfold bitReverseU64
  rw [show d &&& 0xff = d >>> 0 &&& 0xff from rfl]
  rw [idx_of_some e0, Out.ok_bind, idx_of_some e1, Out.ok_bind, idx_of_some e2, Out.ok_bind,
    idx_of_some e3, Out.ok_bind, idx_of_some e4, Out.ok_bind, idx_of_some e5, Out.ok_bind,
    idx_of_some e6, Out.ok_bind, idx_of_some e7, Out.ok_bind, subU_ok h2, Out.ok_bind,
    shrU_ok (by omega)]
  congr 1
  apply Nat.eq_of_testBit_eq
  intro i
  rw [Nat.testBit_shiftRight, testBit_reverseBits]
  have t0 := tb 0 r0 (by omega) e0 (64 - n + i)
  have t1 := tb 8 r1 (by omega) e1 (64 - n + i)
  have t2 := tb 16 r2 (by omega) e2 (64 - n + i)
  have t3 := tb 24 r3 (by omega) e3 (64 - n + i)
  have t4 := tb 32 r4 (by omega) e4 (64 - n + i)
  have t5 := tb 40 r5 (by omega) e5 (64 - n + i)
  have t6 := tb 48 r6 (by omega) e6 (64 - n + i)
  have t7 := tb 56 r7 (by omega) e7 (64 - n + i)
  simp only [Nat.sub_self, Nat.shiftLeft_zero] at t7
  simp only [Nat.testBit_or]
  simp only [Nat.reduceSub] at t0 t1 t2 t3 t4 t5 t6 t7
  rw [t0, t1, t2, t3, t4, t5, t6, t7]
  by_cases hi : i < n
  · rw [show 63 - (64 - n + i) = n - 1 - i by omega]
    cases d.testBit (n - 1 - i)
    · simp
    · simp only [Bool.and_true, hi, decide_true, ← Bool.decide_or, decide_eq_true_eq]
      omega
  · simp only [hi, decide_false, Bool.false_and, show ¬ (64 - n + i < 64) by omega,
      show ¬ (64 - n + i < 56) by omega, show ¬ (64 - n + i < 48) by omega,
      show ¬ (64 - n + i < 40) by omega, show ¬ (64 - n + i < 32) by omega,
      show ¬ (64 - n + i < 24) by omega, show ¬ (64 - n + i < 16) by omega,
      show ¬ (64 - n + i < 8) by omega, and_false, Bool.or_self]

theorem bitReverseU8_ok {c b : Nat} (hb : 1 ≤ b) (hb' : b ≤ 8) (hc : c < 2 ^ b) :
    bitReverseU8 c b = .ok (reverseBits c b) := by
  have key : ∀ (ck : Bool) (b : Fin 9) (c : Fin 256), 1 ≤ b.val → c.val < 2 ^ b.val →
      @bitReverseU8 ⟨ck⟩ c b = .ok (reverseBits c b) := by decide +kernel
  have : 2 ^ b ≤ 2 ^ 8 := Nat.pow_le_pow_right (by omega) hb'
  exact key Build.overflowChecks ⟨b, by omega⟩ ⟨c, by omega⟩ hb hc

/-! ## Words of the stream -/

/-- The bit stream of a sequence: `L` bits at `start`, or the top `L` bits of the block backwards. -/
def streamOf (blk : List UInt8) (start L : Nat) (reverse : Bool) : Nat :=
  if reverse then reverseBits (Spec.field blk (128 - L) L) L else Spec.field blk start L

/-- The read position after `off` bits. -/
def posOf (start off : Nat) (reverse : Bool) : Nat := if reverse then 128 - off else start + off

theorem word_ok {buf : List UInt8} (hd : 16 ≤ buf.length) {start L off now : Nat} {reverse : Bool}
    (hL : if reverse then L ≤ 128 else start + L ≤ 128) (h : off + now ≤ L) (h1 : 1 ≤ now)
    (h2 : now ≤ 64) :
    intseqWord buf (posOf start off reverse) now reverse =
      .ok (streamOf (buf.take 16) start L reverse / 2 ^ off % 2 ^ now) := by
  unfold intseqWord streamOf posOf
  cases reverse
  · simp only [Bool.false_eq_true, if_false] at hL ⊢
    rw [getbits64_ok hd (by omega) h2]
    unfold Spec.field
    rw [mod_div_mod h, Nat.div_div_eq_div_mul, ← Nat.pow_add]
  · simp only [if_true] at hL ⊢
    have e : subI 64 ((128 - off : Nat) : Int) (now : Int) = .ok ((128 - off - now : Nat) : Int) := by
      have : InI 64 (((128 - off : Nat) : Int) - (now : Int)) := by unfold InI; omega
      unfold subI
      rw [fitI_ok this]
      congr 1; omega
    rw [e, Out.ok_bind, getbits64_ok hd (by omega) h2, Out.ok_bind, bitReverseU64_ok h1 h2,
      reverse_part h]
    unfold Spec.field
    congr 1
    rw [reverse_mod (Nat.le_refl _)]
    conv => rhs; rw [← reverse_mod (Nat.le_refl now), mod_div_mod (by omega), Nat.div_div_eq_div_mul,
      ← Nat.pow_add, reverse_mod (Nat.le_refl now)]
    congr 3; omega

end Verif.Proofs.Astc
