import Verif.Proofs.AstcPanic
/-!
Proofs: the weights of every block lie between 0 and 64, whatever the build and however malformed the
block is.
-/
namespace Verif.Proofs.Astc
open Verif Verif.Model Verif.Proofs

theorem setIdx_inv {α : Type} {l l' : List α} {i : Nat} {a : α} (h : setIdx l i a = .ok l') :
    l' = l.set i a := by
  unfold setIdx at h
  by_cases hi : i < l.length
  · rw [if_pos hi] at h; injection h with h; exact h.symm
  · rw [if_neg hi] at h; cases h

theorem idx_inv {α : Type} {l : List α} {i : Nat} {a : α} (h : idx l i = .ok a) : l[i]? = some a := by
  unfold idx at h
  cases e : l[i]? with
  | none => rw [e] at h; cases h
  | some b => rw [e] at h; injection h with h; rw [h]

theorem idx_mem {α : Type} {l : List α} {i : Nat} {a : α} (h : idx l i = .ok a) : a ∈ l :=
  List.mem_of_getElem? (idx_inv h)

theorem set_all {α : Type} {P : α → Prop} {l : List α} (h : ∀ x ∈ l, P x) {a : α} (ha : P a) (i : Nat) :
    ∀ x ∈ l.set i a, P x := by
  intro x hx
  rcases List.mem_or_eq_of_mem_set hx with hx | rfl
  · exact h x hx
  · exact ha

/-- The entries of a sequence with `b` plain bits and trits or quints below `m`. -/
def SeqIn (b m : Nat) (l : List IntSeqData) : Prop := ∀ s ∈ l, s.bits < 2 ^ b ∧ s.nonbits < m

/-- A weight, if there is one, lies between 0 and 64. -/
def okIn : Out Int → Bool
  | .ok w => decide (0 ≤ w ∧ w ≤ 64)
  | .panic => true

variable [Build]

theorem unpack_in {per : Nat} {shifts : List Nat} {table : List (List Nat)} {b m : Nat}
    (ht : ∀ row ∈ table, ∀ x ∈ row, x < m) {d x count n n' : Nat} {out out' : List IntSeqData}
    (ho : SeqIn b m out)
    (h : intseqUnpack per shifts table (2 ^ b - 1) d x b count n out = .ok (n', out')) :
    SeqIn b m out' := by
  unfold intseqUnpack at h
  refine forRange_ok_inv' h (P := fun _ s => SeqIn b m s.2) ho ?_
  rintro i hi ⟨k, o⟩ ⟨k', o'⟩ hP hs
  simp only at hP hs ⊢
  by_cases hk : k < count
  · rw [if_pos hk] at hs
    obtain ⟨_, -, hs⟩ := Out.bind_eq_ok.mp hs
    obtain ⟨v, -, hs⟩ := Out.bind_eq_ok.mp hs
    obtain ⟨row, er, hs⟩ := Out.bind_eq_ok.mp hs
    obtain ⟨nb, en, hs⟩ := Out.bind_eq_ok.mp hs
    obtain ⟨o2, eo, hs⟩ := Out.bind_eq_ok.mp hs
    injection hs with hs
    injection hs with _ hs
    subst hs
    rw [setIdx_inv eo]
    refine set_all hP ⟨?_, ht row (idx_mem er) nb (idx_mem en)⟩ _
    have := Nat.two_pow_pos b
    have := Nat.and_le_right (n := v) (m := 2 ^ b - 1)
    show v &&& (2 ^ b - 1) < 2 ^ b
    omega
  · rw [if_neg hk] at hs
    injection hs with hs
    injection hs with _ hs
    subst hs
    exact hP

theorem packed_in {per extra : Nat} {shifts : List Nat} {table : List (List Nat)}
    {index : Nat → Nat → Out Nat} {b m : Nat} (hb : b < 64)
    (ht : ∀ row ∈ table, ∀ x ∈ row, x < m) {buf : List UInt8} {offset count : Nat} {reverse : Bool}
    {out out' : List IntSeqData} (ho : SeqIn b m out)
    (h : intseqPacked per extra shifts table index buf offset b count reverse out = .ok out') :
    SeqIn b m out' := by
  unfold intseqPacked at h
  have hp : 2 ^ b < 2 ^ 64 := Nat.pow_lt_pow_right (by omega) hb
  have hp0 := Nat.two_pow_pos b
  rw [shlU_ok hb, Out.ok_bind, Nat.one_shiftLeft, Nat.mod_eq_of_lt hp, subU_ok (by omega), Out.ok_bind] at h
  obtain ⟨bc, -, h⟩ := Out.bind_eq_ok.mp h
  simp only at h
  obtain ⟨lb, -, h⟩ := Out.bind_eq_ok.mp h
  obtain ⟨⟨n, p, o⟩, e, h⟩ := Out.bind_eq_ok.mp h
  injection h with h
  subst h
  refine forRange_ok_inv' e (P := fun _ s => SeqIn b m s.2.2) ho ?_
  rintro i hi ⟨k, p, o⟩ ⟨k', p', o'⟩ hP hs
  simp only at hP hs ⊢
  obtain ⟨d, -, hs⟩ := Out.bind_eq_ok.mp hs
  obtain ⟨x, -, hs⟩ := Out.bind_eq_ok.mp hs
  obtain ⟨⟨n2, o2⟩, e2, hs⟩ := Out.bind_eq_ok.mp hs
  simp only at hs
  obtain ⟨p2, -, hs⟩ := Out.bind_eq_ok.mp hs
  injection hs with hs
  injection hs with _ hs
  injection hs with _ hs
  subst hs
  exact unpack_in ht hP e2

theorem reverse_lt {c b r : Nat} (hb : b ≤ 8) (h : bitReverseU8 c b = .ok r) : r < 2 ^ b := by
  unfold bitReverseU8 at h
  obtain ⟨t, et, h⟩ := Out.bind_eq_ok.mp h
  rw [subU_ok hb, Out.ok_bind] at h
  injection h with h
  have ht : t < 256 := by
    have key : ∀ x ∈ bitReverseTable, x < 256 := by decide +kernel
    exact key t (idx_mem et)
  have hp : 2 ^ (8 - b) * 2 ^ b = 256 := by
    rw [← Nat.pow_add, show 8 - b + b = 8 by omega]
  have hp0 := Nat.two_pow_pos b
  subst h
  split
  · rw [Nat.shiftRight_eq_div_pow]
    exact Nat.div_lt_of_lt_mul (by omega)
  · exact hp0

theorem plain_in {b : Nat} (hb : b ≤ 8) {buf : List UInt8} {offset count : Nat}
    {out out' : List IntSeqData} (ho : SeqIn b 1 out)
    (h : intseqPlain buf offset b count true out = .ok out') : SeqIn b 1 out' := by
  unfold intseqPlain at h
  obtain ⟨p, -, h⟩ := Out.bind_eq_ok.mp h
  obtain ⟨⟨p2, o⟩, e, h⟩ := Out.bind_eq_ok.mp h
  injection h with h
  subst h
  refine forRange_ok_inv' e (P := fun _ s => SeqIn b 1 s.2) ho ?_
  rintro i hi ⟨p, o⟩ ⟨p', o'⟩ hP hs
  simp only at hP hs ⊢
  obtain ⟨g, -, hs⟩ := Out.bind_eq_ok.mp hs
  rw [if_pos trivial] at hs
  obtain ⟨v, ev, hs⟩ := Out.bind_eq_ok.mp hs
  obtain ⟨o2, eo, hs⟩ := Out.bind_eq_ok.mp hs
  obtain ⟨p3, -, hs⟩ := Out.bind_eq_ok.mp hs
  injection hs with hs
  injection hs with _ hs
  subst hs
  rw [setIdx_inv eo]
  rw [show asU 8 b = b from Nat.mod_eq_of_lt (by omega)] at ev
  exact set_all hP ⟨reverse_lt hb ev, Nat.one_pos⟩ _

theorem weightValues_in {buf : List UInt8} {q : AstcParams} {wv : List Int}
    (h : weightValues buf q = .ok wv) : ∀ w ∈ wv, 0 ≤ w ∧ w ≤ 64 := by
  unfold weightValues at h
  obtain ⟨a, ea, h⟩ := Out.bind_eq_ok.mp h
  obtain ⟨b, eb, h⟩ := Out.bind_eq_ok.mp h
  obtain ⟨seq, es, h⟩ := Out.bind_eq_ok.mp h
  have ha := idx_inv ea
  have hb := idx_inv eb
  have hr : q.weightRange < 16 := (List.getElem?_eq_some_iff.mp ha).1
  have key : ∀ r : Fin 16, ∃ a b, weightPrecTableA[r.val]? = some a ∧ weightPrecTableB[r.val]? = some b ∧
      (a = 0 ∨ a = 3 ∨ a = 5) ∧ b ≤ 5 ∧
      ∀ x, x < 2 ^ b → ∀ y, y < (if a = 0 then 1 else a) → ∀ ck : Bool,
        okIn (@unquantWeight ⟨ck⟩ a b ⟨x, y⟩) = true := by
    intro r
    have k2 : ∀ r : Fin 16, (weightPrecTableA.getD r.val 0 = 0 ∨ weightPrecTableA.getD r.val 0 = 3 ∨
        weightPrecTableA.getD r.val 0 = 5) ∧ weightPrecTableB.getD r.val 0 ≤ 5 ∧
      ∀ x : Fin 32, x.val < 2 ^ weightPrecTableB.getD r.val 0 → ∀ y : Fin 5,
        y.val < (if weightPrecTableA.getD r.val 0 = 0 then 1 else weightPrecTableA.getD r.val 0) →
        ∀ ck : Bool,
        okIn (@unquantWeight ⟨ck⟩ (weightPrecTableA.getD r.val 0) (weightPrecTableB.getD r.val 0)
            ⟨x.val, y.val⟩) = true := by decide +kernel
    obtain ⟨k3, k4, k5⟩ := k2 r
    refine ⟨_, _, ?_, ?_, k3, k4, ?_⟩
    · exact (by decide : ∀ r : Fin 16, weightPrecTableA[r.val]? = some (weightPrecTableA.getD r.val 0)) r
    · exact (by decide : ∀ r : Fin 16, weightPrecTableB[r.val]? = some (weightPrecTableB.getD r.val 0)) r
    · intro x hx y hy ck
      have hp : 2 ^ weightPrecTableB.getD r.val 0 ≤ 2 ^ 5 := Nat.pow_le_pow_right (by omega) k4
      exact k5 ⟨x, by omega⟩ hx ⟨y, by
        rcases k3 with k | k | k <;> rw [k] at hy <;> simp at hy <;> omega⟩ hy ck
  obtain ⟨a', b', ha', hb', h3, h5, hu⟩ := key ⟨q.weightRange, hr⟩
  rw [ha] at ha'
  rw [hb] at hb'
  injection ha' with ha'
  injection hb' with hb'
  subst ha' hb'
  have hseq : SeqIn b (if a = 0 then 1 else a) seq := by
    have h0 : SeqIn b (if a = 0 then 1 else a) (List.replicate 128 ⟨0, 0⟩) := by
      intro s hs
      rw [(List.mem_replicate.mp hs).2]
      refine ⟨Nat.two_pow_pos b, ?_⟩
      rcases h3 with rfl | rfl | rfl <;> decide
    unfold decodeIntseq at es
    by_cases hc : q.weightNum = 0
    · rw [if_pos hc] at es; injection es with es; subst es; exact h0
    · rw [if_neg hc] at es
      rcases h3 with rfl | rfl | rfl
      · exact plain_in (by omega) h0 es
      · exact packed_in (by omega) (by decide +kernel) h0 es
      · exact packed_in (by omega) (by decide +kernel) h0 es
  refine forRange_ok_inv' h (P := fun _ (s : List Int) => ∀ w ∈ s, 0 ≤ w ∧ w ≤ 64) ?_ ?_
  · intro w hw
    rw [(List.mem_replicate.mp hw).2]
    decide
  · intro i hi o o' hP hs
    obtain ⟨s, e1, hs⟩ := Out.bind_eq_ok.mp hs
    obtain ⟨x, e2, hs⟩ := Out.bind_eq_ok.mp hs
    rw [setIdx_inv hs]
    refine set_all hP ?_ _
    obtain ⟨g1, g2⟩ := hseq s (idx_mem e1)
    have := hu s.bits g1 s.nonbits g2 Build.overflowChecks
    rw [show @unquantWeight ⟨Build.overflowChecks⟩ a b ⟨s.bits, s.nonbits⟩ = .ok x from e2] at this
    exact of_decide_eq_true this

theorem infillWeight_in {wv : List Int} (hw : ∀ w ∈ wv, 0 ≤ w ∧ w ≤ 64) {pn width v p f00 f01 f10 f11 : Nat}
    (hf : f00 + f01 + f10 + f11 = 16) {r : Int}
    (h : infillWeight wv pn width v p f00 f01 f10 f11 = .ok r) : 0 ≤ r ∧ r ≤ 64 := by
  unfold infillWeight at h
  obtain ⟨p00, e00, h⟩ := Out.bind_eq_ok.mp h
  obtain ⟨p01, e01, h⟩ := Out.bind_eq_ok.mp h
  obtain ⟨p10, e10, h⟩ := Out.bind_eq_ok.mp h
  obtain ⟨p11, e11, h⟩ := Out.bind_eq_ok.mp h
  have nat : ∀ x : Int, 0 ≤ x ∧ x ≤ 64 → ∃ n : Nat, x = (n : Int) ∧ n ≤ 64 :=
    fun x hx => ⟨x.toNat, by omega, by omega⟩
  obtain ⟨a, rfl, ha⟩ := nat _ (hw _ (idx_mem e00))
  obtain ⟨b, rfl, hb⟩ := nat _ (hw _ (idx_mem e01))
  obtain ⟨c, rfl, hc⟩ := nat _ (hw _ (idx_mem e10))
  obtain ⟨d, rfl, hd⟩ := nat _ (hw _ (idx_mem e11))
  have hs := infill_sum_le ha hb hc hd hf
  rw [mulI_nat (by omega), Out.ok_bind, mulI_nat (by omega), Out.ok_bind, mulI_nat (by omega), Out.ok_bind,
    mulI_nat (by omega), Out.ok_bind, addI_nat (by omega), Out.ok_bind, addI_nat (by omega), Out.ok_bind,
    addI_nat (by omega), Out.ok_bind, show (8 : Int) = ((8 : Nat) : Int) from rfl,
    addI_nat (by omega), Out.ok_bind, shr32_nat] at h
  injection h with h
  subst h
  omega

theorem infillTexel_in {wv : List Int} (hw : ∀ w ∈ wv, 0 ≤ w ∧ w ≤ 64) {q : AstcParams} {ds dt t s : Nat}
    {st st' : Nat × List (List Int)} (hst : ∀ row ∈ st.2, ∀ w ∈ row, 0 ≤ w ∧ w ≤ 64)
    (h : infillTexel wv q ds dt t s st = .ok st') : ∀ row ∈ st'.2, ∀ w ∈ row, 0 ≤ w ∧ w ≤ 64 := by
  obtain ⟨i, weights⟩ := st
  unfold infillTexel at h
  simp only at h hst
  obtain ⟨_, -, h⟩ := Out.bind_eq_ok.mp h
  obtain ⟨_, -, h⟩ := Out.bind_eq_ok.mp h
  obtain ⟨_, -, h⟩ := Out.bind_eq_ok.mp h
  obtain ⟨_, -, h⟩ := Out.bind_eq_ok.mp h
  obtain ⟨x, -, h⟩ := Out.bind_eq_ok.mp h
  obtain ⟨_, -, h⟩ := Out.bind_eq_ok.mp h
  obtain ⟨_, -, h⟩ := Out.bind_eq_ok.mp h
  obtain ⟨y, -, h⟩ := Out.bind_eq_ok.mp h
  obtain ⟨_, -, h⟩ := Out.bind_eq_ok.mp h
  obtain ⟨v, -, h⟩ := Out.bind_eq_ok.mp h
  have f1 : x >>> 6 &&& 0xf < 16 := Nat.lt_of_le_of_lt Nat.and_le_right (by decide)
  have f2 : y >>> 6 &&& 0xf < 16 := Nat.lt_of_le_of_lt Nat.and_le_right (by decide)
  generalize x >>> 6 &&& 0xf = fs at *
  generalize y >>> 6 &&& 0xf = ft at *
  have hf := infill_factors f1 f2
  rw [shr_eq, show (2 : Nat) ^ 4 = 16 from rfl] at h
  generalize (fs * ft + 8) / 16 = w11 at *
  rw [asI_nat (by omega), subI_nat (by omega) (by omega), Out.ok_bind, subI_nat (by omega) (by omega),
    Out.ok_bind, show (16 : Int) = ((16 : Nat) : Int) from rfl, subI_nat (by omega) (by omega), Out.ok_bind,
    subI32_ok (by omega) (by omega), Out.ok_bind, addI32_ok (by omega) (by omega), Out.ok_bind,
    show ((16 - fs : Nat) : Int) - ((ft : Nat) : Int) + (w11 : Int) =
      ((16 + w11 - fs - ft : Nat) : Int) by omega] at h
  obtain ⟨ws, ew, h⟩ := Out.bind_eq_ok.mp h
  injection h with h
  subst h
  refine forRange_ok_inv' ew (P := fun _ (s : List (List Int)) => ∀ row ∈ s, ∀ w ∈ row, 0 ≤ w ∧ w ≤ 64)
    hst ?_
  intro p hp o o' hP hs
  obtain ⟨r, e1, hs⟩ := Out.bind_eq_ok.mp hs
  obtain ⟨row, e2, hs⟩ := Out.bind_eq_ok.mp hs
  obtain ⟨row', e3, hs⟩ := Out.bind_eq_ok.mp hs
  rw [setIdx_inv hs]
  refine set_all hP ?_ _
  rw [setIdx_inv e3]
  exact set_all (hP row (idx_mem e2)) (infillWeight_in hw (by omega) e1) _

theorem decodeWeights_in {buf : List UInt8} {bw bh : Nat} {q : AstcParams} {ws : List (List Int)}
    (h : decodeWeights buf bw bh q = .ok ws) : ∀ row ∈ ws, ∀ w ∈ row, 0 ≤ w ∧ w ≤ 64 := by
  unfold decodeWeights at h
  obtain ⟨wv, ewv, h⟩ := Out.bind_eq_ok.mp h
  obtain ⟨_, -, h⟩ := Out.bind_eq_ok.mp h
  obtain ⟨_, -, h⟩ := Out.bind_eq_ok.mp h
  obtain ⟨ds, -, h⟩ := Out.bind_eq_ok.mp h
  obtain ⟨_, -, h⟩ := Out.bind_eq_ok.mp h
  obtain ⟨_, -, h⟩ := Out.bind_eq_ok.mp h
  obtain ⟨dt, -, h⟩ := Out.bind_eq_ok.mp h
  obtain ⟨⟨n, w⟩, e, h⟩ := Out.bind_eq_ok.mp h
  injection h with h
  subst h
  have hw := weightValues_in ewv
  refine forRange_ok_inv' e
    (P := fun _ (s : Nat × List (List Int)) => ∀ row ∈ s.2, ∀ w ∈ row, 0 ≤ w ∧ w ≤ 64) ?_ ?_
  · intro row hrow w hw
    rw [(List.mem_replicate.mp hrow).2] at hw
    rcases List.mem_cons.mp hw with rfl | hw
    · decide
    · rw [List.mem_singleton.mp hw]; decide
  · intro t ht s s' hP hs
    refine forRange_ok_inv' hs
      (P := fun _ (s : Nat × List (List Int)) => ∀ row ∈ s.2, ∀ w ∈ row, 0 ≤ w ∧ w ≤ 64) hP ?_
    intro x hx s s' hP hs
    exact infillTexel_in hw hP hs

end Verif.Proofs.Astc
