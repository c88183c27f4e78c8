import Verif.Proofs.AstcSeq

/-! # `decode_intseq` reads the sequence that the specification describes -/

namespace Verif.Proofs.Astc

open Verif Verif.Model Verif.Proofs
open Verif.Spec.Astc (bitsAt reverseBits Quant seqBits ise packedTrits packedQuints trits quints)

/-! ## The packed trits and quints -/

theorem bitsAt_mod {s m p n : Nat} (h : p + n ≤ m) : bitsAt (s % 2 ^ m) p n = bitsAt s p n :=
  mod_div_mod h

theorem bitsAt_lt (s p n : Nat) : bitsAt s p n < 2 ^ n := Nat.mod_lt _ (Nat.two_pow_pos n)

theorem packedTrits_mod {s b : Nat} : packedTrits (s % 2 ^ (8 + 5 * b)) b = packedTrits s b := by
  unfold packedTrits
  rw [bitsAt_mod (by omega), bitsAt_mod (by omega), bitsAt_mod (by omega), bitsAt_mod (by omega),
    bitsAt_mod (by omega)]

theorem packedQuints_mod {s b : Nat} : packedQuints (s % 2 ^ (7 + 3 * b)) b = packedQuints s b := by
  unfold packedQuints
  rw [bitsAt_mod (by omega), bitsAt_mod (by omega), bitsAt_mod (by omega)]

theorem packedTrits_lt (s b : Nat) : packedTrits s b < 256 := by
  unfold packedTrits
  have h1 := bitsAt_lt s b 2
  have h2 := bitsAt_lt s (2 * b + 2) 2
  have h3 := bitsAt_lt s (3 * b + 4) 1
  have h4 := bitsAt_lt s (4 * b + 5) 2
  have h5 := bitsAt_lt s (5 * b + 7) 1
  omega

theorem packedQuints_lt (s b : Nat) : packedQuints s b < 128 := by
  unfold packedQuints
  have h1 := bitsAt_lt s b 3
  have h2 := bitsAt_lt s (2 * b + 3) 2
  have h3 := bitsAt_lt s (3 * b + 5) 2
  omega

theorem and_part (d k b n : Nat) :
    (d >>> b) &&& ((2 ^ n - 1) * 2 ^ k) = bitsAt d (b + k) n * 2 ^ k := by
  rw [and_mask_shift, shr_eq]
  unfold bitsAt
  rw [Nat.div_div_eq_div_mul, ← Nat.pow_add]

theorem tritsTable_ok : ∀ T : Nat, T < 256 → ∀ j : Nat, j < 5 → ∃ row,
    tritsTable[j]? = some row ∧ row[T]? = some ((trits T).getD j 0) := by
  have key : ∀ j : Fin 5, (tritsTable[j.val]?).isSome ∧ ∀ T : Fin 256,
      ((tritsTable[j.val]?).getD [])[T.val]? = some ((trits T.val).getD j.val 0) := by decide +kernel
  intro T hT j hj
  obtain ⟨h1, h2⟩ := key ⟨j, hj⟩
  obtain ⟨row, hr⟩ := Option.isSome_iff_exists.mp h1
  exact ⟨row, hr, by simpa only [hr, Option.getD_some] using h2 ⟨T, hT⟩⟩

theorem quintsTable_ok : ∀ T : Nat, T < 128 → ∀ j : Nat, j < 3 → ∃ row,
    quintsTable[j]? = some row ∧ row[T]? = some ((quints T).getD j 0) := by
  have key : ∀ j : Fin 3, (quintsTable[j.val]?).isSome ∧ ∀ T : Fin 128,
      ((quintsTable[j.val]?).getD [])[T.val]? = some ((quints T.val).getD j.val 0) := by decide +kernel
  intro T hT j hj
  obtain ⟨h1, h2⟩ := key ⟨j, hj⟩
  obtain ⟨row, hr⟩ := Option.isSome_iff_exists.mp h1
  exact ⟨row, hr, by simpa only [hr, Option.getD_some] using h2 ⟨T, hT⟩⟩

theorem trits_lt {T j : Nat} (hT : T < 256) (hj : j < 5) : (trits T).getD j 0 < 3 := by
  have key : ∀ T : Fin 256, ∀ j : Fin 5, (trits T.val).getD j.val 0 < 3 := by decide +kernel
  exact key ⟨T, hT⟩ ⟨j, hj⟩

theorem quints_lt {T j : Nat} (hT : T < 128) (hj : j < 3) : (quints T).getD j 0 < 5 := by
  have key : ∀ T : Fin 128, ∀ j : Fin 3, (quints T.val).getD j.val 0 < 5 := by decide +kernel
  exact key ⟨T, hT⟩ ⟨j, hj⟩

/-- The trit or quint of every value is below its base, the bits below `2^bits`. -/
theorem ise_lt (q : Quant) (s i : Nat) (hq : q.base = 1 ∨ q.base = 3 ∨ q.base = 5) :
    (ise q s i).1 < 2 ^ q.bits ∧ (ise q s i).2 < q.base := by
  unfold ise
  by_cases h3 : q.base = 3
  · simp only [if_pos h3]
    exact ⟨bitsAt_lt _ _ _, by
      rw [h3]; exact trits_lt (packedTrits_lt _ _) (Nat.mod_lt _ (by omega))⟩
  · by_cases h5 : q.base = 5
    · simp only [if_neg h3, if_pos h5]
      exact ⟨bitsAt_lt _ _ _, by
        rw [h5]; exact quints_lt (packedQuints_lt _ _) (Nat.mod_lt _ (by omega))⟩
    · simp only [if_neg h3, if_neg h5]
      exact ⟨bitsAt_lt _ _ _, by omega⟩

variable [Build]

theorem tritsIndex_ok {d b : Nat} (hb : b ≤ 6) : tritsIndex d b = .ok (packedTrits d b) := by
  unfold tritsIndex
  rw [shrU_ok (by omega), Out.ok_bind, shrU_ok (by omega), Out.ok_bind, shrU_ok (by omega),
    Out.ok_bind, shrU_ok (by omega), Out.ok_bind, shrU_ok (by omega), Out.ok_bind]
  show Out.ok _ = _
  congr 1
  rw [show (3 : Nat) = (2 ^ 2 - 1) * 2 ^ 0 from rfl, and_part,
    show (0xc : Nat) = (2 ^ 2 - 1) * 2 ^ 2 from rfl, and_part,
    show (0x10 : Nat) = (2 ^ 1 - 1) * 2 ^ 4 from rfl, and_part,
    show (0x60 : Nat) = (2 ^ 2 - 1) * 2 ^ 5 from rfl, and_part,
    show (0x80 : Nat) = (2 ^ 1 - 1) * 2 ^ 7 from rfl, and_part]
  unfold packedTrits
  rw [Nat.add_zero, Nat.mul_comm b 2, Nat.mul_comm b 3, Nat.mul_comm b 4, Nat.mul_comm b 5]
  have h1 := bitsAt_lt d b 2
  have h2 := bitsAt_lt d (2 * b + 2) 2
  have h3 := bitsAt_lt d (3 * b + 4) 1
  have h4 := bitsAt_lt d (4 * b + 5) 2
  rw [or_mul (k := 2) _ (by omega), or_mul (k := 4) _ (by omega), or_mul (k := 5) _ (by omega),
    or_mul (k := 7) _ (by omega)]
  omega

theorem quintsIndex_ok {d b : Nat} (hb : b ≤ 6) : quintsIndex d b = .ok (packedQuints d b) := by
  unfold quintsIndex
  rw [shrU_ok (by omega), Out.ok_bind, shrU_ok (by omega), Out.ok_bind, shrU_ok (by omega),
    Out.ok_bind]
  show Out.ok _ = _
  congr 1
  rw [show (7 : Nat) = (2 ^ 3 - 1) * 2 ^ 0 from rfl, and_part,
    show (0x18 : Nat) = (2 ^ 2 - 1) * 2 ^ 3 from rfl, and_part,
    show (0x60 : Nat) = (2 ^ 2 - 1) * 2 ^ 5 from rfl, and_part]
  unfold packedQuints
  rw [Nat.add_zero, Nat.mul_comm b 2, Nat.mul_comm b 3]
  have h1 := bitsAt_lt d b 3
  have h2 := bitsAt_lt d (2 * b + 3) 2
  rw [or_mul (k := 3) _ (by omega), or_mul (k := 5) _ (by omega)]
  omega

/-! ## The loops -/

/-- What the inner loop needs to know about a group word `g`. -/
def GroupOk (per : Nat) (shifts : List Nat) (table : List (List Nat)) (b g x : Nat)
    (val : Nat → IntSeqData) : Prop :=
  ∀ j, j < per → ∃ m row nb, shifts[j]? = some m ∧ table[j]? = some row ∧ row[x]? = some nb ∧
    m + b * j < 64 ∧ (⟨(g >>> (m + b * j)) &&& (2 ^ b - 1), nb⟩ : IntSeqData) = val j

theorem unpack_ok {per : Nat} {shifts : List Nat} {table : List (List Nat)} {b d x count N : Nat}
    {val v : Nat → IntSeqData} (hg : GroupOk per shifts table b d x v)
    (hv : ∀ j, j < per → v j = val (N + j)) {out : List IntSeqData} (hlen : count ≤ out.length)
    (hN : N ≤ count) (hpre : ∀ k, k < N → out[k]? = some (val k)) :
    ∃ out', intseqUnpack per shifts table (2 ^ b - 1) d x b count N out =
        .ok (min (N + per) count, out') ∧ out'.length = out.length ∧
      (∀ k, k < min (N + per) count → out'[k]? = some (val k)) ∧
      ∀ k, count ≤ k → out'[k]? = out[k]? := by
  unfold intseqUnpack
  obtain ⟨s', e, h1, h2, h3, h4⟩ := forRange_inv (n := per) (s := (N, out))
    (f := fun j (s : Nat × List IntSeqData) => do
      let (n, out) := s
      if n < count then do
        let m ← idx shifts j
        let v ← shrU 64 d (m + b * j)
        let row ← idx table j
        let nb ← idx row x
        let out ← setIdx out n ⟨v &&& (2 ^ b - 1), nb⟩
        pure (n + 1, out)
      else pure (n, out))
    (fun j (s : Nat × List IntSeqData) => s.1 = min (N + j) count ∧ s.2.length = out.length ∧
      (∀ k, k < min (N + j) count → s.2[k]? = some (val k)) ∧
      ∀ k, count ≤ k → s.2[k]? = out[k]?)
    ⟨by simp; omega, rfl, fun k hk => hpre k (by omega), fun _ _ => rfl⟩
    (by
      rintro j hj ⟨n, o⟩ ⟨h1, h2, h3, h4⟩
      simp only at h1 h2 h3 h4 ⊢
      by_cases hn : n < count
      · obtain ⟨m, row, nb, e1, e2, e3, e4, e5⟩ := hg j hj
        simp only [if_pos hn]
        rw [idx_of_some e1, Out.ok_bind, shrU_ok e4, Out.ok_bind, idx_of_some e2, Out.ok_bind,
          idx_of_some e3, Out.ok_bind, setIdx_ok (by omega), Out.ok_bind]
        refine ⟨_, rfl, by simp only; omega, by simpa using h2, ?_, ?_⟩
        · intro k hk
          simp only
          rw [List.getElem?_set]
          by_cases hk' : n = k
          · rw [if_pos hk', if_pos (by omega), e5, hv j hj]
            congr 2; omega
          · rw [if_neg hk']
            exact h3 k (by omega)
        · intro k hk
          simp only
          rw [List.getElem?_set, if_neg (by omega)]
          exact h4 k hk
      · simp only [if_neg hn]
        refine ⟨_, rfl, by simp only; omega, h2, ?_, h4⟩
        intro k hk
        exact h3 k (by omega))
  obtain ⟨n', out'⟩ := s'
  simp only at h1 h2 h3 h4
  exact ⟨out', by rw [e, h1], h2, h3, h4⟩

/-- The read position after `off` bits, as the signed number the code keeps. -/
def posI (start off : Nat) (reverse : Bool) : Int :=
  if reverse then 128 - (off : Int) else (start : Int) + off

omit [Build] in
theorem posI_eq {start off : Nat} {reverse : Bool} (h : reverse = true → off ≤ 128) :
    posI start off reverse = ((posOf start off reverse : Nat) : Int) := by
  unfold posI posOf
  cases reverse
  · simp
  · simp only [if_true]; have := h rfl; omega

theorem packed_ok {per extra : Nat} {shifts : List Nat} {table : List (List Nat)}
    {index : Nat → Nat → Out Nat} {b count : Nat} (hper : 0 < per) (he : 1 ≤ extra)
    (hbs : extra + per * b ≤ 64) (hb : b ≤ 8) (hcount : 0 < count)
    (val : Nat → Nat → IntSeqData)
    (hx : ∀ g, ∃ x, index g b = .ok x ∧ GroupOk per shifts table b g x (val g))
    (hval : ∀ g j, j < per → val (g % 2 ^ (extra + per * b)) j = val g j)
    {buf : List UInt8} (hd : 16 ≤ buf.length) {start L : Nat} {reverse : Bool}
    (hL : if reverse then L ≤ 128 else start + L ≤ 128)
    (hLe : ((count + per - 1) / per - 1) * (extra + per * b) +
      ((extra + per * b) * ((count + (per - 1)) % per + 1) + per - 1) / per = L)
    (h1 : 1 ≤ ((extra + per * b) * ((count + (per - 1)) % per + 1) + per - 1) / per)
    (h64 : ((extra + per * b) * ((count + (per - 1)) % per + 1) + per - 1) / per ≤ 64)
    {out : List IntSeqData} (hlen : count ≤ out.length) :
    ∃ out', intseqPacked per extra shifts table index buf (if reverse then 128 else start) b count
        reverse out = .ok out' ∧ out'.length = out.length ∧
      (∀ k, k < count → out'[k]? = some
        (val (streamOf (buf.take 16) start L reverse / 2 ^ (k / per * (extra + per * b))) (k % per))) ∧
      ∀ k, count ≤ k → out'[k]? = out[k]? := by
  unfold intseqPacked
  have hp := Nat.two_pow_pos b
  have hp8 : 2 ^ b ≤ 2 ^ 8 := Nat.pow_le_pow_right (by omega) hb
  have hone : (1 <<< b) % 2 ^ 64 = 2 ^ b := by rw [shl_eq, Nat.one_mul, Nat.mod_eq_of_lt (by omega)]
  rw [shlU_ok (by omega), Out.ok_bind, hone, subU_ok (by omega), Out.ok_bind,
    divCeil_ok (by omega), Out.ok_bind]
  simp only
  rw [divCeil_ok (by omega), Out.ok_bind]
  have hSlt : streamOf (buf.take 16) start L reverse < 2 ^ L := by
    unfold streamOf
    split
    · exact reverseBits_lt _ _
    · exact Nat.mod_lt _ (Nat.two_pow_pos L)
  generalize hS : streamOf (buf.take 16) start L reverse = S at hSlt ⊢
  have hbc : 0 < (count + per - 1) / per := by
    rw [Nat.div_pos_iff]; omega
  have hfit : ((count + per - 1) / per - 1) * per < count ∧
      count ≤ (count + per - 1) / per * per := by
    have h1 := Nat.div_add_mod (count + per - 1) per
    have h2 := Nat.mod_lt (count + per - 1) hper
    have h3 : ((count + per - 1) / per - 1) * per = (count + per - 1) / per * per - per := by
      rw [Nat.sub_mul, Nat.one_mul]
    rw [Nat.mul_comm] at h1
    omega
  generalize hBS : extra + per * b = bs at *
  generalize hlast : (bs * ((count + (per - 1)) % per + 1) + per - 1) / per = last at *
  generalize hBC : (count + per - 1) / per = bc at *
  obtain ⟨s', e, i1, i2, i3, i4, i5⟩ := forRange_inv (n := bc)
    (s := ((0 : Nat), ((if reverse then 128 else start : Nat) : Int), out))
    (f := fun i (s : Nat × Int × List IntSeqData) => do
      let (n, p, out) := s
      let nowSize := if i < bc - 1 then bs else last
      let d ← intseqWord buf p nowSize reverse
      let x ← index d b
      let (n, out) ← intseqUnpack per shifts table (2 ^ b - 1) d x b count n out
      let p ← (if reverse then subI 64 p bs else addI 64 p bs)
      pure (n, p, out))
    (fun i (s : Nat × Int × List IntSeqData) => s.1 = min (i * per) count ∧
      s.2.1 = posI start (i * bs) reverse ∧ s.2.2.length = out.length ∧
      (∀ k, k < min (i * per) count → s.2.2[k]? = some (val (S / 2 ^ (k / per * bs)) (k % per))) ∧
      ∀ k, count ≤ k → s.2.2[k]? = out[k]?)
    ⟨by simp, by unfold posI; cases reverse <;> simp, rfl, by
      intro k hk; simp at hk, fun _ _ => rfl⟩
    (by
      rintro i hi ⟨n, p, o⟩ ⟨j1, j2, j3, j4, j5⟩
      simp only at j1 j2 j3 j4 j5 ⊢
      have hile : i * bs ≤ (bc - 1) * bs := Nat.mul_le_mul_right bs (by omega)
      have hnow : i * bs + (if i < bc - 1 then bs else last) ≤ L := by
        split
        · have : (i + 1) * bs ≤ (bc - 1) * bs := Nat.mul_le_mul_right bs (by omega)
          rw [Nat.succ_mul] at this
          omega
        · omega
      have hnow1 : 1 ≤ (if i < bc - 1 then bs else last) := by split <;> omega
      have hnow2 : (if i < bc - 1 then bs else last) ≤ 64 := by split <;> omega
      have hrev : reverse = true → i * bs ≤ 128 := by
        intro hr
        simp only [hr, if_true] at hL
        omega
      rw [j2, posI_eq hrev, word_ok hd hL hnow hnow1 hnow2, Out.ok_bind, hS]
      generalize hdd : S / 2 ^ (i * bs) % 2 ^ (if i < bc - 1 then bs else last) = d
      obtain ⟨x, ex, hgo⟩ := hx d
      rw [ex, Out.ok_bind]
      have hni : i * per ≤ (bc - 1) * per := Nat.mul_le_mul_right per (by omega)
      have hn : n = i * per := by omega
      have hvd : ∀ j, j < per → val d j = val (S / 2 ^ (i * bs)) j := by
        intro j hj
        rw [← hdd]
        by_cases hlt : i < bc - 1
        · rw [if_pos hlt, hval _ _ hj]
        · rw [if_neg hlt, Nat.mod_eq_of_lt]
          rw [Nat.div_lt_iff_lt_mul (Nat.two_pow_pos _), ← Nat.pow_add]
          refine Nat.lt_of_lt_of_le hSlt (Nat.pow_le_pow_right (by omega) ?_)
          have : i = bc - 1 := by omega
          rw [this]; omega
      obtain ⟨o', eu, u1, u2, u3⟩ := unpack_ok (N := n) (count := count) (out := o)
        (val := fun k => val (S / 2 ^ (k / per * bs)) (k % per)) hgo
        (by
          intro j hj
          rw [hvd j hj, hn]
          rw [Nat.mul_comm i per, Nat.mul_add_div hper, Nat.mul_add_mod, Nat.div_eq_of_lt hj,
            Nat.mod_eq_of_lt hj, Nat.add_zero])
        (by omega) (by omega) (fun k hk => j4 k (by omega))
      rw [eu, Out.ok_bind]
      simp only
      have ep : (if reverse = true then subI 64 ((posOf start (i * bs) reverse : Nat) : Int) (bs : Int)
          else addI 64 ((posOf start (i * bs) reverse : Nat) : Int) (bs : Int)) =
          .ok (posI start ((i + 1) * bs) reverse) := by
        rw [← posI_eq hrev, Nat.succ_mul]
        unfold posI
        cases reverse
        · simp only [Bool.false_eq_true, if_false] at hL ⊢
          have : InI 64 ((start : Int) + (i * bs : Nat) + (bs : Int)) := by unfold InI; omega
          unfold addI
          rw [fitI_ok this]
          congr 1; omega
        · simp only [if_true] at hL ⊢
          have : InI 64 (128 - ((i * bs : Nat) : Int) - (bs : Int)) := by unfold InI; omega
          unfold subI
          rw [fitI_ok this]
          congr 1; omega
      rw [ep, Out.ok_bind]
      have hmin : min (n + per) count = min ((i + 1) * per) count := by rw [hn, Nat.succ_mul]
      rw [hmin] at eu u2 ⊢
      exact ⟨_, rfl, rfl, rfl, by simp only; omega, u2, fun k hk => by simp only; rw [u3 k hk, j5 k hk]⟩)
  obtain ⟨n', p', out'⟩ := s'
  simp only at i1 i2 i3 i4 i5
  rw [e, Out.ok_bind]
  refine ⟨out', rfl, i3, ?_, i5⟩
  intro k hk
  exact i4 k (by omega)

theorem plain_ok {b count : Nat} (hb : 1 ≤ b) (hb8 : b ≤ 8) (hcount : 0 < count)
    {buf : List UInt8} (hd : 16 ≤ buf.length) {start : Nat} {reverse : Bool}
    (hL : if reverse then count * b ≤ 128 else start + count * b ≤ 128)
    {out : List IntSeqData} (hlen : count ≤ out.length) :
    ∃ out', intseqPlain buf (if reverse then 128 else start) b count reverse out = .ok out' ∧
      out'.length = out.length ∧
      (∀ k, k < count → out'[k]? = some
        ⟨bitsAt (streamOf (buf.take 16) start (count * b) reverse) (k * b) b, 0⟩) ∧
      ∀ k, count ≤ k → out'[k]? = out[k]? := by
  unfold intseqPlain
  have hcb : b ≤ count * b := Nat.le_mul_of_pos_left b hcount
  have e0 : (if reverse = true then subI 64 ((if reverse = true then 128 else start : Nat) : Int) (b : Int)
      else pure ((if reverse = true then 128 else start : Nat) : Int)) =
      .ok (if reverse then posI start (0 * b + b) reverse else posI start (0 * b) reverse) := by
    unfold posI
    cases reverse
    · simp
    · simp only [if_true]
      have : InI 64 (((128 : Nat) : Int) - (b : Int)) := by unfold InI; omega
      unfold subI
      rw [fitI_ok this]
      congr 1; simp
  rw [e0, Out.ok_bind]
  generalize hS : streamOf (buf.take 16) start (count * b) reverse = S
  obtain ⟨s', e, i1, i2, i3, i4⟩ := forRange_inv (n := count)
    (s := ((if reverse then posI start (0 * b + b) reverse else posI start (0 * b) reverse : Int), out))
    (f := fun n (s : Int × List IntSeqData) => do
      let (p, out) := s
      let g ← getbits buf (asUI 64 p) b
      let v ← (if reverse then bitReverseU8 (asUI 8 g) (asU 8 b) else pure (asUI 64 g))
      let out ← setIdx out n ⟨v, 0⟩
      let p ← (if reverse then subI 64 p b else addI 64 p b)
      pure (p, out))
    (fun i (s : Int × List IntSeqData) =>
      s.1 = (if reverse then posI start (i * b + b) reverse else posI start (i * b) reverse) ∧
      s.2.length = out.length ∧
      (∀ k, k < i → s.2[k]? = some ⟨bitsAt S (k * b) b, 0⟩) ∧
      ∀ k, count ≤ k → s.2[k]? = out[k]?)
    ⟨rfl, rfl, by intro k hk; omega, fun _ _ => rfl⟩
    (by
      rintro i hi ⟨p, o⟩ ⟨j1, j2, j3, j4⟩
      simp only at j1 j2 j3 j4 ⊢
      have hle : (i + 1) * b ≤ count * b := Nat.mul_le_mul_right b hi
      rw [Nat.succ_mul] at hle
      have hp2 := Nat.two_pow_pos b
      have hp8 : 2 ^ b ≤ 2 ^ 8 := Nat.pow_le_pow_right (by omega) hb8
      have hpos : p = ((if reverse then 128 - (i * b + b) else start + i * b : Nat) : Int) := by
        rw [j1]
        unfold posI
        cases reverse
        · simp
        · simp only [if_true] at hL ⊢; omega
      have hbnd : (if reverse then 128 - (i * b + b) else start + i * b) + b ≤ 128 := by
        cases reverse
        · simp only [Bool.false_eq_true, if_false] at hL ⊢; omega
        · simp only [if_true] at hL ⊢; omega
      rw [hpos]
      have hg := getbits_ok (data := buf) (n := b)
        (pos := if reverse then 128 - (i * b + b) else start + i * b)
        (by omega) (by omega) (by omega) (by omega)
      rw [asUI_nat (by omega), hg, Out.ok_bind]
      have hglt : Spec.leNat buf / 2 ^ (if reverse then 128 - (i * b + b) else start + i * b) % 2 ^ b < 2 ^ b :=
        Nat.mod_lt _ hp2
      have ev : (if reverse = true then bitReverseU8 (asUI 8 ((Spec.leNat buf / 2 ^ (if reverse then 128 - (i * b + b) else start + i * b) % 2 ^ b : Nat) : Int)) (asU 8 b)
          else pure (asUI 64 ((Spec.leNat buf / 2 ^ (if reverse then 128 - (i * b + b) else start + i * b) % 2 ^ b : Nat) : Int))) =
          .ok (bitsAt S (i * b) b) := by
        rw [← hS]
        unfold streamOf bitsAt
        cases reverse
        · simp only [Bool.false_eq_true, if_false] at hL hglt ⊢
          rw [asUI_nat (by omega), field_take (by omega), mod_div_mod hle, Nat.div_div_eq_div_mul,
            ← Nat.pow_add]
          rfl
        · simp only [if_true] at hL hglt ⊢
          rw [asUI_nat (by omega), show asU 8 b = b by unfold asU; omega,
            bitReverseU8_ok hb hb8 (by omega), reverse_part hle, reverse_mod (Nat.le_refl _),
            field_take (by omega), ← reverse_mod (Nat.le_refl b), ← reverse_mod (s := _ / _) (Nat.le_refl b),
            mod_div_mod (by omega), Nat.div_div_eq_div_mul, ← Nat.pow_add]
          congr 5; omega
      rw [ev, Out.ok_bind, setIdx_ok (by omega), Out.ok_bind]
      have ep : (if reverse = true then subI 64 ((if reverse then 128 - (i * b + b) else start + i * b : Nat) : Int) (b : Int)
          else addI 64 ((if reverse then 128 - (i * b + b) else start + i * b : Nat) : Int) (b : Int)) =
          .ok (if reverse then posI start ((i + 1) * b + b) reverse else posI start ((i + 1) * b) reverse) := by
        rw [Nat.succ_mul]
        unfold posI
        cases reverse
        · simp only [Bool.false_eq_true, if_false] at hL ⊢
          have : InI 64 (((start + i * b : Nat) : Int) + (b : Int)) := by unfold InI; omega
          unfold addI
          rw [fitI_ok this]
          congr 1; omega
        · simp only [if_true] at hL ⊢
          have : InI 64 (((128 - (i * b + b) : Nat) : Int) - (b : Int)) := by unfold InI; omega
          unfold subI
          rw [fitI_ok this]
          congr 1; omega
      rw [ep, Out.ok_bind]
      refine ⟨_, rfl, rfl, by simpa using j2, ?_, ?_⟩
      · intro k hk
        simp only
        rw [List.getElem?_set]
        by_cases hk' : i = k
        · rw [if_pos hk', if_pos (by omega), hk']
        · rw [if_neg hk']; exact j3 k (by omega)
      · intro k hk
        simp only
        rw [List.getElem?_set, if_neg (by omega)]
        exact j4 k hk)
  obtain ⟨p', out'⟩ := s'
  simp only at i1 i2 i3 i4
  rw [e, Out.ok_bind]
  exact ⟨out', rfl, i2, i3, i4⟩

omit [Build] in
theorem tritBits {count b : Nat} (hc : 0 < count) :
    ((count + 5 - 1) / 5 - 1) * (8 + 5 * b) +
      ((8 + 5 * b) * ((count + (5 - 1)) % 5 + 1) + 5 - 1) / 5 =
    count * b + (8 * count + 5 - 1) / 5 := by
  obtain ⟨c, l, hl, rfl⟩ : ∃ c l, l < 5 ∧ count = 5 * c + l + 1 :=
    ⟨(count - 1) / 5, (count - 1) % 5, by omega, by omega⟩
  rw [show (5 * c + l + 1 + 5 - 1) / 5 - 1 = c by omega,
    show (5 * c + l + 1 + (5 - 1)) % 5 = l by omega]
  have key : ∀ l, l < 5 → ((8 + 5 * b) * (l + 1) + 5 - 1) / 5 = l * b + b + (8 * (l + 1) + 4) / 5 := by
    intro l hl
    match l, hl with
    | 0, _ => omega
    | 1, _ => omega
    | 2, _ => omega
    | 3, _ => omega
    | 4, _ => omega
  rw [key l hl, Nat.add_mul, Nat.add_mul, Nat.one_mul, Nat.mul_add,
    show c * (5 * b) = 5 * c * b by rw [← Nat.mul_assoc, Nat.mul_comm c 5]]
  generalize 5 * c * b = cb
  generalize l * b = lb
  omega

omit [Build] in
theorem quintBits {count b : Nat} (hc : 0 < count) :
    ((count + 3 - 1) / 3 - 1) * (7 + 3 * b) +
      ((7 + 3 * b) * ((count + (3 - 1)) % 3 + 1) + 3 - 1) / 3 =
    count * b + (7 * count + 3 - 1) / 3 := by
  obtain ⟨c, l, hl, rfl⟩ : ∃ c l, l < 3 ∧ count = 3 * c + l + 1 :=
    ⟨(count - 1) / 3, (count - 1) % 3, by omega, by omega⟩
  rw [show (3 * c + l + 1 + 3 - 1) / 3 - 1 = c by omega,
    show (3 * c + l + 1 + (3 - 1)) % 3 = l by omega]
  have key : ∀ l, l < 3 → ((7 + 3 * b) * (l + 1) + 3 - 1) / 3 = l * b + b + (7 * (l + 1) + 2) / 3 := by
    intro l hl
    match l, hl with
    | 0, _ => omega
    | 1, _ => omega
    | 2, _ => omega
  rw [key l hl, Nat.add_mul, Nat.add_mul, Nat.one_mul, Nat.mul_add,
    show c * (3 * b) = 3 * c * b by rw [← Nat.mul_assoc, Nat.mul_comm c 3]]
  generalize 3 * c * b = cb
  generalize l * b = lb
  omega

omit [Build] in
theorem trits_group {b g : Nat} (hb : b ≤ 6) :
    GroupOk 5 mtTable tritsTable b g (packedTrits g b) (fun j =>
      ⟨bitsAt g (j * b + [0, 2, 4, 5, 7].getD j 0) b, (trits (packedTrits g b)).getD j 0⟩) := by
  intro j hj
  obtain ⟨row, e1, e2⟩ := tritsTable_ok _ (packedTrits_lt g b) j hj
  have e3 : mtTable[j]? = some ([0, 2, 4, 5, 7].getD j 0) ∧ [0, 2, 4, 5, 7].getD j 0 ≤ 7 := by
    have : ∀ j, j < 5 → mtTable[j]? = some ([0, 2, 4, 5, 7].getD j 0) ∧ [0, 2, 4, 5, 7].getD j 0 ≤ 7 := by decide
    exact this j hj
  have hbj : b * j ≤ 6 * 4 := Nat.mul_le_mul hb (by omega)
  refine ⟨_, row, _, e3.1, e1, e2, by omega, ?_⟩
  rw [and_mask, shr_eq, Nat.mul_comm b j, Nat.add_comm _ (j * b)]
  rfl

omit [Build] in
theorem quints_group {b g : Nat} (hb : b ≤ 6) :
    GroupOk 3 mqTable quintsTable b g (packedQuints g b) (fun j =>
      ⟨bitsAt g (j * b + [0, 3, 5].getD j 0) b, (quints (packedQuints g b)).getD j 0⟩) := by
  intro j hj
  obtain ⟨row, e1, e2⟩ := quintsTable_ok _ (packedQuints_lt g b) j hj
  have e3 : mqTable[j]? = some ([0, 3, 5].getD j 0) ∧ [0, 3, 5].getD j 0 ≤ 5 := by
    have : ∀ j, j < 3 → mqTable[j]? = some ([0, 3, 5].getD j 0) ∧ [0, 3, 5].getD j 0 ≤ 5 := by decide
    exact this j hj
  have hbj : b * j ≤ 6 * 2 := Nat.mul_le_mul hb (by omega)
  refine ⟨_, row, _, e3.1, e1, e2, by omega, ?_⟩
  rw [and_mask, shr_eq, Nat.mul_comm b j, Nat.add_comm _ (j * b)]
  rfl

/-- The quantisations that the format has. -/
def QuantOk (q : Quant) : Prop :=
  (q.base = 1 ∧ 1 ≤ q.bits ∧ q.bits ≤ 8) ∨ (q.base = 3 ∧ q.bits ≤ 6) ∨ (q.base = 5 ∧ q.bits ≤ 5)

theorem decodeIntseq_ok {q : Quant} (hq : QuantOk q) {a : Nat}
    (ha : a = if q.base = 1 then 0 else q.base) {buf : List UInt8} (hd : 16 ≤ buf.length)
    {start count : Nat} {reverse : Bool}
    (hL : if reverse then seqBits q count ≤ 128 else start + seqBits q count ≤ 128)
    {out : List IntSeqData} (hlen : count ≤ out.length) :
    ∃ out', decodeIntseq buf (if reverse then 128 else start) a q.bits count reverse out = .ok out' ∧
      out'.length = out.length ∧
      (∀ k, k < count → out'[k]? = some
        ⟨(ise q (streamOf (buf.take 16) start (seqBits q count) reverse) k).1,
          (ise q (streamOf (buf.take 16) start (seqBits q count) reverse) k).2⟩) ∧
      ∀ k, count ≤ k → out'[k]? = out[k]? := by
  unfold decodeIntseq
  by_cases hc : count = 0
  · rw [if_pos hc]
    exact ⟨out, rfl, rfl, by omega, fun _ _ => rfl⟩
  rw [if_neg hc]
  rcases hq with ⟨h, h1, h2⟩ | ⟨h, h1⟩ | ⟨h, h1⟩
  · have e : seqBits q count = count * q.bits := by simp [seqBits, h]
    rw [if_pos h] at ha
    rw [if_neg (show ¬ a = 3 by omega), if_neg (show ¬ a = 5 by omega)]
    rw [e] at hL ⊢
    obtain ⟨o, e1, e2, e3, e4⟩ := plain_ok h1 h2 (by omega) hd hL hlen
    refine ⟨o, e1, e2, ?_, e4⟩
    intro k hk
    rw [e3 k hk]
    simp [ise, h]
  · have e : seqBits q count = count * q.bits + (8 * count + 5 - 1) / 5 := by
      simp [seqBits, h, Spec.ceilDiv]
    rw [if_neg (by omega)] at ha
    rw [if_pos (show a = 3 by omega)]
    have hle : ((count + (5 - 1)) % 5 + 1) ≤ 5 := by omega
    have hm : (8 + 5 * q.bits) * ((count + (5 - 1)) % 5 + 1) ≤ (8 + 5 * q.bits) * 5 :=
      Nat.mul_le_mul_left _ hle
    have hm1 : (8 + 5 * q.bits) * 1 ≤ (8 + 5 * q.bits) * ((count + (5 - 1)) % 5 + 1) :=
      Nat.mul_le_mul_left _ (by omega)
    obtain ⟨o, e1, e2, e3, e4⟩ := packed_ok (per := 5) (extra := 8) (shifts := mtTable)
      (table := tritsTable) (index := tritsIndex) (b := q.bits) (count := count) (by omega) (by omega)
      (by omega) (by omega) (by omega)
      (fun g j => ⟨bitsAt g (j * q.bits + [0, 2, 4, 5, 7].getD j 0) q.bits,
        (trits (packedTrits g q.bits)).getD j 0⟩)
      (fun g => ⟨_, tritsIndex_ok h1, trits_group h1⟩)
      (by
        intro g j hj
        have e3 : ∀ j, j < 5 → [0, 2, 4, 5, 7].getD j 0 ≤ 7 := by decide
        have := e3 j hj
        have hjb : j * q.bits ≤ 4 * q.bits := Nat.mul_le_mul_right _ (by omega)
        rw [packedTrits_mod, bitsAt_mod (by omega)])
      hd hL (by rw [tritBits (by omega), e]) (by omega) (by omega) hlen
    refine ⟨o, e1, e2, ?_, e4⟩
    intro k hk
    rw [e3 k hk]
    simp [ise, h]
  · have e : seqBits q count = count * q.bits + (7 * count + 3 - 1) / 3 := by
      simp [seqBits, h, Spec.ceilDiv]
    rw [if_neg (by omega)] at ha
    rw [if_neg (show ¬ a = 3 by omega), if_pos (show a = 5 by omega)]
    have hle : ((count + (3 - 1)) % 3 + 1) ≤ 3 := by omega
    have hm : (7 + 3 * q.bits) * ((count + (3 - 1)) % 3 + 1) ≤ (7 + 3 * q.bits) * 3 :=
      Nat.mul_le_mul_left _ hle
    have hm1 : (7 + 3 * q.bits) * 1 ≤ (7 + 3 * q.bits) * ((count + (3 - 1)) % 3 + 1) :=
      Nat.mul_le_mul_left _ (by omega)
    obtain ⟨o, e1, e2, e3, e4⟩ := packed_ok (per := 3) (extra := 7) (shifts := mqTable)
      (table := quintsTable) (index := quintsIndex) (b := q.bits) (count := count) (by omega) (by omega)
      (by omega) (by omega) (by omega)
      (fun g j => ⟨bitsAt g (j * q.bits + [0, 3, 5].getD j 0) q.bits,
        (quints (packedQuints g q.bits)).getD j 0⟩)
      (fun g => ⟨_, quintsIndex_ok (by omega), quints_group (by omega)⟩)
      (by
        intro g j hj
        have e3 : ∀ j, j < 3 → [0, 3, 5].getD j 0 ≤ j * 2 + 1 := by decide
        have := e3 j hj
        have hjb : j * q.bits ≤ 2 * q.bits := Nat.mul_le_mul_right _ (by omega)
        rw [packedQuints_mod, bitsAt_mod (by omega)])
      hd hL (by rw [quintBits (by omega), e]) (by omega) (by omega) hlen
    refine ⟨o, e1, e2, ?_, e4⟩
    intro k hk
    rw [e3 k hk]
    simp [ise, h]

end Verif.Proofs.Astc
