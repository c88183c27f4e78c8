import Verif.Model.Bc6
import Verif.Spec.Bc6
import Verif.Proofs.F16
import Verif.Proofs.Bc7

/-! # BC6H: endpoints -/

set_option linter.unusedSectionVars false

namespace Verif.Proofs

open Verif Verif.Model

/-! ## Reading the endpoint bits -/

def toFld (st : Bc6Stmt) : Spec.Bc6.Fld := ⟨st.c, st.k, st.s + st.n - 1, st.s⟩

def stMask (st : Bc6Stmt) : Nat := (2 ^ st.n - 1) * 2 ^ st.s

theorem stMask_and (st : Bc6Stmt) {v : Nat} (h : v < 2 ^ st.n) :
    v * 2 ^ st.s &&& stMask st = v * 2 ^ st.s := by
  unfold stMask
  rw [and_mask_shift, Nat.mul_div_cancel _ (Nat.two_pow_pos _), Nat.mod_eq_of_lt h]

theorem and_add_or (x : Nat) : ∀ y, (x &&& y) + (x ||| y) = x + y := by
  induction x using Nat.strongRecOn with
  | _ x ih =>
    intro y
    by_cases hx : x = 0
    · subst hx; simp
    · have h := ih (x / 2) (by omega) (y / 2)
      rw [← Nat.and_div_two, ← Nat.or_div_two] at h
      have h1 : (x &&& y) % 2 + (x ||| y) % 2 = x % 2 + y % 2 := by
        rw [Nat.and_mod_two_pow (n := 1), Nat.or_mod_two_pow (n := 1)]
        rcases Nat.mod_two_eq_zero_or_one x with a | a <;>
          rcases Nat.mod_two_eq_zero_or_one y with b | b <;> simp [a, b]
      omega

theorem or_eq_add_of_and_eq_zero {x y : Nat} (h : x &&& y = 0) : x ||| y = x + y := by
  have h1 := and_add_or x y
  omega

theorem collect_cons (blk : List UInt8) (c k pos : Nat) (f : Spec.Bc6.Fld) (rest : List Spec.Bc6.Fld) :
    Spec.Bc6.collect blk c k (f :: rest) pos =
      (if f.ch = c ∧ f.ep = k then Spec.field blk pos f.width * 2 ^ f.lo else 0) +
        Spec.Bc6.collect blk c k rest (pos + f.width) := rfl

structure StOk (st : Bc6Stmt) : Prop where
  c : st.c < 3
  k : st.k < 4
  n1 : 1 ≤ st.n
  n15 : st.n ≤ 15
  fit : st.n + st.s ≤ 16

instance (st : Bc6Stmt) : Decidable (StOk st) :=
  decidable_of_iff (st.c < 3 ∧ st.k < 4 ∧ 1 ≤ st.n ∧ st.n ≤ 15 ∧ st.n + st.s ≤ 16)
    ⟨fun ⟨a, b, c, d, e⟩ => ⟨a, b, c, d, e⟩, fun ⟨a, b, c, d, e⟩ => ⟨a, b, c, d, e⟩⟩

variable [Build]

theorem bc6Read_ok {data : List UInt8} (hd : 16 ≤ data.length) (stmts : List Bc6Stmt) :
    ∀ (pos : Nat) (ep : List Nat) (E W : Nat → Nat),
    ep.length = 12 → (∀ j, j < 12 → ep[j]? = some (E j)) →
    (∀ st ∈ stmts, StOk st) →
    (∀ st ∈ stmts, E (4 * st.c + st.k) &&& stMask st = 0) →
    stmts.Pairwise (fun a b => 4 * a.c + a.k = 4 * b.c + b.k → stMask a &&& stMask b = 0) →
    (∀ j, E j < 2 ^ W j) → (∀ st ∈ stmts, st.n + st.s ≤ W (4 * st.c + st.k)) →
    pos + Spec.Bc6.bits (stmts.map toFld) ≤ 128 →
    ∃ ep', bc6Read data stmts pos ep = .ok (pos + Spec.Bc6.bits (stmts.map toFld), ep') ∧
      ep'.length = 12 ∧
      (∀ c k, c < 3 → k < 4 → ep'[4 * c + k]? = some (E (4 * c + k) +
        Spec.Bc6.collect (data.take 16) c k (stmts.map toFld) pos) ∧
        E (4 * c + k) + Spec.Bc6.collect (data.take 16) c k (stmts.map toFld) pos <
          2 ^ W (4 * c + k)) := by
  induction stmts with
  | nil =>
    intro pos ep E W hl hE _ _ _ hW _ _
    refine ⟨ep, rfl, hl, ?_⟩
    intro c k hc hk
    exact ⟨hE _ (by omega), hW _⟩
  | cons st rest ih =>
    intro pos ep E W hl hE hok hfree hpair hW hfit hpos
    have hst := hok st (List.mem_cons_self ..)
    have hw : (toFld st).width = st.n := by
      have := hst.n1
      simp only [toFld, Spec.Bc6.Fld.width]; omega
    have hbits : Spec.Bc6.bits ((st :: rest).map toFld) = st.n + Spec.Bc6.bits (rest.map toFld) := by
      simp [Spec.Bc6.bits, hw]
    rw [hbits] at hpos ⊢
    have hn15 := hst.n15
    have hn1 := hst.n1
    have hfit16 := hst.fit
    have hc := hst.c
    have hk := hst.k
    unfold bc6Read
    rw [readBits16 hd (by omega) (by omega), Out.ok_bind]
    simp only
    have hv := field_lt (data.take 16) pos st.n
    generalize hvv : Spec.field (data.take 16) pos st.n = v at hv
    rw [shlU_ok (by omega), Out.ok_bind, shl_eq]
    have hvlt : v * 2 ^ st.s < 2 ^ (st.n + st.s) := by
      rw [Nat.pow_add]; exact (Nat.mul_lt_mul_right (Nat.two_pow_pos _)).mpr hv
    have hv16 : v * 2 ^ st.s < 2 ^ 16 :=
      Nat.lt_of_lt_of_le hvlt (Nat.pow_le_pow_right (by omega) hfit16)
    rw [Nat.mod_eq_of_lt hv16]
    unfold modIdx
    rw [idx_of_some (hE _ (by omega)), Out.ok_bind]
    simp only [Out.pure_eq]
    rw [Out.ok_bind, setIdx_ok (by omega),
      Out.ok_bind]
    have hand : E (4 * st.c + st.k) &&& v * 2 ^ st.s = 0 := by
      rw [← stMask_and st hv, Nat.and_comm (v * 2 ^ st.s), ← Nat.and_assoc,
        hfree st (List.mem_cons_self ..), Nat.zero_and]
    rw [or_eq_add_of_and_eq_zero hand]
    have hadd := or_eq_add_of_and_eq_zero hand
    have hWst := hfit st (List.mem_cons_self ..)
    have hlt : E (4 * st.c + st.k) + v * 2 ^ st.s < 2 ^ W (4 * st.c + st.k) := by
      rw [← hadd]
      exact Nat.or_lt_two_pow (hW _)
        (Nat.lt_of_lt_of_le hvlt (Nat.pow_le_pow_right (by omega) hWst))
    obtain ⟨ep', e1, e2, e3⟩ := ih (pos + st.n) (ep.set (4 * st.c + st.k)
        (E (4 * st.c + st.k) + v * 2 ^ st.s))
      (fun j => if j = 4 * st.c + st.k then E (4 * st.c + st.k) + v * 2 ^ st.s else E j) W
      (by simp [hl])
      (by
        intro j hj
        rw [List.getElem?_set]
        by_cases h : 4 * st.c + st.k = j
        · rw [if_pos h, if_pos (by omega), if_pos h.symm]
        · rw [if_neg h, hE j hj, if_neg (fun h' => h h'.symm)])
      (fun s hs => hok s (List.mem_cons_of_mem _ hs))
      (by
        intro s hs
        by_cases h : 4 * s.c + s.k = 4 * st.c + st.k
        · simp only [if_pos h]
          rw [← hadd, Nat.and_or_distrib_right]
          have h1 := hfree s (List.mem_cons_of_mem _ hs)
          rw [h] at h1
          have h2 := (List.pairwise_cons.mp hpair).1 s hs h.symm
          rw [h1, Nat.zero_or, ← stMask_and st hv, Nat.and_assoc, h2, Nat.and_zero]
        · simp only [if_neg h]
          exact hfree s (List.mem_cons_of_mem _ hs))
      (List.pairwise_cons.mp hpair).2
      (by
        intro j
        by_cases h : j = 4 * st.c + st.k
        · subst h; simp only [if_true]; exact hlt
        · simp only [if_neg h]; exact hW j)
      (fun s hs => hfit s (List.mem_cons_of_mem _ hs))
      (by omega)
    refine ⟨ep', ?_, e2, ?_⟩
    · rw [e1]; simp only [Nat.add_assoc]
    · intro c k hc' hk'
      obtain ⟨e4, e5⟩ := e3 c k hc' hk'
      have hcol : E (4 * c + k) + Spec.Bc6.collect (data.take 16) c k ((st :: rest).map toFld) pos =
          (if 4 * c + k = 4 * st.c + st.k then E (4 * st.c + st.k) + v * 2 ^ st.s
            else E (4 * c + k)) +
          Spec.Bc6.collect (data.take 16) c k (rest.map toFld) (pos + st.n) := by
        rw [List.map_cons]
        rw [collect_cons, hw, hvv]
        show _ + ((if st.c = c ∧ st.k = k then v * 2 ^ st.s else 0) + _) = _
        by_cases h : 4 * c + k = 4 * st.c + st.k
        · have h1 : st.c = c ∧ st.k = k := by omega
          rw [if_pos h1, if_pos h, h]
          rw [Nat.add_assoc]
        · have h1 : ¬ (st.c = c ∧ st.k = k) := by omega
          rw [if_neg h1, if_neg h, Nat.zero_add]
      rw [hcol]
      exact ⟨e4, e5⟩

/-! ## Sign extension and unquantisation -/

omit [Build] in
theorem xor_pow {v k : Nat} (h : v < 2 ^ k) : v ^^^ 2 ^ k = v + 2 ^ k := by
  have h1 : v &&& 2 ^ k = 0 := by
    apply Nat.eq_of_testBit_eq
    intro i
    rw [Nat.testBit_and, Nat.zero_testBit, Nat.testBit_two_pow]
    by_cases hi : k = i
    · subst hi; rw [Nat.testBit_lt_two_pow h]; rfl
    · simp [hi]
  have h2 : v ||| 2 ^ k = v + 2 ^ k := or_eq_add_of_and_eq_zero h1
  rw [← h2]
  apply Nat.eq_of_testBit_eq
  intro i
  have h3 := congrArg (fun x => x.testBit i) h1
  simp only [Nat.testBit_and, Nat.zero_testBit] at h3
  rw [Nat.testBit_xor, Nat.testBit_or]
  revert h3
  cases v.testBit i <;> cases (2 ^ k).testBit i <;> simp

omit [Build] in
theorem xor_pow' {v k : Nat} (h : v < 2 ^ k) : (v + 2 ^ k) ^^^ 2 ^ k = v := by
  rw [← xor_pow h, Nat.xor_assoc, Nat.xor_self, Nat.xor_zero]

/-- The result of `sign_extend`. -/
def sx (n v : Nat) : Nat := if v < 2 ^ (n - 1) then v else v + 65536 - 2 ^ n

theorem signExtend_ok {n v : Nat} (h1 : 1 ≤ n) (h16 : n ≤ 16) (hv : v < 2 ^ n) :
    signExtend v n = .ok (sx n v) := by
  unfold signExtend sx
  obtain ⟨k, rfl⟩ : ∃ k, n = k + 1 := ⟨n - 1, by omega⟩
  rw [subU_ok h1, Out.ok_bind, shlU_ok (by omega), Out.ok_bind, Nat.add_sub_cancel, shl_eq, Nat.one_mul]
  have hk : 2 ^ k ≤ 2 ^ 15 := Nat.pow_le_pow_right (by omega) (by omega)
  have hk1 : 2 ^ (k + 1) = 2 * 2 ^ k := Nat.pow_succ'
  have hm : 2 ^ k % 2 ^ 16 = 2 ^ k := Nat.mod_eq_of_lt (by omega)
  rw [hm]
  have hp := Nat.two_pow_pos k
  show Out.ok _ = _
  congr 1
  by_cases hlt : v < 2 ^ k
  · rw [if_pos hlt, xor_pow hlt]; omega
  · rw [if_neg hlt]
    have : v = (v - 2 ^ k) + 2 ^ k := by omega
    rw [this, xor_pow' (by omega)]
    omega

omit [Build] in
/-- The 16-bit pattern of a sign-extended value. -/
theorem sx_pattern {n v : Nat} (h1 : 1 ≤ n) (h16 : n ≤ 16) (hv : v < 2 ^ n) :
    (sx n v : Int) = Spec.Bc6.signExt n v % 65536 ∧ sx n v < 65536 ∧
    -(2 ^ (n - 1) : Nat) ≤ Spec.Bc6.signExt n v ∧ Spec.Bc6.signExt n v < (2 ^ (n - 1) : Nat) := by
  unfold sx Spec.Bc6.signExt
  rw [Nat.mod_eq_of_lt hv]
  obtain ⟨k, rfl⟩ : ∃ k, n = k + 1 := ⟨n - 1, by omega⟩
  rw [Nat.add_sub_cancel]
  have hk : 2 ^ k ≤ 2 ^ 15 := Nat.pow_le_pow_right (by omega) (by omega)
  have hk1 : 2 ^ (k + 1) = 2 * 2 ^ k := Nat.pow_succ'
  have hk2 : (2 : Int) ^ (k + 1) = ((2 * 2 ^ k : Nat) : Int) := by rw [← hk1]; simp
  rw [hk2]
  split <;> omega

/-- Quantised endpoint as a 16-bit pattern, from the stored bits. -/
def qPat (signed tr : Bool) (eb d base v : Nat) : Nat :=
  let x := if signed || tr then sx d v else v
  let b0 := if signed then sx eb base else base
  if tr then
    let t := (x + b0) % 65536 % 2 ^ eb
    if signed then sx eb t else t
  else x

def basePat (signed : Bool) (eb base : Nat) : Nat := if signed then sx eb base else base

omit [Build] in
theorem signExt_emod {n v : Nat} (h1 : 1 ≤ n) : (Spec.Bc6.signExt n v - v) % (2 ^ n : Nat) = 0 := by
  unfold Spec.Bc6.signExt
  have h2 : (2 : Int) ^ n = ((2 ^ n : Nat) : Int) := by simp
  rw [h2]
  have h3 := Nat.div_add_mod v (2 ^ n)
  generalize 2 ^ n = P at *
  have h4 : ((v % P : Nat) : Int) = v - P * (v / P : Nat) := by
    have : (v : Int) = (P * (v / P) + v % P : Nat) := by rw [h3]
    rw [this]; push_cast; omega
  split
  · rw [h4, show (v : Int) - P * (v / P : Nat) - v = P * (-(v / P : Nat)) by
      rw [Int.mul_neg]; omega]
    exact Int.mul_emod_right _ _
  · rw [h4, show (v : Int) - P * (v / P : Nat) - P - v = P * (-(v / P : Nat) - 1) by
      rw [Int.mul_sub, Int.mul_neg]; omega]
    exact Int.mul_emod_right _ _

/-- Quantised value from the stored bits (non-base endpoint). -/
def qVal (signed tr : Bool) (eb d base v : Nat) : Int :=
  if tr then
    let sum := ((base + Spec.Bc6.signExt d v) % 2 ^ eb).toNat
    if signed then Spec.Bc6.signExt eb sum else sum
  else if signed then Spec.Bc6.signExt d v else v

/-- `p` is the 16-bit pattern of the quantised value `q`. -/
def IsPat (signed : Bool) (eb p : Nat) (q : Int) : Prop :=
  (p : Int) = q % 65536 ∧ p < 65536 ∧
    if signed then -(2 ^ (eb - 1) : Nat) ≤ q ∧ q < (2 ^ (eb - 1) : Nat) else 0 ≤ q ∧ q < (2 ^ eb : Nat)

omit [Build] in
theorem pow_lt_65536 {n : Nat} (h : n ≤ 12) : 2 ^ n ≤ 4096 := Nat.pow_le_pow_right (n := 2) (by omega) h

omit [Build] in
theorem basePat_ok {signed : Bool} {eb base : Nat} (h6 : 6 ≤ eb) (h12 : eb ≤ 12) (hb : base < 2 ^ eb) :
    IsPat signed eb (basePat signed eb base) (if signed then Spec.Bc6.signExt eb base else base) := by
  have h := sx_pattern (n := eb) (v := base) (by omega) (by omega) hb
  have := pow_lt_65536 h12
  cases signed
  · refine ⟨?_, ?_, ?_⟩ <;> simp only [basePat, Bool.false_eq_true, if_false]
    · omega
    · omega
    · exact ⟨by omega, by omega⟩
  · exact ⟨h.1, h.2.1, h.2.2⟩

omit [Build] in
theorem mod_pow_link {eb : Nat} (h12 : eb ≤ 12) {x b0 base : Nat} {S : Int}
    (hx : (x : Int) = S % 65536) (hb : ((b0 : Int) - base) % (2 ^ eb : Nat) = 0) :
    (x + b0) % 65536 % 2 ^ eb = ((base + S) % 2 ^ eb).toNat := by
  have h2 : (2 : Int) ^ eb = ((2 ^ eb : Nat) : Int) := by simp
  rw [h2]
  have : eb = 0 ∨ eb = 1 ∨ eb = 2 ∨ eb = 3 ∨ eb = 4 ∨ eb = 5 ∨ eb = 6 ∨ eb = 7 ∨ eb = 8 ∨ eb = 9 ∨
    eb = 10 ∨ eb = 11 ∨ eb = 12 := by omega
  rcases this with rfl | rfl | rfl | rfl | rfl | rfl | rfl | rfl | rfl | rfl | rfl | rfl | rfl
  all_goals
    simp only [Nat.reducePow, Nat.reduceAdd] at *
    omega

omit [Build] in
theorem qPat_ok {signed tr : Bool} {eb d base v : Nat} (h6 : 6 ≤ eb) (h12 : eb ≤ 12) (hd1 : 1 ≤ d)
    (hde : d ≤ eb) (hb : base < 2 ^ eb) (hv : v < 2 ^ d) :
    IsPat signed eb (qPat signed tr eb d base v) (qVal signed tr eb d base v) := by
  have hpd : 2 ^ d ≤ 2 ^ eb := Nat.pow_le_pow_right (by omega) hde
  have hpd1 : 2 ^ (d - 1) ≤ 2 ^ (eb - 1) := Nat.pow_le_pow_right (by omega) (by omega)
  have h4096 := pow_lt_65536 h12
  obtain ⟨s1, s2, s3, s4⟩ := sx_pattern (n := d) (v := v) hd1 (by omega) hv
  cases tr
  · cases signed
    · refine ⟨?_, ?_, ?_⟩ <;> simp only [qPat, qVal, Bool.or_false, Bool.false_eq_true, if_false]
      · omega
      · omega
      · exact ⟨by omega, by omega⟩
    · exact ⟨s1, s2, by simp only [qVal, Bool.false_eq_true, if_false, if_true]; omega,
        by simp only [qVal, Bool.false_eq_true, if_false, if_true]; omega⟩
  · have key : ∀ b0 : Nat, ((b0 : Int) - base) % (2 ^ eb : Nat) = 0 →
        (sx d v + b0) % 65536 % 2 ^ eb = ((base + Spec.Bc6.signExt d v) % 2 ^ eb).toNat :=
      fun b0 h => mod_pow_link h12 s1 h
    have hpos := Nat.two_pow_pos eb
    cases signed
    · unfold IsPat qPat qVal
      simp only [Bool.false_or, if_true, Bool.false_eq_true, if_false]
      rw [key base (by simp)]
      rw [← key base (by simp)]
      have := Nat.mod_lt ((sx d v + base) % 65536) hpos
      exact ⟨by omega, by omega, by omega, by omega⟩
    · unfold IsPat qPat qVal
      simp only [Bool.true_or, if_true]
      have hb0 : (((sx eb base : Nat) : Int) - base) % (2 ^ eb : Nat) = 0 := by
        unfold sx
        split
        · simp
        · have : 2 ^ eb * 2 ^ (16 - eb) = 65536 := by
            rw [← Nat.pow_add, show eb + (16 - eb) = 16 by omega]
          have h3 : ((base + 65536 - 2 ^ eb : Nat) : Int) - base = ((2 ^ eb : Nat) : Int) *
              ((2 ^ (16 - eb) : Nat) - 1) := by
            rw [Int.mul_sub, ← Int.natCast_mul, this]; omega
          rw [h3]; exact Int.mul_emod_right _ _
      rw [key _ hb0]
      have hlt : ((base + Spec.Bc6.signExt d v) % 2 ^ eb).toNat < 2 ^ eb := by
        rw [← key _ hb0]; exact Nat.mod_lt _ hpos
      obtain ⟨t1, t2, t3, t4⟩ := sx_pattern (n := eb) (by omega) (by omega) hlt
      exact ⟨t1, t2, t3, t4⟩

theorem and_8000 (x : Nat) : x &&& 0x8000 = x / 32768 % 2 * 32768 := and_mask_shift x 1 15
theorem and_7fff (x : Nat) : x &&& 0x7fff = x % 32768 := and_mask x 15

theorem unquantize_ok {signed : Bool} {eb p : Nat} {q : Int} (h6 : 6 ≤ eb) (h12 : eb ≤ 12)
    (hp : IsPat signed eb p q) :
    unquantize p signed eb = .ok (Spec.Bc6.unquantiseAsIs signed eb q) ∧
      Spec.Bc6.unquantiseAsIs signed eb q < 65536 := by
  obtain ⟨h1, h2, h3⟩ := hp
  unfold unquantize Spec.Bc6.unquantiseAsIs Spec.Bc6.unquantise
  rw [subU_ok (by omega), Out.ok_bind, shlU_ok (by omega), Out.ok_bind, and_8000, and_7fff]
  have : eb = 6 ∨ eb = 7 ∨ eb = 8 ∨ eb = 9 ∨ eb = 10 ∨ eb = 11 ∨ eb = 12 := by omega
  cases signed
  · simp only [Bool.false_eq_true, if_false] at h3 ⊢
    rw [if_neg (show ¬ eb ≥ 15 by omega)]
    have hq : q = p := by
      have := pow_lt_65536 h12
      omega
    subst hq
    have hsh : ∀ k, k < 16 → 1 <<< k % 2 ^ 16 = 2 ^ k := by
      intro k hk
      rw [shl_eq, Nat.one_mul]
      exact Nat.mod_eq_of_lt (Nat.pow_lt_pow_right (by omega) hk)
    rw [hsh _ (by omega)]
    have hpw : ((2 : Int) ^ (eb - 1)) = ((2 ^ (eb - 1) : Nat) : Int) := by simp
    rw [hpw]
    by_cases hz : p = 0
    · rw [if_pos hz, if_pos (show (p : Int) = 0 by omega)]; exact ⟨rfl, by omega⟩
    · rw [if_neg hz, if_neg (show ¬ (p : Int) = 0 by omega)]
      by_cases hm : p = 2 ^ (eb - 1)
      · rw [if_pos hm, if_pos (show (p : Int) = ((2 ^ (eb - 1) : Nat) : Int) by omega)]; exact ⟨rfl, by omega⟩
      · rw [if_neg hm, if_neg (show ¬ (p : Int) = ((2 ^ (eb - 1) : Nat) : Int) by omega), shlU_ok (by omega), Out.ok_bind, shl_eq,
          Nat.mod_eq_of_lt (by omega), addU_ok (by omega), Out.ok_bind, Out.ok_bind, shrU_ok (by omega),
          Out.ok_bind, shr_eq]
        show Out.ok _ = _ ∧ _
        unfold asU
        rcases this with rfl | rfl | rfl | rfl | rfl | rfl | rfl
        all_goals
          simp only [Nat.reducePow, Nat.reduceSub, Int.reducePow, Out.ok.injEq] at *
          omega
  · simp only [if_true] at h3 ⊢
    have hsh : ∀ k, k < 16 → 1 <<< k % 2 ^ 16 = 2 ^ k := by
      intro k hk
      rw [shl_eq, Nat.one_mul]
      exact Nat.mod_eq_of_lt (Nat.pow_lt_pow_right (by omega) hk)
    have hp4096 := pow_lt_65536 h12
    have hpe : 2 ^ (eb - 1) ≤ 2048 :=
      Nat.pow_le_pow_right (n := 2) (j := 11) (by omega) (by omega)
    have hpe2 : 32 ≤ 2 ^ (eb - 1) :=
      Nat.pow_le_pow_right (n := 2) (j := eb - 1) (show 0 < 2 by omega) (show 5 ≤ eb - 1 by omega)
    rw [if_neg (show ¬ eb ≥ 16 by omega), hsh _ (by omega)]
    by_cases hneg : q < 0
    · have h4 : p % 32768 = (q + 32768).toNat := by omega
      rw [if_pos hneg, if_neg (show ¬ p % 32768 = 0 by omega), subU_ok (by omega), Out.ok_bind,
        if_pos (show p % 32768 ≥ 2 ^ (eb - 1) - 1 by omega)]
      simp only [Out.pure_eq, Out.ok_bind]
      rw [if_pos (show p / 32768 % 2 * 32768 ≠ 0 by omega), subU_ok (by omega), Out.ok_bind, addU_ok (by omega)]
      exact ⟨rfl, by omega⟩
    · have h4 : p % 32768 = p := by omega
      have hq : q = p := by omega
      subst hq
      rw [if_neg hneg, h4]
      by_cases hz : p = 0
      · subst hz
        simp
      · rw [if_neg hz, subU_ok (by omega), Out.ok_bind]
        simp only [Int.natAbs_natCast]
        by_cases hm : p ≥ 2 ^ (eb - 1) - 1
        · rw [if_pos hm]
          simp only [Out.pure_eq, Out.ok_bind]
          rw [if_neg (show ¬ p / 32768 % 2 * 32768 ≠ 0 by omega), if_neg (show ¬ eb ≥ 16 by omega),
            if_neg (show ¬ (p : Int) = 0 by omega), if_pos hm, if_neg hneg]
          exact ⟨rfl, by decide⟩
        · rw [if_neg hm, shlU_ok (by omega), Out.ok_bind, shl_eq,
            Nat.mod_eq_of_lt (by omega), addU_ok (by omega), Out.ok_bind, Out.ok_bind,
            shrU_ok (by omega), Out.ok_bind, shr_eq]
          simp only [Out.pure_eq, Out.ok_bind]
          rw [if_neg (show ¬ p / 32768 % 2 * 32768 ≠ 0 by omega), if_neg (show ¬ eb ≥ 16 by omega),
            if_neg (show ¬ (p : Int) = 0 by omega), if_neg hm, if_neg hneg, Int.toNat_natCast]
          unfold asU
          have hlt : (p * 2 ^ 15 + 0x4000) / 2 ^ (eb - 1) < 65536 := by
            rw [Nat.div_lt_iff_lt_mul (Nat.two_pow_pos _)]; omega
          exact ⟨by rw [Nat.mod_eq_of_lt hlt], hlt⟩

end Verif.Proofs
