import Verif.Proofs.Bc6

/-! # BC6H: the block decoder -/

set_option linter.unusedSectionVars false

namespace Verif.Proofs

open Verif Verif.Model

/-- What is needed of a mode. -/
structure Mode6 (m : Nat) (mi : Bc6ModeInfo) (M : Spec.Bc6.Mode) : Prop where
  info : idx bc6ModeInfo m = .ok mi
  spec : Spec.Bc6.mode m = some M
  tr : mi.transformed = M.transformed
  part : (if mi.partition_bits ≠ 0 then 2 else 1) = M.ns
  eb : mi.endpoint_bits = M.eb
  delta : mi.delta_bits = [M.dr, M.dg, M.db]
  eb6 : 6 ≤ M.eb
  eb12 : M.eb ≤ 12
  d1 : ∀ c, c < 3 → 1 ≤ M.delta c
  dle : ∀ c, c < 3 → M.delta c ≤ M.eb
  layout : (bc6Stmts m).map toFld = Spec.Bc6.layout m
  stOk : ∀ st ∈ bc6Stmts m, StOk st
  pair : (bc6Stmts m).Pairwise (fun a b => 4 * a.c + a.k = 4 * b.c + b.k → stMask a &&& stMask b = 0)
  fit : ∀ st ∈ bc6Stmts m, st.n + st.s ≤ if st.k = 0 then M.eb else M.delta st.c
  total : Spec.Bc6.indexPos m M + (16 * M.ib - M.ns) = 128

theorem fld_ext (l1 l2 : List Spec.Bc6.Fld)
    (h : l1.map (fun f => (f.ch, f.ep, f.hi, f.lo)) = l2.map (fun f => (f.ch, f.ep, f.hi, f.lo))) :
    l1 = l2 := by
  have inj : Function.Injective (fun f : Spec.Bc6.Fld => (f.ch, f.ep, f.hi, f.lo)) := by
    rintro ⟨a, b, c, d⟩ ⟨a', b', c', d'⟩ h
    simp only [Prod.mk.injEq] at h
    obtain ⟨rfl, rfl, rfl, rfl⟩ := h
    rfl
  exact (List.map_inj_right (fun x y h => inj h)).mp h

theorem mode6 {m : Nat} (h32 : m < 32) (h15 : m ≠ 15) (hr : Spec.Bc6.mode m ≠ none) :
    ∃ mi M, Mode6 m mi M := by
  have : m = 0 ∨ m = 1 ∨ m = 2 ∨ m = 3 ∨ m = 6 ∨ m = 7 ∨ m = 10 ∨ m = 11 ∨ m = 14 ∨ m = 18 ∨ m = 22 ∨
      m = 26 ∨ m = 30 ∨ Spec.Bc6.mode m = none := by
    have key : ∀ m, m < 32 → m ≠ 15 → m = 0 ∨ m = 1 ∨ m = 2 ∨ m = 3 ∨ m = 6 ∨ m = 7 ∨ m = 10 ∨ m = 11 ∨
        m = 14 ∨ m = 18 ∨ m = 22 ∨ m = 26 ∨ m = 30 ∨ (Spec.Bc6.mode m).isNone = true := by decide
    simpa using key m h32 h15
  rcases this with rfl | rfl | rfl | rfl | rfl | rfl | rfl | rfl | rfl | rfl | rfl | rfl | rfl | h
  all_goals first
    | exact absurd h hr
    | exact ⟨_, _, {
        info := rfl, spec := rfl, tr := rfl, part := rfl, eb := rfl, delta := rfl,
        eb6 := by decide, eb12 := by decide, d1 := by decide, dle := by decide,
        layout := fld_ext _ _ (by decide), stOk := by decide, pair := by decide +kernel,
        fit := by decide, total := by decide }⟩

theorem reserved6 {m : Nat} (h32 : m < 32) (hr : Spec.Bc6.mode m = none) :
    ∃ mi, idx bc6ModeInfo m = .ok mi ∧ mi.endpoint_bits = 0 ∧ 2 ≤ m := by
  have key : ∀ m, m < 32 → (Spec.Bc6.mode m).isNone = true →
      ((match idx bc6ModeInfo m with | .ok mi => mi.endpoint_bits == 0 | .panic => false) && decide (2 ≤ m)) = true := by
    decide
  have := key m h32 (by rw [hr]; rfl)
  cases e : idx bc6ModeInfo m with
  | panic => rw [e] at this; cases this
  | ok mi => rw [e] at this; simp at this; exact ⟨mi, rfl, this.1, this.2⟩

variable [Build]

/-! ## Endpoints -/

theorem list12 {l : List Nat} (h : l.length = 12) : ∃ a0 a1 a2 a3 b0 b1 b2 b3 c0 c1 c2 c3,
    l = [a0, a1, a2, a3, b0, b1, b2, b3, c0, c1, c2, c3] := by
  match l, h with
  | [a0, a1, a2, a3, b0, b1, b2, b3, c0, c1, c2, c3], _ =>
    exact ⟨a0, a1, a2, a3, b0, b1, b2, b3, c0, c1, c2, c3, rfl⟩

theorem mi0 (f : Nat → Out Nat) (a0 a1 a2 a3 b0 b1 b2 b3 c0 c1 c2 c3 : Nat) :
  modIdx [a0, a1, a2, a3, b0, b1, b2, b3, c0, c1, c2, c3] 0 f =
    (f a0 >>= fun v => .ok [v, a1, a2, a3, b0, b1, b2, b3, c0, c1, c2, c3]) := rfl
theorem mi1 (f : Nat → Out Nat) (a0 a1 a2 a3 b0 b1 b2 b3 c0 c1 c2 c3 : Nat) :
  modIdx [a0, a1, a2, a3, b0, b1, b2, b3, c0, c1, c2, c3] 1 f =
    (f a1 >>= fun v => .ok [a0, v, a2, a3, b0, b1, b2, b3, c0, c1, c2, c3]) := rfl
theorem mi2 (f : Nat → Out Nat) (a0 a1 a2 a3 b0 b1 b2 b3 c0 c1 c2 c3 : Nat) :
  modIdx [a0, a1, a2, a3, b0, b1, b2, b3, c0, c1, c2, c3] 2 f =
    (f a2 >>= fun v => .ok [a0, a1, v, a3, b0, b1, b2, b3, c0, c1, c2, c3]) := rfl
theorem mi3 (f : Nat → Out Nat) (a0 a1 a2 a3 b0 b1 b2 b3 c0 c1 c2 c3 : Nat) :
  modIdx [a0, a1, a2, a3, b0, b1, b2, b3, c0, c1, c2, c3] 3 f =
    (f a3 >>= fun v => .ok [a0, a1, a2, v, b0, b1, b2, b3, c0, c1, c2, c3]) := rfl
theorem mi4 (f : Nat → Out Nat) (a0 a1 a2 a3 b0 b1 b2 b3 c0 c1 c2 c3 : Nat) :
  modIdx [a0, a1, a2, a3, b0, b1, b2, b3, c0, c1, c2, c3] 4 f =
    (f b0 >>= fun v => .ok [a0, a1, a2, a3, v, b1, b2, b3, c0, c1, c2, c3]) := rfl
theorem mi5 (f : Nat → Out Nat) (a0 a1 a2 a3 b0 b1 b2 b3 c0 c1 c2 c3 : Nat) :
  modIdx [a0, a1, a2, a3, b0, b1, b2, b3, c0, c1, c2, c3] 5 f =
    (f b1 >>= fun v => .ok [a0, a1, a2, a3, b0, v, b2, b3, c0, c1, c2, c3]) := rfl
theorem mi6 (f : Nat → Out Nat) (a0 a1 a2 a3 b0 b1 b2 b3 c0 c1 c2 c3 : Nat) :
  modIdx [a0, a1, a2, a3, b0, b1, b2, b3, c0, c1, c2, c3] 6 f =
    (f b2 >>= fun v => .ok [a0, a1, a2, a3, b0, b1, v, b3, c0, c1, c2, c3]) := rfl
theorem mi7 (f : Nat → Out Nat) (a0 a1 a2 a3 b0 b1 b2 b3 c0 c1 c2 c3 : Nat) :
  modIdx [a0, a1, a2, a3, b0, b1, b2, b3, c0, c1, c2, c3] 7 f =
    (f b3 >>= fun v => .ok [a0, a1, a2, a3, b0, b1, b2, v, c0, c1, c2, c3]) := rfl
theorem mi8 (f : Nat → Out Nat) (a0 a1 a2 a3 b0 b1 b2 b3 c0 c1 c2 c3 : Nat) :
  modIdx [a0, a1, a2, a3, b0, b1, b2, b3, c0, c1, c2, c3] 8 f =
    (f c0 >>= fun v => .ok [a0, a1, a2, a3, b0, b1, b2, b3, v, c1, c2, c3]) := rfl
theorem mi9 (f : Nat → Out Nat) (a0 a1 a2 a3 b0 b1 b2 b3 c0 c1 c2 c3 : Nat) :
  modIdx [a0, a1, a2, a3, b0, b1, b2, b3, c0, c1, c2, c3] 9 f =
    (f c1 >>= fun v => .ok [a0, a1, a2, a3, b0, b1, b2, b3, c0, v, c2, c3]) := rfl
theorem mi10 (f : Nat → Out Nat) (a0 a1 a2 a3 b0 b1 b2 b3 c0 c1 c2 c3 : Nat) :
  modIdx [a0, a1, a2, a3, b0, b1, b2, b3, c0, c1, c2, c3] 10 f =
    (f c2 >>= fun v => .ok [a0, a1, a2, a3, b0, b1, b2, b3, c0, c1, v, c3]) := rfl
theorem mi11 (f : Nat → Out Nat) (a0 a1 a2 a3 b0 b1 b2 b3 c0 c1 c2 c3 : Nat) :
  modIdx [a0, a1, a2, a3, b0, b1, b2, b3, c0, c1, c2, c3] 11 f =
    (f c3 >>= fun v => .ok [a0, a1, a2, a3, b0, b1, b2, b3, c0, c1, c2, v]) := rfl
theorem ix0 (a0 a1 a2 a3 b0 b1 b2 b3 c0 c1 c2 c3 : Nat) :
  idx [a0, a1, a2, a3, b0, b1, b2, b3, c0, c1, c2, c3] 0 = .ok a0 := rfl
theorem ix4 (a0 a1 a2 a3 b0 b1 b2 b3 c0 c1 c2 c3 : Nat) :
  idx [a0, a1, a2, a3, b0, b1, b2, b3, c0, c1, c2, c3] 4 = .ok b0 := rfl
theorem ix8 (a0 a1 a2 a3 b0 b1 b2 b3 c0 c1 c2 c3 : Nat) :
  idx [a0, a1, a2, a3, b0, b1, b2, b3, c0, c1, c2, c3] 8 = .ok c0 := rfl


/-- The quantised value of endpoint `k` of a channel with stored bits `e`. -/
def qv (signed : Bool) (M : Spec.Bc6.Mode) (c : Nat) (e : Nat → Nat) (k : Nat) : Int :=
  if k = 0 then (if signed then Spec.Bc6.signExt M.eb (e 0) else (e 0))
  else qVal signed M.transformed M.eb (M.delta c) (e 0) (e k)

/-- Its 16-bit pattern. -/
def qp (signed : Bool) (M : Spec.Bc6.Mode) (c : Nat) (e : Nat → Nat) (k : Nat) : Nat :=
  if k = 0 then basePat signed M.eb (e 0)
  else qPat signed M.transformed M.eb (M.delta c) (e 0) (e k)

theorem bc6Endpoints_ok {m : Nat} {mi : Bc6ModeInfo} {M : Spec.Bc6.Mode} (F : Mode6 m mi M)
    (signed : Bool) {ep : List Nat} {e : Nat → Nat → Nat} (hl : ep.length = 12)
    (hE : ∀ c k, c < 3 → k < 4 → ep[4 * c + k]? = some (e c k))
    (hb : ∀ c, c < 3 → e c 0 < 2 ^ M.eb)
    (hv : ∀ c k, c < 3 → k < 4 → k ≠ 0 → e c k < 2 ^ M.delta c) :
    ∃ ep', bc6Endpoints mi signed ep = .ok ep' ∧ ∀ c k, c < 3 → k < 2 * M.ns →
      ep'[4 * c + k]? = some (Spec.Bc6.unquantiseAsIs signed M.eb (qv signed M c (e c) k)) := by
  obtain ⟨a0, a1, a2, a3, b0, b1, b2, b3, c0, c1, c2, c3, rfl⟩ := list12 hl
  have h6 := F.eb6
  have h12 := F.eb12
  have e00 : a0 = e 0 0 := Option.some.inj (hE 0 0 (by omega) (by omega))
  have e01 : a1 = e 0 1 := Option.some.inj (hE 0 1 (by omega) (by omega))
  have e02 : a2 = e 0 2 := Option.some.inj (hE 0 2 (by omega) (by omega))
  have e03 : a3 = e 0 3 := Option.some.inj (hE 0 3 (by omega) (by omega))
  have e10 : b0 = e 1 0 := Option.some.inj (hE 1 0 (by omega) (by omega))
  have e11 : b1 = e 1 1 := Option.some.inj (hE 1 1 (by omega) (by omega))
  have e12 : b2 = e 1 2 := Option.some.inj (hE 1 2 (by omega) (by omega))
  have e13 : b3 = e 1 3 := Option.some.inj (hE 1 3 (by omega) (by omega))
  have e20 : c0 = e 2 0 := Option.some.inj (hE 2 0 (by omega) (by omega))
  have e21 : c1 = e 2 1 := Option.some.inj (hE 2 1 (by omega) (by omega))
  have e22 : c2 = e 2 2 := Option.some.inj (hE 2 2 (by omega) (by omega))
  have e23 : c3 = e 2 3 := Option.some.inj (hE 2 3 (by omega) (by omega))
  subst e00 e01 e02 e03 e10 e11 e12 e13 e20 e21 e22 e23
  have hsb : ∀ c, c < 3 → signExtend (e c 0) M.eb = .ok (sx M.eb (e c 0)) := fun c hc =>
    signExtend_ok (by omega) (by omega) (hb c hc)
  have hsd : ∀ c k, c < 3 → k < 4 → k ≠ 0 →
      signExtend (e c k) (M.delta c) = .ok (sx (M.delta c) (e c k)) := fun c k hc hk hk0 =>
    signExtend_ok (F.d1 c hc) (by have := F.dle c hc; omega) (hv c k hc hk hk0)
  have hst : ∀ x, signExtend (x % 2 ^ 16 % 2 ^ M.eb) M.eb = .ok (sx M.eb (x % 2 ^ 16 % 2 ^ M.eb)) :=
    fun x => signExtend_ok (by omega) (by omega) (Nat.mod_lt _ (Nat.two_pow_pos _))
  have hU : ∀ c k, c < 3 → k < 4 → unquantize (qp signed M c (e c) k) signed M.eb =
      .ok (Spec.Bc6.unquantiseAsIs signed M.eb (qv signed M c (e c) k)) := by
    intro c k hc hk
    refine (unquantize_ok h6 h12 ?_).1
    unfold qp qv
    split
    · exact basePat_ok h6 h12 (hb c hc)
    · next h0 => exact qPat_ok h6 h12 (F.d1 c hc) (F.dle c hc) (hb c hc) (hv c k hc hk h0)
  have hmask : (1 <<< M.eb) % 2 ^ 16 = 2 ^ M.eb := by
    rw [shl_eq, Nat.one_mul]
    exact Nat.mod_eq_of_lt (Nat.pow_lt_pow_right (by omega) (by omega))
  have hsub : subU 16 (2 ^ M.eb) 1 = .ok (2 ^ M.eb - 1) := subU_ok (Nat.two_pow_pos _)
  have hshl : shlU 16 1 M.eb = .ok (2 ^ M.eb) := by rw [shlU_ok (by omega), hmask]
  have d0 : M.delta 0 = M.dr := rfl
  have d1 : M.delta 1 = M.dg := rfl
  have d2 : M.delta 2 = M.db := rfl
  have i0 : ∀ a b c : Nat, idx [a, b, c] 0 = .ok a := fun _ _ _ => rfl
  have i1 : ∀ a b c : Nat, idx [a, b, c] 1 = .ok b := fun _ _ _ => rfl
  have i2 : ∀ a b c : Nat, idx [a, b, c] 2 = .ok c := fun _ _ _ => rfl
  have s01 := hsd 0 1 (by omega) (by omega) (by omega)
  have s02 := hsd 0 2 (by omega) (by omega) (by omega)
  have s03 := hsd 0 3 (by omega) (by omega) (by omega)
  have s11 := hsd 1 1 (by omega) (by omega) (by omega)
  have s12 := hsd 1 2 (by omega) (by omega) (by omega)
  have s13 := hsd 1 3 (by omega) (by omega) (by omega)
  have s21 := hsd 2 1 (by omega) (by omega) (by omega)
  have s22 := hsd 2 2 (by omega) (by omega) (by omega)
  have s23 := hsd 2 3 (by omega) (by omega) (by omega)
  have t0 := hsb 0 (by omega)
  have t1 := hsb 1 (by omega)
  have t2 := hsb 2 (by omega)
  have u00 := hU 0 0 (by omega) (by omega)
  have u01 := hU 0 1 (by omega) (by omega)
  have u02 := hU 0 2 (by omega) (by omega)
  have u03 := hU 0 3 (by omega) (by omega)
  have u10 := hU 1 0 (by omega) (by omega)
  have u11 := hU 1 1 (by omega) (by omega)
  have u12 := hU 1 2 (by omega) (by omega)
  have u13 := hU 1 3 (by omega) (by omega)
  have u20 := hU 2 0 (by omega) (by omega)
  have u21 := hU 2 1 (by omega) (by omega)
  have u22 := hU 2 2 (by omega) (by omega)
  have u23 := hU 2 3 (by omega) (by omega)
  unfold bc6Endpoints
  simp only [F.part]
  have hns : M.ns = 1 ∨ M.ns = 2 := by rw [← F.part]; split <;> omega
  have hfin : ∀ l : List Nat, (∀ c, c < 3 → l[4 * c]? = some (Spec.Bc6.unquantiseAsIs signed M.eb (qv signed M c (e c) 0))
        ∧ l[4 * c + 1]? = some (Spec.Bc6.unquantiseAsIs signed M.eb (qv signed M c (e c) 1)) ∧
        (M.ns = 2 → l[4 * c + 2]? = some (Spec.Bc6.unquantiseAsIs signed M.eb (qv signed M c (e c) 2)) ∧
          l[4 * c + 3]? = some (Spec.Bc6.unquantiseAsIs signed M.eb (qv signed M c (e c) 3)))) →
      ∀ c k, c < 3 → k < 2 * M.ns →
      l[4 * c + k]? = some (Spec.Bc6.unquantiseAsIs signed M.eb (qv signed M c (e c) k)) := by
    intro l h c k hc hk
    obtain ⟨h0, h1, h2⟩ := h c hc
    rcases (by omega : k = 0 ∨ k = 1 ∨ k = 2 ∧ M.ns = 2 ∨ k = 3 ∧ M.ns = 2) with rfl | rfl | ⟨rfl, hn⟩ | ⟨rfl, hn⟩
    · exact h0
    · exact h1
    · exact (h2 hn).1
    · exact (h2 hn).2
  have hpat : (65536 : Nat) = 2 ^ 16 := rfl
  rcases hns with hn | hn
  all_goals
    rw [hn] at hfin ⊢
    cases signed <;> cases htr : M.transformed
  all_goals
    simp only [qp, qPat, basePat, htr, hpat, d0, d1, d2, Bool.or_true, Bool.or_false,
      Bool.false_eq_true, if_false, if_true, Nat.add_one_ne_zero]
      at u00 u01 u02 u03 u10 u11 u12 u13 u20 u21 u22 u23 s01 s02 s03 s11 s12 s13 s21 s22 s23
    simp only [bc6Delta, forRange, F.tr, htr, F.eb, F.delta, Bool.false_eq_true, if_false, if_true,
      Nat.reduceMul, Nat.reduceSub, Nat.reduceAdd, mi0, mi1, mi2, mi3, mi4, mi5, mi6, mi7, mi8, mi9,
      mi10, mi11, i0, i1, i2, ix0, ix4, ix8, Out.ok_bind, Out.pure_eq, s01, s02, s03, s11, s12, s13, s21, s22,
      s23, t0, t1, t2, hst, hshl, hsub, and_mask, asU, u00, u01, u02, u03, u10, u11, u12, u13, u20, u21,
      u22, u23, Bool.or_true, Bool.or_false]
    refine ⟨_, rfl, hfin _ ?_⟩
    intro c hc
    rcases (by omega : c = 0 ∨ c = 1 ∨ c = 2) with rfl | rfl | rfl
    all_goals exact ⟨rfl, rfl, fun h => by first | exact ⟨rfl, rfl⟩ | omega⟩

theorem finish_ok (signed : Bool) {v : Nat} (h : v < 65536) :
    finishUnquantize v signed = .ok (Spec.Bc6.finishAsIs signed v) ∧
      Spec.Bc6.finishAsIs signed v < 65536 := by
  unfold finishUnquantize Spec.Bc6.finishAsIs
  cases signed
  · simp only [Bool.false_eq_true, if_false]
    rw [mulU_ok (by omega), Out.ok_bind, shrU_ok (by omega), Out.ok_bind, Out.pure_eq, asU, shr_eq,
      Nat.mod_eq_of_lt (by simp only [Nat.reducePow]; omega)]
    exact ⟨rfl, by omega⟩
  · simp only [if_true]
    rw [and_7fff, and_8000, mulU_ok (by omega), Out.ok_bind, shrU_ok (by omega), Out.ok_bind, Out.pure_eq,
      asU, shr_eq, Nat.mod_eq_of_lt (by simp only [Nat.reducePow]; omega)]
    have hlt : v % 32768 * 31 / 2 ^ 5 < 2 ^ 15 := by simp only [Nat.reducePow]; omega
    refine ⟨?_, by omega⟩
    have h := or_mul (v / 32768 % 2) hlt
    simp only [Nat.reducePow] at h ⊢
    rw [h]
    have e : v / 32768 % 2 = v / 32768 := by omega
    rw [e]

theorem bc6Channel_ok (signed : Bool) {ep : List Nat} {c s a b w : Nat} (ha : ep[4 * c + s]? = some a)
    (hb : ep[4 * c + (s + 1)]? = some b) (la : a < 65536) (lb : b < 65536) (hw : w ≤ 64) :
    bc6Channel ep c s (64 - w) w signed =
      .ok (Spec.Bc6.finishAsIs signed (Spec.Bptc.interpolate a b w)) ∧
    Spec.Bc6.finishAsIs signed (Spec.Bptc.interpolate a b w) < 65536 := by
  have e1 : a * (64 - w) ≤ 65535 * (64 - w) := Nat.mul_le_mul_right _ (by omega)
  have e2 : b * w ≤ 65535 * w := Nat.mul_le_mul_right _ (by omega)
  have hlt : Spec.Bptc.interpolate a b w < 65536 := by
    unfold Spec.Bptc.interpolate
    generalize a * (64 - w) = x at *
    generalize b * w = y at *
    omega
  obtain ⟨f1, f2⟩ := finish_ok signed hlt
  refine ⟨?_, f2⟩
  rw [← f1]
  unfold bc6Channel Spec.Bptc.interpolate
  rw [idx_of_some ha, Out.ok_bind, mulU_ok (by omega), Out.ok_bind, idx_of_some hb, Out.ok_bind,
    mulU_ok (by omega), Out.ok_bind]
  unfold Spec.Bptc.interpolate at hlt
  generalize a * (64 - w) = x at *
  generalize b * w = y at *
  rw [addU_ok (by omega), Out.ok_bind, addU_ok (by omega), Out.ok_bind, shrU_ok (by omega), Out.ok_bind, asU,
    shr_eq, Nat.mod_eq_of_lt (by simp only [Nat.reducePow]; omega)]

/-- The texel loop with abstract endpoints. -/
theorem bc6_texels {data : List UInt8} (hd : 16 ≤ data.length) {mi : Bc6ModeInfo}
    {M : Spec.Bc6.Mode} (hpart : (if mi.partition_bits ≠ 0 then 2 else 1) = M.ns) (signed : Bool) {p pos : Nat}
    (hp : p < 64)
    (hpos : pos + (16 * M.ib - M.ns) = 128) {factors ep : List Nat}
    (hf : ∀ k, k < 2 ^ M.ib → idx factors k = .ok (Spec.Bptc.weight M.ib k) ∧ Spec.Bptc.weight M.ib k ≤ 64)
    {u : Nat → Nat → Nat} (hu : ∀ c k, c < 3 → k < 2 * M.ns → ep[4 * c + k]? = some (u c k))
    (hlt : ∀ c k, c < 3 → k < 2 * M.ns → u c k < 65536) {buf : List UInt32} (hb : 16 ≤ buf.length) :
    ∃ o, forRange (4 * 4) (fun i st => bc6Texel data mi signed p M.ib factors ep i st) (pos, buf) =
        .ok (128, o) ∧ o.length = buf.length ∧ (∀ i, 16 ≤ i → o[i]? = buf[i]?) ∧
      ∀ i, i < 16 → o[i]? = some (
        let w := Spec.Bptc.weight M.ib (Spec.field (data.take 16)
          (pos + (i * M.ib - Spec.Bptc.anchorsBefore M.ns p i)) (M.ib - (Spec.Bptc.isAnchor M.ns p i).toNat))
        let s := Spec.Bptc.subset M.ns p i
        let ch c := Spec.halfToByte (Spec.Bc6.finishAsIs signed
          (Spec.Bptc.interpolate (u c (2 * s)) (u c (2 * s + 1)) w))
        Spec.px (ch 0) (ch 1) (ch 2) 255) := by
  have hns : M.ns = 1 ∨ M.ns = 2 := by rw [← hpart]; split <;> omega
  have hib : M.ib = 3 ∨ M.ib = 4 := by unfold Spec.Bc6.Mode.ib; split <;> omega
  obtain ⟨o, eo, lo, ho, hr⟩ := pixelLoop (n := 4 * 4)
    (f := fun i st => bc6Texel data mi signed p M.ib factors ep i st)
    (fun i => pos + (i * M.ib - Spec.Bptc.anchorsBefore M.ns p i))
    (fun i _ =>
        let w := Spec.Bptc.weight M.ib (Spec.field (data.take 16)
          (pos + (i * M.ib - Spec.Bptc.anchorsBefore M.ns p i)) (M.ib - (Spec.Bptc.isAnchor M.ns p i).toNat))
        let s := Spec.Bptc.subset M.ns p i
        let ch c := Spec.halfToByte (Spec.Bc6.finishAsIs signed
          (Spec.Bptc.interpolate (u c (2 * s)) (u c (2 * s + 1)) w))
        Spec.px (ch 0) (ch 1) (ch 2) 255) buf (by omega) (by
    intro i hi o q lo hq
    obtain ⟨a, e1, e2, e3⟩ := bc7Subset_ok (ns := M.ns) (p := p) (i := i) (by omega) (by omega) hp (by omega)
    obtain ⟨A1, A2, A3⟩ := anchors_all M.ns (by omega) (by omega) p hp i (by omega)
    obtain ⟨B1, B2, B3⟩ := anchors_all M.ns (by omega) (by omega) p hp (i + 1) (by omega)
    have hsucc := anchorsBefore_succ M.ns p i
    have hanch : (if i = a then 1 else 0) = (Spec.Bptc.isAnchor M.ns p i).toNat := by
      rw [← e2]
      by_cases h : i = a
      · simp [h]
      · rw [if_neg h, show (i == a) = false by simpa using h]; rfl
    have hA1 := Bool.toNat_le (Spec.Bptc.isAnchor M.ns p i)
    have hsub : bc6Subset mi p i = bc7Subset M.ns p i := by
      unfold bc6Subset bc7Subset
      by_cases h0 : mi.partition_bits ≠ 0
      · rw [if_pos h0] at hpart
        rw [if_pos h0, if_pos hpart.symm]
      · rw [if_neg h0] at hpart
        rw [if_neg h0, if_neg (by omega), if_neg (by omega)]
    have hfl : Spec.field (data.take 16) (pos + (i * M.ib - Spec.Bptc.anchorsBefore M.ns p i))
        (M.ib - (Spec.Bptc.isAnchor M.ns p i).toNat) < 2 ^ M.ib :=
      Nat.lt_of_lt_of_le (field_lt _ _ _) (Nat.pow_le_pow_right (by omega) (by omega))
    obtain ⟨g1, g2⟩ := hf _ hfl
    have m0 : (i + 1) * M.ib = i * M.ib + M.ib := by rw [Nat.succ_mul]
    have k00 : i ≤ i * M.ib := Nat.le_mul_of_pos_right _ (by omega)
    have t0 : (i + 1) * M.ib + (16 - (i + 1)) ≤ 16 * M.ib := by
      have := Nat.mul_le_mul_left (16 - (i + 1)) (show 1 ≤ M.ib by omega)
      have e : (i + 1) * M.ib + (16 - (i + 1)) * M.ib = 16 * M.ib := by
        rw [← Nat.add_mul]; congr 1; omega
      omega
    generalize hS : Spec.Bptc.subset M.ns p i = S at *
    have hch : ∀ c, c < 3 → _ := fun c hc => bc6Channel_ok signed (hu c (S * 2) hc (by omega))
      (hu c (S * 2 + 1) hc (by omega)) (hlt c _ hc (by omega)) (hlt c _ hc (by omega)) g2
    obtain ⟨c0, d0⟩ := hch 0 (by omega)
    obtain ⟨c1, d1⟩ := hch 1 (by omega)
    obtain ⟨c2, d2⟩ := hch 2 (by omega)
    unfold bc6Texel
    simp only
    rw [hsub, e1, Out.ok_bind]
    simp only [hanch]
    rw [subU_ok (by omega), Out.ok_bind, readBits16 hd (by omega) (by omega), Out.ok_bind]
    simp only
    rw [g1, Out.ok_bind, subU_ok g2, Out.ok_bind, mulU_ok (by omega), Out.ok_bind, c0, Out.ok_bind, c1,
      Out.ok_bind, c2, Out.ok_bind, f16ToU8_ok d0, Out.ok_bind, f16ToU8_ok d1, Out.ok_bind, f16ToU8_ok d2,
      Out.ok_bind, setIdx_ok (by omega), Out.ok_bind, Out.pure_eq, color_eq, Nat.mul_comm S 2]
    congr 2
    omega)
  refine ⟨o, ?_, lo, fun i hi => hr i (by omega), fun i hi => ?_⟩
  · obtain ⟨B1, B2, B3⟩ := anchors_all M.ns (by omega) (by omega) p hp 16 (by omega)
    have e0 : pos + (0 * M.ib - Spec.Bptc.anchorsBefore M.ns p 0) = pos := by omega
    have e1 : pos + (4 * 4 * M.ib - Spec.Bptc.anchorsBefore M.ns p (4 * 4)) = 128 := by
      simp only [Nat.reduceMul]; omega
    rw [e0, e1] at eo
    exact eo
  · rw [ho i (by omega), List.getElem?_eq_getElem (by omega)]; rfl

theorem bc6Body_ok {data : List UInt8} (hd : 16 ≤ data.length) {m : Nat} {mi : Bc6ModeInfo}
    {M : Spec.Bc6.Mode} (F : Mode6 m mi M) (signed : Bool) {buf : List UInt32} (hb : 16 ≤ buf.length) :
    ∃ o, bc6Body data buf signed m (Spec.Bc6.modeBits m) = .ok o ∧ o.length = buf.length ∧
      (∀ i, 16 ≤ i → o[i]? = buf[i]?) ∧ ∀ i, i < 16 → o[i]? = some (
        let c ch := Spec.halfToByte (Spec.Bc6.channelAsIs signed (data.take 16) m M ch i)
        Spec.px (c 0) (c 1) (c 2) 255) := by
  have hns : M.ns = 1 ∨ M.ns = 2 := by rw [← F.part]; split <;> omega
  have htot := F.total
  have h6 := F.eb6
  have h12 := F.eb12
  have hib : M.ib = 3 ∨ M.ib = 4 := by unfold Spec.Bc6.Mode.ib; split <;> omega
  have hpp : Spec.Bc6.modeBits m + Spec.Bc6.bits ((bc6Stmts m).map toFld) = Spec.Bc6.partitionPos m := by
    rw [F.layout]; rfl
  have hip : Spec.Bc6.indexPos m M = Spec.Bc6.partitionPos m + if M.ns = 2 then 5 else 0 := rfl
  have hle : Spec.Bc6.partitionPos m + (if M.ns = 2 then 5 else 0) ≤ 128 := by omega
  have hle' : Spec.Bc6.partitionPos m ≤ 128 := by omega
  obtain ⟨ep, eR, lR, hR⟩ := bc6Read_ok hd (bc6Stmts m) (Spec.Bc6.modeBits m)
    [0, 0, 0, 0, 0, 0, 0, 0, 0, 0, 0, 0] (fun _ => 0)
    (fun j => if j % 4 = 0 then M.eb else M.delta (j / 4)) rfl
    (by
      intro j hj
      exact (by decide : ∀ j, j < 12 → ([0, 0, 0, 0, 0, 0, 0, 0, 0, 0, 0, 0] : List Nat)[j]? = some 0) j hj)
    F.stOk (fun _ _ => Nat.zero_and _) F.pair (fun _ => Nat.two_pow_pos _)
    (by
      intro st hst
      have := F.fit st hst
      have hk := (F.stOk st hst).k
      simp only [show (4 * st.c + st.k) % 4 = st.k by omega, show (4 * st.c + st.k) / 4 = st.c by omega]
      exact this)
    (by rw [hpp]; exact hle')
  simp only [Nat.zero_add] at hR
  rw [F.layout] at hR
  have hst : ∀ c k, Spec.Bc6.collect (data.take 16) c k (Spec.Bc6.layout m) (Spec.Bc6.modeBits m) =
    Spec.Bc6.stored (data.take 16) m c k := fun _ _ => rfl
  simp only [hst] at hR
  obtain ⟨ep', eE, hE⟩ := bc6Endpoints_ok F signed (e := fun c k => Spec.Bc6.stored (data.take 16) m c k)
    lR (fun c k hc hk => (hR c k hc hk).1)
    (by
      intro c hc
      have := (hR c 0 hc (by omega)).2
      simp only [show (4 * c + 0) % 4 = 0 by omega, if_true] at this
      exact this)
    (by
      intro c k hc hk h0
      have := (hR c k hc hk).2
      simp only [show (4 * c + k) % 4 = k by omega, show (4 * c + k) / 4 = c by omega, h0, if_false] at this
      exact this)
  have hq : ∀ c k, qv signed M c (fun k => Spec.Bc6.stored (data.take 16) m c k) k =
      Spec.Bc6.quantised signed (data.take 16) m M c k := fun _ _ => rfl
  simp only [hq] at hE
  have hlt : ∀ c k, c < 3 → k < 2 * M.ns →
      Spec.Bc6.unquantiseAsIs signed M.eb (Spec.Bc6.quantised signed (data.take 16) m M c k) < 65536 := by
    intro c k hc hk
    have hb0 := (hR c 0 hc (by omega)).2
    simp only [show (4 * c + 0) % 4 = 0 by omega, if_true] at hb0
    rw [← hq]
    unfold qv
    split
    · exact (unquantize_ok h6 h12 (basePat_ok h6 h12 hb0)).2
    · next h0 =>
      have := (hR c k hc (by omega)).2
      simp only [show (4 * c + k) % 4 = k by omega, show (4 * c + k) / 4 = c by omega, h0, if_false] at this
      exact (unquantize_ok h6 h12 (qPat_ok h6 h12 (F.d1 c hc) (F.dle c hc) hb0 this)).2
  have hpart : (if mi.partition_bits ≠ 0 then readBits data (Spec.Bc6.partitionPos m) 5
      else pure (0, Spec.Bc6.partitionPos m)) =
      .ok (Spec.Bc6.partition (data.take 16) m M, Spec.Bc6.indexPos m M) := by
    have hpart := F.part
    unfold Spec.Bc6.partition Spec.Bc6.indexPos
    by_cases h0 : mi.partition_bits ≠ 0
    · rw [if_pos h0] at hpart
      have h2 := hpart.symm
      rw [if_pos h2] at hle
      rw [if_pos h0, if_pos h2, if_pos h2]
      exact readBits16 hd hle (by omega)
    · rw [if_neg h0] at hpart
      have h2 : M.ns ≠ 2 := by omega
      rw [if_neg h0, if_neg h2, if_neg h2]
      rfl
  have hibm : (if mi.partition_bits ≠ 0 then 3 else 4) = M.ib := by
    have hpart := F.part
    unfold Spec.Bc6.Mode.ib
    by_cases h0 : mi.partition_bits ≠ 0
    · rw [if_pos h0] at hpart; rw [if_pos h0, if_pos hpart.symm]
    · rw [if_neg h0] at hpart; rw [if_neg h0, if_neg (by omega)]
  obtain ⟨f0, g0, _⟩ := factor_all M.ib (by omega) (by omega) 0 (Nat.two_pow_pos _)
  have hf0 : ∀ k, k < 2 ^ M.ib → idx f0 k = .ok (Spec.Bptc.weight M.ib k) ∧
      Spec.Bptc.weight M.ib k ≤ 64 := by
    intro k hk
    obtain ⟨f, g1, g2⟩ := factor_all M.ib (by omega) (by omega) k hk
    rw [g0] at g1; injection g1 with g1; subst g1; exact g2
  have hp64 : Spec.Bc6.partition (data.take 16) m M < 64 := by
    unfold Spec.Bc6.partition
    split
    · exact Nat.lt_of_lt_of_le (field_lt _ _ 5) (by omega)
    · omega
  obtain ⟨o, eo, lo, hr, ho⟩ := bc6_texels hd F.part signed (p := Spec.Bc6.partition (data.take 16) m M)
    (pos := Spec.Bc6.indexPos m M) hp64 (by omega) hf0 hE hlt hb
  refine ⟨o, ?_, lo, hr, ho⟩
  unfold bc6Body
  rw [eR, Out.ok_bind]
  simp only
  rw [F.info, Out.ok_bind, eE, Out.ok_bind, hpp, hpart, Out.ok_bind]
  simp only [hibm]
  rw [subU_ok (by omega), Out.ok_bind, g0, Out.ok_bind, forRange_nested 4 4, eo]
  rfl

theorem mode_bits_or {a b : Nat} (ha : a < 4) (hb : b < 8) : a ||| asU 8 (b <<< 2 % 2 ^ 16) = a + 4 * b := by
  have key : ∀ a, a < 4 → ∀ b, b < 8 → a ||| asU 8 (b <<< 2 % 2 ^ 16) = a + 4 * b := by decide
  exact key a ha b hb

/-- The block function, except for mode 15. -/
theorem bc6_block {data : List UInt8} (hd : 16 ≤ data.length) (signed : Bool)
    (h15 : Spec.Bc6.modeOf (data.take 16) ≠ 15) {buf : List UInt32} (hb : 16 ≤ buf.length) :
    ∃ o, decodeBc6Block signed data buf = .ok o ∧ o.length = buf.length ∧
      (∀ i, 16 ≤ i → o[i]? = buf[i]?) ∧
      ∀ i, i < 16 → o[i]? = some (Spec.Bc6.texelAsIs signed (data.take 16) i) := by
  have l2 := field_lt (data.take 16) 0 2
  have l5 := field_lt (data.take 16) 0 5
  have l3 := field_lt (data.take 16) 2 3
  have hsplit : Spec.field (data.take 16) 0 5 =
      Spec.field (data.take 16) 0 2 + 4 * Spec.field (data.take 16) 2 3 := by
    unfold Spec.field; omega
  unfold decodeBc6Block
  rw [readBits16 hd (by omega) (by omega), Out.ok_bind]
  simp only [Nat.zero_add]
  have ha : asU 8 (Spec.field (data.take 16) 0 2) = Spec.field (data.take 16) 0 2 :=
    Nat.mod_eq_of_lt (by omega)
  rw [ha]
  have hand : Spec.field (data.take 16) 0 2 &&& 2 ≠ 0 ↔ ¬ Spec.field (data.take 16) 0 2 < 2 := by
    have key : ∀ x, x < 4 → (x &&& 2 ≠ 0 ↔ ¬ x < 2) := by decide
    exact key _ l2
  unfold Spec.Bc6.texelAsIs
  by_cases hlt : Spec.field (data.take 16) 0 2 < 2
  · rw [if_neg (by rw [hand]; simpa using hlt)]
    have hm : Spec.Bc6.modeOf (data.take 16) = Spec.field (data.take 16) 0 2 := by
      unfold Spec.Bc6.modeOf; rw [if_pos hlt]
    rw [hm]
    generalize Spec.field (data.take 16) 0 2 = m at *
    obtain ⟨mi, M, F⟩ := mode6 (m := m) (by omega) (by omega)
      (by rcases (by omega : m = 0 ∨ m = 1) with rfl | rfl <;> simp [Spec.Bc6.mode])
    have hbits : Spec.Bc6.modeBits m = 2 := by unfold Spec.Bc6.modeBits; rw [if_pos hlt]
    have := bc6Body_ok hd F signed hb
    rw [hbits] at this
    rw [F.spec]
    exact this
  · rw [if_pos (by rw [hand]; exact hlt), readBits16 hd (by omega) (by omega), Out.ok_bind]
    simp only
    rw [shlU_ok (by omega), Out.ok_bind, mode_bits_or l2 l3, ← hsplit]
    have hm : Spec.Bc6.modeOf (data.take 16) = Spec.field (data.take 16) 0 5 := by
      unfold Spec.Bc6.modeOf; rw [if_neg hlt]
    rw [hm] at h15 ⊢
    have h2 : 2 ≤ Spec.field (data.take 16) 0 5 := by omega
    generalize Spec.field (data.take 16) 0 5 = m at *
    cases hmode : Spec.Bc6.mode m with
    | some M =>
      obtain ⟨mi, M', F⟩ := mode6 (m := m) l5 h15 (by rw [hmode]; simp)
      have hM : M' = M := by have := F.spec; rw [hmode] at this; exact (Option.some.inj this).symm
      subst hM
      have hbits : Spec.Bc6.modeBits m = 5 := by unfold Spec.Bc6.modeBits; rw [if_neg (by omega)]
      have := bc6Body_ok hd F signed hb
      rw [hbits] at this
      have h6 := F.eb6
      rw [F.info, Out.ok_bind, if_neg (by rw [F.eb]; omega)]
      exact this
    | none =>
      obtain ⟨mi, e1, e2, _⟩ := reserved6 (m := m) l5 hmode
      rw [e1, Out.ok_bind, if_pos e2]
      refine ⟨buf.take 0 ++ List.replicate (16 - 0) 0 ++ buf.drop 16, ?_, by simp; omega, ?_, ?_⟩
      · unfold fillRange
        rw [if_pos ⟨by omega, hb⟩]
      · intro i hi
        rw [List.getElem?_append_right (by simpa using hi)]
        simp
        congr 1; omega
      · intro i hi
        rw [List.getElem?_append_left (by simpa using hi), List.take_zero, List.nil_append,
          List.getElem?_replicate, if_pos (by omega)]

theorem bc6_contract (signed : Bool) :
    BlockContract (decodeBc6Block signed) (4 * 4) 16 (fun blk => Spec.Bc6.modeOf blk ≠ 15)
      (Spec.Bc6.texelAsIs signed) (fun b => b.length = 16) where
  init := by simp
  step := by
    rintro data buf hd hl hb
    obtain ⟨o, e, l, _, h⟩ := bc6_block hd signed hl (buf := buf) (by omega)
    exact ⟨o, e, by omega, by omega, h⟩

end Verif.Proofs
