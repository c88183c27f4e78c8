import Verif.Model.Bc7
import Verif.Spec.Bc7
import Verif.Proofs.BitReader
import Verif.Proofs.Loops

/-! # BC7 refines its specification -/

set_option linter.unusedSectionVars false

namespace Verif.Proofs

open Verif Verif.Model

/-! ## Tables -/

/-- Every `Build` is one of two. -/
theorem forall_build {P : Build → Prop} (h : ∀ b : Bool, P ⟨b⟩) : ∀ B : Build, P B :=
  fun ⟨b⟩ => h b

/-- The subset and anchor computation agrees with the partition tables, in both builds. -/
def SubsetOk (b : Bool) (ns p i : Nat) : Prop :=
  ∃ a, @bc7Subset ⟨b⟩ ns p i = .ok (Spec.Bptc.subset ns p i, a) ∧
      (i == a) = Spec.Bptc.isAnchor ns p i ∧ Spec.Bptc.subset ns p i < ns

def subsetCheck (b : Bool) (ns p i : Nat) : Bool :=
  match @bc7Subset ⟨b⟩ ns p i with
  | .ok (s, a) => s == Spec.Bptc.subset ns p i && (i == a) == Spec.Bptc.isAnchor ns p i && decide (s < ns)
  | .panic => false

theorem subsetCheck_ok {b : Bool} {ns p i : Nat} (h : subsetCheck b ns p i = true) :
    SubsetOk b ns p i := by
  unfold subsetCheck at h
  unfold SubsetOk
  cases e : @bc7Subset ⟨b⟩ ns p i with
  | panic => rw [e] at h; cases h
  | ok r =>
    obtain ⟨s, a⟩ := r
    rw [e] at h
    simp only [Bool.and_eq_true, beq_iff_eq, decide_eq_true_eq] at h
    obtain ⟨⟨h1, h2⟩, h3⟩ := h
    exact ⟨a, by rw [h1], h2, by rw [← h1]; exact h3⟩

theorem subsetCheck_all : ∀ b : Bool, ∀ ns, ns < 4 → ns ≠ 0 → ∀ p, p < 64 → ∀ i, i < 16 →
    subsetCheck b ns p i = true := by
  decide +kernel

theorem anchors_all : ∀ ns, ns < 4 → ns ≠ 0 → ∀ p, p < 64 → ∀ i, i < 17 →
    Spec.Bptc.anchorsBefore ns p i ≤ i ∧ ns ≤ Spec.Bptc.anchorsBefore ns p i + (16 - i) ∧
      Spec.Bptc.anchorsBefore ns p i ≤ ns := by
  decide +kernel

theorem anchorsBefore_succ (ns p i : Nat) :
    Spec.Bptc.anchorsBefore ns p (i + 1) =
      Spec.Bptc.anchorsBefore ns p i + (Spec.Bptc.isAnchor ns p i).toNat := by
  unfold Spec.Bptc.anchorsBefore
  rw [List.range_succ, List.countP_append]
  cases h : Spec.Bptc.isAnchor ns p i <;> simp [h]

theorem factor_all : ∀ ib, ib < 5 → 2 ≤ ib → ∀ k, k < 2 ^ ib →
    ∃ row, idx bptcFactors (ib - 2) = .ok row ∧ idx row k = .ok (Spec.Bptc.weight ib k) ∧
      Spec.Bptc.weight ib k ≤ 64 := by
  intro ib h1 h2
  have : ib = 2 ∨ ib = 3 ∨ ib = 4 := by omega
  rcases this with rfl | rfl | rfl
  all_goals
    intro k hk
    refine ⟨_, rfl, ?_⟩
    revert k
    decide +kernel

variable [Build]

theorem bc7Subset_ok {ns p i : Nat} (hns : ns < 4) (h0 : ns ≠ 0) (hp : p < 64) (hi : i < 16) :
    ∃ a, bc7Subset ns p i = .ok (Spec.Bptc.subset ns p i, a) ∧
      (i == a) = Spec.Bptc.isAnchor ns p i ∧ Spec.Bptc.subset ns p i < ns := by
  rename_i B
  obtain ⟨b⟩ := B
  exact subsetCheck_ok (subsetCheck_all b ns hns h0 p hp i hi)

/-! ## Mode -/

theorem bc7Mode_from {data : List UInt8} (hd : 16 ≤ data.length) (d m : Nat) (h : m + d = 8) :
    bc7Mode data (d + 1) m m =
      match (List.range' m d).find? (fun k => Spec.field (data.take 16) k 1 == 1) with
      | some k => .ok (k, k + 1)
      | none => .ok (8, 9) := by
  induction d generalizing m with
  | zero =>
    have : m = 8 := by omega
    subst this
    unfold bc7Mode
    rw [readBits16 hd (by omega) (by omega)]
    simp
  | succ d ih =>
    unfold bc7Mode
    rw [readBits16 hd (by omega) (by omega), Out.ok_bind]
    simp only [List.range'_succ, List.find?_cons]
    have := field_lt (data.take 16) m 1
    rcases (by omega : Spec.field (data.take 16) m 1 = 0 ∨ Spec.field (data.take 16) m 1 = 1) with e | e
    · rw [e, if_pos ⟨rfl, by omega⟩, ih (m + 1) (by omega)]
      rfl
    · rw [e, if_neg (by omega)]
      rfl

/-- The facts about a mode that the decoder relies on. -/
structure ModeFacts (m : Nat) (M : Bc7ModeInfo) : Prop where
  ns1 : M.num_subsets ≠ 0
  ns3 : M.num_subsets < 4
  pb : M.partition_bits ≤ 6
  rb : M.rotation_bits ≤ 2
  isb : M.index_selection_bits ≤ 1
  pbits : M.endpoint_pbits + M.shared_pbits ≤ 1
  cb4 : 4 ≤ M.color_bits + M.endpoint_pbits + M.shared_pbits
  cb8 : M.color_bits + M.endpoint_pbits + M.shared_pbits ≤ 8
  ab4 : M.alpha_bits ≠ 0 → 4 ≤ M.alpha_bits + M.endpoint_pbits + M.shared_pbits
  ab8 : M.alpha_bits + M.endpoint_pbits + M.shared_pbits ≤ 8
  ib2 : 2 ≤ M.index_bits0
  ib4 : M.index_bits0 < 5
  ib1 : M.index_bits1 ≠ 0 → 2 ≤ M.index_bits1 ∧ M.index_bits1 < 5 ∧ M.num_subsets = 1
  sel : M.index_bits1 = 0 → M.index_selection_bits = 0
  mode : m < 8
  total : m + 1 + M.partition_bits + M.rotation_bits + M.index_selection_bits +
    3 * (2 * M.num_subsets * M.color_bits) + 2 * M.num_subsets * M.alpha_bits +
    2 * M.num_subsets * M.endpoint_pbits + M.num_subsets * M.shared_pbits +
    (16 * M.index_bits0 - M.num_subsets) + (16 * M.index_bits1 - 1) = 128

/-- The specification's view of a mode. -/
def toMode (M : Bc7ModeInfo) : Spec.Bc7.Mode :=
  ⟨M.num_subsets, M.partition_bits, M.rotation_bits, M.index_selection_bits, M.color_bits,
    M.alpha_bits, M.endpoint_pbits, M.shared_pbits, M.index_bits0, M.index_bits1⟩

theorem modeFacts {m : Nat} (h : m < 8) : ∃ M, idx bc7ModeInfo m = .ok M ∧ ModeFacts m M ∧
    ∀ d, Spec.Bc7.modes.getD m d = toMode M := by
  have : m = 0 ∨ m = 1 ∨ m = 2 ∨ m = 3 ∨ m = 4 ∨ m = 5 ∨ m = 6 ∨ m = 7 := by omega
  rcases this with rfl | rfl | rfl | rfl | rfl | rfl | rfl | rfl
  all_goals
    refine ⟨_, rfl, ?_, fun _ => rfl⟩
    constructor <;> decide

/-! ## Endpoints -/

/-- The first `2 ii` entries have been updated from `f` to `g`. -/
def Upd (ns : Nat) (f g : Nat → Nat) (ii : Nat) (l : List Nat) : Prop :=
  l.length = 6 ∧ ∀ j, j < 2 * ns → l[j]? = some (if j < 2 * ii then g j else f j)

theorem Upd.step {ns ii : Nat} {f g : Nat → Nat} {l : List Nat} (h : Upd ns f g ii l)
    (hi : ii < ns) (hns : ns < 4) :
    Upd ns f g (ii + 1) ((l.set (ii * 2) (g (ii * 2))).set (ii * 2 + 1) (g (ii * 2 + 1))) := by
  obtain ⟨hl, hv⟩ := h
  refine ⟨by simp [hl], ?_⟩
  intro j hj
  rw [List.getElem?_set, List.getElem?_set]
  simp only [List.length_set, hl]
  by_cases e1 : ii * 2 + 1 = j
  · subst e1
    rw [if_pos rfl, if_pos (by omega), if_pos (by omega)]
  · rw [if_neg e1]
    by_cases e0 : ii * 2 = j
    · subst e0
      rw [if_pos rfl, if_pos (by omega), if_pos (by omega)]
    · rw [if_neg e0, hv j hj]
      by_cases hlt : j < 2 * ii
      · rw [if_pos hlt, if_pos (by omega)]
      · rw [if_neg hlt, if_neg (by omega)]

theorem Upd.get0 {ns ii : Nat} {f g : Nat → Nat} {l : List Nat} (h : Upd ns f g ii l)
    (hi : ii < ns) : l[ii * 2]? = some (f (ii * 2)) := by
  rw [h.2 _ (by omega), if_neg (by omega)]

theorem Upd.get1 {ns ii : Nat} {f g : Nat → Nat} {l : List Nat} (h : Upd ns f g ii l)
    (hi : ii < ns) (x : Nat) : (l.set (ii * 2) x)[ii * 2 + 1]? = some (f (ii * 2 + 1)) := by
  rw [List.getElem?_set, if_neg (by omega), h.2 _ (by omega), if_neg (by omega)]

theorem Upd.done {ns : Nat} {f g : Nat → Nat} {l : List Nat} (h : Upd ns f g ns l) (f' : Nat → Nat) :
    Upd ns g f' 0 l :=
  ⟨h.1, fun j hj => by rw [h.2 j hj, if_pos hj, if_neg (by omega)]⟩

theorem Upd.get {ns j : Nat} {f g : Nat → Nat} {l : List Nat} (h : Upd ns f g 0 l) (hj : j < 2 * ns) :
    l[j]? = some (f j) := by
  rw [h.2 j hj, if_neg (by omega)]

/-- Endpoint `j` as read from the stream. -/
def rawEp (data : List UInt8) (pos bits pb j : Nat) : Nat :=
  Spec.field (data.take 16) (pos + j * bits) bits * 2 ^ pb

theorem rawEp_lt {data : List UInt8} {pos bits pb j : Nat} (h : bits + pb ≤ 8) :
    rawEp data pos bits pb j < 256 := by
  unfold rawEp
  have h1 := field_lt (data.take 16) (pos + j * bits) bits
  have h2 : 2 ^ (bits + pb) ≤ 2 ^ 8 := Nat.pow_le_pow_right (by omega) h
  rw [Nat.pow_add] at h2
  have h3 : Spec.field (data.take 16) (pos + j * bits) bits * 2 ^ pb < 2 ^ bits * 2 ^ pb :=
    (Nat.mul_lt_mul_right (Nat.two_pow_pos pb)).mpr h1
  omega

theorem readEndpoints_ok {data : List UInt8} (hd : 16 ≤ data.length) {ns bits pb pos : Nat}
    (hns : ns < 4) (hbits : bits + pb ≤ 8) (hpb : pb ≤ 1) (hpos : pos + 2 * ns * bits ≤ 128)
    {ep : List Nat} (hep : ep.length = 6) :
    ∃ ep', bc7ReadEndpoints data ns bits pb pos ep = .ok (pos + 2 * ns * bits, ep') ∧
      ∀ f', Upd ns (rawEp data pos bits pb) f' 0 ep' := by
  have hz : Upd ns (fun j => ep.getD j 0) (rawEp data pos bits pb) 0 ep := by
    refine ⟨hep, fun j hj => ?_⟩
    rw [if_neg (by omega)]
    show _ = some (ep.getD j 0)
    rw [List.getD_eq_getElem?_getD, List.getElem?_eq_getElem (by omega)]
    rfl
  obtain ⟨⟨p, ep'⟩, e, h1, h2⟩ := forRange_inv (n := ns)
    (f := fun ii (s : Nat × List Nat) => do
      let (pos, ep) := s
      let (v, pos) ← readBits data pos bits
      let v ← shlU 16 v pb
      let ep ← setIdx ep (ii * 2) (asU 8 v)
      let (v, pos) ← readBits data pos bits
      let v ← shlU 16 v pb
      let ep ← setIdx ep (ii * 2 + 1) (asU 8 v)
      pure (pos, ep)) (s := (pos, ep))
    (fun ii s => s.1 = pos + 2 * ii * bits ∧
      Upd ns (fun j => ep.getD j 0) (rawEp data pos bits pb) ii s.2)
    ⟨by simp, hz⟩ (by
      rintro ii hii ⟨p, l⟩ ⟨h1, h2⟩
      simp only at h1 h2 ⊢
      subst h1
      have hb : 2 * ii * bits + 2 * bits ≤ 2 * ns * bits := by
        have : (2 * ii + 2) * bits ≤ 2 * ns * bits := Nat.mul_le_mul_right _ (by omega)
        rw [Nat.add_mul] at this; exact this
      have e0 : pos + 2 * ii * bits = pos + ii * 2 * bits := by rw [Nat.mul_comm 2 ii]
      have e1 : pos + 2 * ii * bits + bits = pos + (ii * 2 + 1) * bits := by
        rw [Nat.add_mul, Nat.mul_comm 2 ii]; omega
      have r0 := rawEp_lt (data := data) (pos := pos) (j := ii * 2) hbits
      have r1 := rawEp_lt (data := data) (pos := pos) (j := ii * 2 + 1) hbits
      unfold rawEp at r0 r1
      rw [readBits16 hd (by omega) (by omega), Out.ok_bind]
      simp only
      rw [shlU_ok (by omega), Out.ok_bind, setIdx_ok (by have := h2.1; omega), Out.ok_bind,
        readBits16 hd (by omega) (by omega), Out.ok_bind]
      simp only
      rw [shlU_ok (by omega), Out.ok_bind, setIdx_ok (by rw [List.length_set]; have := h2.1; omega),
        Out.ok_bind, Out.pure_eq]
      refine ⟨_, rfl, ?_, ?_⟩
      · simp only
        rw [show 2 * (ii + 1) * bits = 2 * ii * bits + 2 * bits by rw [← Nat.add_mul]; rfl]
        omega
      · have := h2.step hii hns
        simp only [rawEp] at this
        simp only [shl_eq, asU, e1]
        rw [e0]
        rw [Nat.mod_eq_of_lt (a := _ * 2 ^ pb) (b := 2 ^ 16) (by omega),
          Nat.mod_eq_of_lt (a := _ * 2 ^ pb) (b := 2 ^ 16) (by omega),
          Nat.mod_eq_of_lt (a := _ * 2 ^ pb) (b := 2 ^ 8) (by omega),
          Nat.mod_eq_of_lt (a := _ * 2 ^ pb) (b := 2 ^ 8) (by omega)]
        exact this)
  refine ⟨ep', ?_, fun f' => h2.done f'⟩
  unfold bc7ReadEndpoints
  rw [e]
  simp only at h1
  rw [h1]

theorem orIdx_ok {l : List Nat} {j x v : Nat} (h : l[j]? = some x) :
    orIdx l j v = .ok (l.set j (x ||| v)) := by
  unfold orIdx
  rw [idx_of_some h, Out.ok_bind, setIdx_ok]
  exact (List.getElem?_eq_some_iff.mp h).1

theorem expandIdx_ok {l : List Nat} {j x bits y : Nat} (h : l[j]? = some x)
    (he : expandQuantized x bits = .ok y) : expandIdx l j bits = .ok (l.set j y) := by
  unfold expandIdx
  rw [idx_of_some h, Out.ok_bind, he, Out.ok_bind, setIdx_ok]
  exact (List.getElem?_eq_some_iff.mp h).1

theorem expandQuantized_ok {v bits : Nat} (h4 : 4 ≤ bits) (h8 : bits ≤ 8) (hv : v < 2 ^ bits) :
    expandQuantized v bits = .ok (Spec.Bc7.replicateBits bits v) ∧
      Spec.Bc7.replicateBits bits v < 256 := by
  have : ∀ b : Bool, ∀ bits, bits < 9 → 4 ≤ bits → ∀ v, v < 2 ^ bits →
      @expandQuantized ⟨b⟩ v bits = .ok (Spec.Bc7.replicateBits bits v) ∧
        Spec.Bc7.replicateBits bits v < 256 := by decide +kernel
  rename_i B
  obtain ⟨b⟩ := B
  exact this b bits (by omega) h4 v hv

/-- The P-bit of endpoint `j`. -/
def pbitOf (data : List UInt8) (M : Bc7ModeInfo) (pos j : Nat) : Nat :=
  if M.shared_pbits = 0 then Spec.field (data.take 16) (pos + j) 1 else Spec.field (data.take 16) (pos + j / 2) 1

theorem pbits_ok {data : List UInt8} (hd : 16 ≤ data.length) {M : Bc7ModeInfo} {pos : Nat}
    (hns : M.num_subsets < 4) (hp : M.endpoint_pbits + M.shared_pbits = 1)
    (hpos : pos + 2 * M.num_subsets * M.endpoint_pbits + M.num_subsets * M.shared_pbits ≤ 128)
    {ep : Endpoints} {fr fg fb fa : Nat → Nat}
    (hr : ∀ f', Upd M.num_subsets fr f' 0 ep.r) (hg : ∀ f', Upd M.num_subsets fg f' 0 ep.g)
    (hb : ∀ f', Upd M.num_subsets fb f' 0 ep.b) (ha : ∀ f', Upd M.num_subsets fa f' 0 ep.a) :
    ∃ ep', bc7PBits data M 1 pos ep = .ok (pos + 2 * M.num_subsets * M.endpoint_pbits +
        M.num_subsets * M.shared_pbits, ep') ∧
      (∀ f', Upd M.num_subsets (fun j => fr j ||| pbitOf data M pos j) f' 0 ep'.r) ∧
      (∀ f', Upd M.num_subsets (fun j => fg j ||| pbitOf data M pos j) f' 0 ep'.g) ∧
      (∀ f', Upd M.num_subsets (fun j => fb j ||| pbitOf data M pos j) f' 0 ep'.b) ∧
      (∀ f', Upd M.num_subsets (fun j => fa j ||| pbitOf data M pos j) f' 0 ep'.a) := by
  generalize hq : pbitOf data M pos = q
  obtain ⟨⟨p, ep'⟩, e, h1, h2, h3, h4, h5⟩ := forRange_inv (n := M.num_subsets)
    (f := fun ii (s : Nat × Endpoints) => do
      let (pos, ep) := s
      let (v, pos) ← readBits data pos 1
      let pda := asU 8 v
      let (pdb, pos) ← (if M.shared_pbits = 0 then do
          let (v, pos) ← readBits data pos 1
          pure (asU 8 v, pos)
        else pure (pda, pos))
      let r ← orIdx ep.r (ii * 2) pda
      let r ← orIdx r (ii * 2 + 1) pdb
      let g ← orIdx ep.g (ii * 2) pda
      let g ← orIdx g (ii * 2 + 1) pdb
      let b ← orIdx ep.b (ii * 2) pda
      let b ← orIdx b (ii * 2 + 1) pdb
      let a ← orIdx ep.a (ii * 2) pda
      let a ← orIdx a (ii * 2 + 1) pdb
      pure (pos, (⟨r, g, b, a⟩ : Endpoints))) (s := (pos, ep))
    (fun ii s => s.1 = pos + 2 * ii * M.endpoint_pbits + ii * M.shared_pbits ∧
      Upd M.num_subsets fr (fun j => fr j ||| q j) ii s.2.r ∧
      Upd M.num_subsets fg (fun j => fg j ||| q j) ii s.2.g ∧
      Upd M.num_subsets fb (fun j => fb j ||| q j) ii s.2.b ∧
      Upd M.num_subsets fa (fun j => fa j ||| q j) ii s.2.a)
    ⟨by simp, hr _, hg _, hb _, ha _⟩ (by
      rintro ii hii ⟨p, l⟩ ⟨h1, h2, h3, h4, h5⟩
      simp only at h1 h2 h3 h4 h5 ⊢
      have hq0 : q (ii * 2) = Spec.field (data.take 16) p 1 := by
        rw [← hq, h1]; unfold pbitOf
        rcases (by omega : M.endpoint_pbits = 0 ∧ M.shared_pbits = 1 ∨
          M.endpoint_pbits = 1 ∧ M.shared_pbits = 0) with ⟨a, b⟩ | ⟨a, b⟩
        · rw [a, b, if_neg (by omega)]; congr 1; omega
        · rw [a, b, if_pos rfl]; congr 1; omega
      have hb0 : p + 1 ≤ 128 := by
        rcases (by omega : M.endpoint_pbits = 0 ∧ M.shared_pbits = 1 ∨
          M.endpoint_pbits = 1 ∧ M.shared_pbits = 0) with ⟨a, b⟩ | ⟨a, b⟩
        · rw [a, b] at hpos h1; omega
        · rw [a, b] at hpos h1; omega
      have hlt := field_lt (data.take 16) p 1
      rw [readBits16 hd (by omega) (by omega), Out.ok_bind]
      simp only
      have e0 : asU 8 (Spec.field (data.take 16) p 1) = q (ii * 2) := by
        rw [hq0]; exact Nat.mod_eq_of_lt (by omega)
      rw [e0]
      have e1 : (if M.shared_pbits = 0 then do
            let (v, pos) ← readBits data (p + 1) 1
            pure (asU 8 v, pos)
          else pure (q (ii * 2), p + 1)) =
          .ok (q (ii * 2 + 1), pos + 2 * (ii + 1) * M.endpoint_pbits + (ii + 1) * M.shared_pbits) := by
        rcases (by omega : M.endpoint_pbits = 0 ∧ M.shared_pbits = 1 ∨
          M.endpoint_pbits = 1 ∧ M.shared_pbits = 0) with ⟨a, b⟩ | ⟨a, b⟩
        · rw [a, b] at h1
          rw [if_neg (by omega), ← hq, a, b, h1]
          unfold pbitOf
          rw [if_neg (by omega), if_neg (by omega), Out.pure_eq, Out.ok.injEq, Prod.mk.injEq]
          exact ⟨by congr 1; omega, by omega⟩
        · rw [a, b] at h1 hpos
          have hlt := field_lt (data.take 16) (p + 1) 1
          rw [if_pos b, readBits16 hd (by omega) (by omega), Out.ok_bind, ← hq, a, b]
          simp only
          unfold pbitOf
          rw [if_pos b, Out.pure_eq, Out.ok.injEq, Prod.mk.injEq]
          refine ⟨?_, by omega⟩
          rw [show pos + (ii * 2 + 1) = p + 1 by omega]
          exact Nat.mod_eq_of_lt (by omega)
      rw [e1, Out.ok_bind]
      simp only
      rw [orIdx_ok (h2.get0 hii), Out.ok_bind, orIdx_ok (h2.get1 hii _), Out.ok_bind,
        orIdx_ok (h3.get0 hii), Out.ok_bind, orIdx_ok (h3.get1 hii _), Out.ok_bind,
        orIdx_ok (h4.get0 hii), Out.ok_bind, orIdx_ok (h4.get1 hii _), Out.ok_bind,
        orIdx_ok (h5.get0 hii), Out.ok_bind, orIdx_ok (h5.get1 hii _), Out.ok_bind]
      exact ⟨_, rfl, rfl, h2.step hii hns, h3.step hii hns, h4.step hii hns, h5.step hii hns⟩)
  refine ⟨ep', ?_, fun f' => h2.done f', fun f' => h3.done f', fun f' => h4.done f',
    fun f' => h5.done f'⟩
  unfold bc7PBits
  rw [if_pos (by omega), e]
  simp only at h1
  rw [h1]

theorem expandColor_ok {ns bits : Nat} (hns : ns < 4) (h4 : 4 ≤ bits) (h8 : bits ≤ 8)
    {ep : Endpoints} {fr fg fb : Nat → Nat}
    (hr : ∀ f', Upd ns fr f' 0 ep.r) (hg : ∀ f', Upd ns fg f' 0 ep.g) (hb : ∀ f', Upd ns fb f' 0 ep.b)
    (vr : ∀ j, fr j < 2 ^ bits) (vg : ∀ j, fg j < 2 ^ bits) (vb : ∀ j, fb j < 2 ^ bits) :
    ∃ ep', bc7ExpandColor ns bits ep = .ok ep' ∧ ep'.a = ep.a ∧
      (∀ f', Upd ns (fun j => Spec.Bc7.replicateBits bits (fr j)) f' 0 ep'.r) ∧
      (∀ f', Upd ns (fun j => Spec.Bc7.replicateBits bits (fg j)) f' 0 ep'.g) ∧
      (∀ f', Upd ns (fun j => Spec.Bc7.replicateBits bits (fb j)) f' 0 ep'.b) := by
  have X := fun v (h : v < 2 ^ bits) => (expandQuantized_ok h4 h8 h).1
  obtain ⟨ep', e, h1, h2, h3, h4⟩ := forRange_inv (n := ns)
    (f := fun ii (ep : Endpoints) => do
      let r ← expandIdx ep.r (ii * 2) bits
      let r ← expandIdx r (ii * 2 + 1) bits
      let g ← expandIdx ep.g (ii * 2) bits
      let g ← expandIdx g (ii * 2 + 1) bits
      let b ← expandIdx ep.b (ii * 2) bits
      let b ← expandIdx b (ii * 2 + 1) bits
      pure (⟨r, g, b, ep.a⟩ : Endpoints)) (s := ep)
    (fun ii s => s.a = ep.a ∧
      Upd ns fr (fun j => Spec.Bc7.replicateBits bits (fr j)) ii s.r ∧
      Upd ns fg (fun j => Spec.Bc7.replicateBits bits (fg j)) ii s.g ∧
      Upd ns fb (fun j => Spec.Bc7.replicateBits bits (fb j)) ii s.b)
    ⟨rfl, hr _, hg _, hb _⟩ (by
      rintro ii hii s ⟨h1, h2, h3, h4⟩
      rw [expandIdx_ok (h2.get0 hii) (X _ (vr _)), Out.ok_bind,
        expandIdx_ok (h2.get1 hii _) (X _ (vr _)), Out.ok_bind,
        expandIdx_ok (h3.get0 hii) (X _ (vg _)), Out.ok_bind,
        expandIdx_ok (h3.get1 hii _) (X _ (vg _)), Out.ok_bind,
        expandIdx_ok (h4.get0 hii) (X _ (vb _)), Out.ok_bind,
        expandIdx_ok (h4.get1 hii _) (X _ (vb _)), Out.ok_bind]
      exact ⟨_, rfl, h1, h2.step hii hns, h3.step hii hns, h4.step hii hns⟩)
  exact ⟨ep', e, h1, fun f' => h2.done f', fun f' => h3.done f', fun f' => h4.done f'⟩

theorem expandAlpha_ok {ns bits : Nat} (hns : ns < 4) (h4 : 4 ≤ bits) (h8 : bits ≤ 8)
    {l : List Nat} {f : Nat → Nat} (hr : ∀ f', Upd ns f f' 0 l) (vr : ∀ j, f j < 2 ^ bits) :
    ∃ l', bc7ExpandAlpha ns bits l = .ok l' ∧
      (∀ f', Upd ns (fun j => Spec.Bc7.replicateBits bits (f j)) f' 0 l') := by
  have X := fun v (h : v < 2 ^ bits) => (expandQuantized_ok h4 h8 h).1
  obtain ⟨l', e, h1⟩ := forRange_inv (n := ns)
    (f := fun ii a => do
      let a ← expandIdx a (ii * 2) bits
      expandIdx a (ii * 2 + 1) bits) (s := l)
    (fun ii s => Upd ns f (fun j => Spec.Bc7.replicateBits bits (f j)) ii s)
    (hr _) (by
      rintro ii hii s h1
      rw [expandIdx_ok (h1.get0 hii) (X _ (vr _)), Out.ok_bind,
        expandIdx_ok (h1.get1 hii _) (X _ (vr _))]
      exact ⟨_, rfl, h1.step hii hns⟩)
  exact ⟨l', e, fun f' => h1.done f'⟩

theorem bc7Lerp_ok {ep : List Nat} {s w a b : Nat} (h0 : ep[s]? = some a) (h1 : ep[s + 1]? = some b)
    (ha : a < 256) (hb : b < 256) (hw : w ≤ 64) :
    bc7Lerp ep s (64 - w) w = .ok (Spec.Bptc.interpolate a b w) := by
  have k1 : a * (64 - w) ≤ 255 * (64 - w) := Nat.mul_le_mul_right _ (by omega)
  have k2 : b * w ≤ 255 * w := Nat.mul_le_mul_right _ (by omega)
  unfold bc7Lerp Spec.Bptc.interpolate
  rw [idx_of_some h0, Out.ok_bind, mulU_ok (by omega), Out.ok_bind, idx_of_some h1, Out.ok_bind,
    mulU_ok (by omega), Out.ok_bind, addU_ok (by omega), Out.ok_bind, addU_ok (by omega), Out.ok_bind,
    shrU_ok (by omega), Out.ok_bind, Out.pure_eq, shr_eq]
  unfold asU
  rw [Nat.mod_eq_of_lt (a := _ / 2 ^ 6) (by omega)]

/-! ## Texels -/

/-- Bit offset of the primary and secondary index of texel `i` relative to the index data. -/
def bc7St (M : Bc7ModeInfo) (p i : Nat) : Nat × Nat :=
  (i * M.index_bits0 - Spec.Bptc.anchorsBefore M.num_subsets p i,
   M.num_subsets * (16 * M.index_bits0 - 1) +
     (if M.index_bits1 = 0 then 0
      else i * M.index_bits1 - Spec.Bptc.anchorsBefore M.num_subsets p i))

/-- The two interpolation weights of texel `i`, index data at `pos`. -/
def bc7Weights (data : List UInt8) (pos : Nat) (M : Bc7ModeInfo) (p sel i : Nat) : Nat × Nat :=
  let n := M.index_bits0 - (Spec.Bptc.isAnchor M.num_subsets p i).toNat
  let w1 := Spec.Bptc.weight M.index_bits0 (Spec.field (data.take 16) (pos + (bc7St M p i).1) n)
  if M.index_bits1 = 0 then (w1, w1)
  else
    let n2 := M.index_bits1 - (Spec.Bptc.isAnchor M.num_subsets p i).toNat
    let w2 := Spec.Bptc.weight M.index_bits1 (Spec.field (data.take 16) (pos + (bc7St M p i).2) n2)
    if sel = 0 then (w1, w2) else (w2, w1)

/-- The channels after rotation. -/
def rotate (rot r g b a : Nat) : UInt32 :=
  match rot with
  | 1 => Spec.px a g b r
  | 2 => Spec.px r a b g
  | 3 => Spec.px r g a b
  | _ => Spec.px r g b a

theorem bc7Texel_ok {data : List UInt8} (hd : 16 ≤ data.length) {m : Nat} {M : Bc7ModeInfo}
    (F : ModeFacts m M) {pos p rot sel : Nat} {f0 f1 : List Nat} {ep : Endpoints}
    (hp : p < 64) (hsel : sel < 2) (hsel0 : M.index_bits1 = 0 → sel = 0)
    (hpos : pos + (16 * M.index_bits0 - M.num_subsets) + (16 * M.index_bits1 - 1) = 128)
    (hf0 : ∀ k, k < 2 ^ M.index_bits0 → idx f0 k = .ok (Spec.Bptc.weight M.index_bits0 k) ∧
      Spec.Bptc.weight M.index_bits0 k ≤ 64)
    (hf1 : if M.index_bits1 = 0 then f1 = f0 else
      ∀ k, k < 2 ^ M.index_bits1 → idx f1 k = .ok (Spec.Bptc.weight M.index_bits1 k) ∧
      Spec.Bptc.weight M.index_bits1 k ≤ 64)
    {fr fg fb fa : Nat → Nat}
    (hr : Upd M.num_subsets fr fr 0 ep.r) (hg : Upd M.num_subsets fg fg 0 ep.g)
    (hb : Upd M.num_subsets fb fb 0 ep.b) (ha : Upd M.num_subsets fa fa 0 ep.a)
    (vr : ∀ j, fr j < 256) (vg : ∀ j, fg j < 256) (vb : ∀ j, fb j < 256) (va : ∀ j, fa j < 256)
    {i : Nat} (hi : i < 16) {o : List UInt32} (ho : 16 ≤ o.length) :
    bc7Texel data pos M p rot sel [f0, f1] ep i (bc7St M p i, o) =
      .ok (bc7St M p (i + 1), o.set i
        (let s := Spec.Bptc.subset M.num_subsets p i
         let w := bc7Weights data pos M p sel i
         rotate rot (Spec.Bptc.interpolate (fr (2 * s)) (fr (2 * s + 1)) w.1)
          (Spec.Bptc.interpolate (fg (2 * s)) (fg (2 * s + 1)) w.1)
          (Spec.Bptc.interpolate (fb (2 * s)) (fb (2 * s + 1)) w.1)
          (Spec.Bptc.interpolate (fa (2 * s)) (fa (2 * s + 1)) w.2))) := by
  obtain ⟨a, e1, e2, e3⟩ := bc7Subset_ok (i := i) F.ns3 F.ns1 hp hi
  obtain ⟨A1, A2, A3⟩ := anchors_all _ F.ns3 F.ns1 p hp i (by omega)
  obtain ⟨B1, B2, B3⟩ := anchors_all _ F.ns3 F.ns1 p hp (i + 1) (by omega)
  have hsucc := anchorsBefore_succ M.num_subsets p i
  have hanch : (if i = a then 1 else 0) = (Spec.Bptc.isAnchor M.num_subsets p i).toNat := by
    rw [← e2]
    by_cases h : i = a
    · simp [h]
    · rw [if_neg h, show (i == a) = false by simpa using h]; rfl
  have hA1 := Bool.toNat_le (Spec.Bptc.isAnchor M.num_subsets p i)
  have hib2 := F.ib2
  have hib4 := F.ib4
  have m0 : (i + 1) * M.index_bits0 = i * M.index_bits0 + M.index_bits0 := by rw [Nat.succ_mul]
  have m1 : (i + 1) * M.index_bits1 = i * M.index_bits1 + M.index_bits1 := by rw [Nat.succ_mul]
  have k0 : (i + 1) ≤ (i + 1) * M.index_bits0 := Nat.le_mul_of_pos_right _ (by omega)
  have k00 : i ≤ i * M.index_bits0 := Nat.le_mul_of_pos_right _ (by omega)
  have t0 : (i + 1) * M.index_bits0 + (16 - (i + 1)) ≤ 16 * M.index_bits0 := by
    have := Nat.mul_le_mul_left (16 - (i + 1)) (show 1 ≤ M.index_bits0 by omega)
    have e : (i + 1) * M.index_bits0 + (16 - (i + 1)) * M.index_bits0 = 16 * M.index_bits0 := by
      rw [← Nat.add_mul]; congr 1; omega
    omega
  have q0 : ∀ {l : List Nat} {f : Nat → Nat}, Upd M.num_subsets f f 0 l →
      l[Spec.Bptc.subset M.num_subsets p i * 2]? =
        some (f (2 * Spec.Bptc.subset M.num_subsets p i)) := by
    intro l f h; rw [Nat.mul_comm]; exact h.get (by omega)
  have q1 : ∀ {l : List Nat} {f : Nat → Nat}, Upd M.num_subsets f f 0 l →
      l[Spec.Bptc.subset M.num_subsets p i * 2 + 1]? =
        some (f (2 * Spec.Bptc.subset M.num_subsets p i + 1)) := by
    intro l f h; rw [Nat.mul_comm]; exact h.get (by omega)
  have hsub := F.ns3
  -- the index and weight stage
  have hstage : ∃ i0 i1, i0 < 2 ^ M.index_bits0 ∧
      peek data pos (bc7St M p i).1
        (M.index_bits0 - (Spec.Bptc.isAnchor M.num_subsets p i).toNat) = .ok i0 ∧
      (if M.index_bits1 ≠ 0 then subU 64 M.index_bits1
        (Spec.Bptc.isAnchor M.num_subsets p i).toNat else pure 0) =
        .ok ((bc7St M p (i + 1)).2 - (bc7St M p i).2) ∧
      (if M.index_bits1 ≠ 0 then peek data pos (bc7St M p i).2
        ((bc7St M p (i + 1)).2 - (bc7St M p i).2) else pure i0) = .ok i1 ∧
      (bc7St M p i).1 + (M.index_bits0 - (Spec.Bptc.isAnchor M.num_subsets p i).toNat) =
        (bc7St M p (i + 1)).1 ∧ (bc7St M p (i + 1)).1 < 2 ^ 64 ∧
      (bc7St M p i).2 + ((bc7St M p (i + 1)).2 - (bc7St M p i).2) = (bc7St M p (i + 1)).2 ∧
      (bc7St M p (i + 1)).2 < 2 ^ 64 ∧
      (∃ row k, idx [f0, f1] sel = .ok row ∧ idx [i0, i1] sel = .ok k ∧
        idx row k = .ok (bc7Weights data pos M p sel i).1) ∧
      (∃ row k, idx [f0, f1] (1 - sel) = .ok row ∧ idx [i0, i1] (1 - sel) = .ok k ∧
        idx row k = .ok (bc7Weights data pos M p sel i).2) ∧
      (bc7Weights data pos M p sel i).1 ≤ 64 ∧ (bc7Weights data pos M p sel i).2 ≤ 64 := by
    have hi0 : ∀ q, Spec.field (data.take 16) q
        (M.index_bits0 - (Spec.Bptc.isAnchor M.num_subsets p i).toNat) < 2 ^ M.index_bits0 :=
      fun q => Nat.lt_of_lt_of_le (field_lt _ _ _) (Nat.pow_le_pow_right (by omega) (by omega))
    have hpk : peek data pos (i * M.index_bits0 - Spec.Bptc.anchorsBefore M.num_subsets p i)
        (M.index_bits0 - (Spec.Bptc.isAnchor M.num_subsets p i).toNat) = .ok
        (Spec.field (data.take 16) (pos + (i * M.index_bits0 - Spec.Bptc.anchorsBefore M.num_subsets p i))
          (M.index_bits0 - (Spec.Bptc.isAnchor M.num_subsets p i).toNat)) :=
      peek16 hd (by omega) (by omega)
    have hnn : M.num_subsets * (16 * M.index_bits0 - 1) ≤ 3 * (16 * M.index_bits0 - 1) :=
      Nat.mul_le_mul_right _ (by omega)
    by_cases h1 : M.index_bits1 = 0
    · rw [if_pos h1] at hf1
      have hs0 := hsel0 h1
      subst hs0 hf1
      have H := hf0 _ (hi0 (pos + (i * M.index_bits0 - Spec.Bptc.anchorsBefore M.num_subsets p i)))
      simp only [bc7St, bc7Weights, h1, if_true, ne_eq, not_true, if_false]
      refine ⟨_, _, hi0 _, hpk, ?_, rfl, by omega, by omega, by omega, by omega,
        ⟨f1, _, rfl, rfl, H.1⟩, ⟨f1, _, rfl, rfl, H.1⟩, H.2, H.2⟩
      simp
    · rw [if_neg h1] at hf1
      obtain ⟨g1, g2, g3⟩ := F.ib1 h1
      have hone : M.num_subsets * (16 * M.index_bits0 - 1) = 16 * M.index_bits0 - 1 := by
        rw [g3, Nat.one_mul]
      have k1 : (i + 1) ≤ (i + 1) * M.index_bits1 := Nat.le_mul_of_pos_right _ (by omega)
      have k11 : i ≤ i * M.index_bits1 := Nat.le_mul_of_pos_right _ (by omega)
      have t1 : (i + 1) * M.index_bits1 + (16 - (i + 1)) ≤ 16 * M.index_bits1 := by
        have := Nat.mul_le_mul_left (16 - (i + 1)) (show 1 ≤ M.index_bits1 by omega)
        have e : (i + 1) * M.index_bits1 + (16 - (i + 1)) * M.index_bits1 = 16 * M.index_bits1 := by
          rw [← Nat.add_mul]; congr 1; omega
        omega
      have hi1 : ∀ q, Spec.field (data.take 16) q
          (M.index_bits1 - (Spec.Bptc.isAnchor M.num_subsets p i).toNat) < 2 ^ M.index_bits1 :=
        fun q => Nat.lt_of_lt_of_le (field_lt _ _ _) (Nat.pow_le_pow_right (by omega) (by omega))
      have hd1 : M.num_subsets * (16 * M.index_bits0 - 1) +
            ((i + 1) * M.index_bits1 - Spec.Bptc.anchorsBefore M.num_subsets p (i + 1)) -
          (M.num_subsets * (16 * M.index_bits0 - 1) +
            (i * M.index_bits1 - Spec.Bptc.anchorsBefore M.num_subsets p i)) =
          M.index_bits1 - (Spec.Bptc.isAnchor M.num_subsets p i).toNat := by omega
      have hpk1 : peek data pos (M.num_subsets * (16 * M.index_bits0 - 1) +
            (i * M.index_bits1 - Spec.Bptc.anchorsBefore M.num_subsets p i))
          (M.index_bits1 - (Spec.Bptc.isAnchor M.num_subsets p i).toNat) = .ok
          (Spec.field (data.take 16) (pos + (M.num_subsets * (16 * M.index_bits0 - 1) +
            (i * M.index_bits1 - Spec.Bptc.anchorsBefore M.num_subsets p i)))
            (M.index_bits1 - (Spec.Bptc.isAnchor M.num_subsets p i).toNat)) :=
        peek16 hd (by omega) (by omega)
      have H0 := hf0 _ (hi0 (pos + (i * M.index_bits0 - Spec.Bptc.anchorsBefore M.num_subsets p i)))
      have H1 := hf1 _ (hi1 (pos + (M.num_subsets * (16 * M.index_bits0 - 1) +
            (i * M.index_bits1 - Spec.Bptc.anchorsBefore M.num_subsets p i))))
      simp only [bc7St, bc7Weights, h1, if_false, ne_eq, not_false_eq_true, if_true, hd1]
      refine ⟨_, _, hi0 _, hpk, subU_ok (by omega), hpk1, by omega, by omega, by omega, by omega, ?_⟩
      rcases (by omega : sel = 0 ∨ sel = 1) with rfl | rfl
      · exact ⟨⟨f0, _, rfl, rfl, H0.1⟩, ⟨f1, _, rfl, rfl, H1.1⟩, H0.2, H1.2⟩
      · exact ⟨⟨f1, _, rfl, rfl, H1.1⟩, ⟨f0, _, rfl, rfl, H0.1⟩, H1.2, H0.2⟩
  obtain ⟨i0, i1, _, s1, s2, s3, s4, s5, s6, s7, ⟨row, k, r1, r2, r3⟩, ⟨row', k', r1', r2', r3'⟩,
    w1, w2⟩ := hstage
  unfold bc7Texel
  simp only
  rw [e1, Out.ok_bind]
  simp only
  rw [hanch, subU_ok (by omega), Out.ok_bind, s2, Out.ok_bind, s1, Out.ok_bind, s3, Out.ok_bind,
    addU_ok (by rw [s4]; exact s5), Out.ok_bind, addU_ok (by rw [s6]; exact s7), Out.ok_bind, r1,
    Out.ok_bind, r2, Out.ok_bind, r3, Out.ok_bind, subU_ok (by omega), Out.ok_bind, r1', Out.ok_bind,
    r2', Out.ok_bind, r3', Out.ok_bind, subU_ok w1, Out.ok_bind, subU_ok w2, Out.ok_bind,
    mulU_ok (by omega), Out.ok_bind,
    bc7Lerp_ok (q0 hr) (q1 hr) (vr _) (vr _) w1, Out.ok_bind,
    bc7Lerp_ok (q0 hg) (q1 hg) (vg _) (vg _) w1, Out.ok_bind,
    bc7Lerp_ok (q0 hb) (q1 hb) (vb _) (vb _) w1, Out.ok_bind,
    bc7Lerp_ok (q0 ha) (q1 ha) (va _) (va _) w2, Out.ok_bind,
    setIdx_ok (by omega), Out.ok_bind, s4, s6]
  simp only [color_eq]
  rfl

theorem bc7_texels {data : List UInt8} (hd : 16 ≤ data.length) {m : Nat} {M : Bc7ModeInfo}
    (F : ModeFacts m M) {pos p rot sel : Nat} {f0 f1 : List Nat} {ep : Endpoints}
    (hp : p < 64) (hsel : sel < 2) (hsel0 : M.index_bits1 = 0 → sel = 0)
    (hpos : pos + (16 * M.index_bits0 - M.num_subsets) + (16 * M.index_bits1 - 1) = 128)
    (hf0 : ∀ k, k < 2 ^ M.index_bits0 → idx f0 k = .ok (Spec.Bptc.weight M.index_bits0 k) ∧
      Spec.Bptc.weight M.index_bits0 k ≤ 64)
    (hf1 : if M.index_bits1 = 0 then f1 = f0 else
      ∀ k, k < 2 ^ M.index_bits1 → idx f1 k = .ok (Spec.Bptc.weight M.index_bits1 k) ∧
      Spec.Bptc.weight M.index_bits1 k ≤ 64)
    {fr fg fb fa : Nat → Nat}
    (hr : Upd M.num_subsets fr fr 0 ep.r) (hg : Upd M.num_subsets fg fg 0 ep.g)
    (hb : Upd M.num_subsets fb fb 0 ep.b) (ha : Upd M.num_subsets fa fa 0 ep.a)
    (vr : ∀ j, fr j < 256) (vg : ∀ j, fg j < 256) (vb : ∀ j, fb j < 256) (va : ∀ j, fa j < 256)
    {buf : List UInt32} (hbuf : 16 ≤ buf.length) :
    ∃ o, forRange (4 * 4) (fun i s => bc7Texel data pos M p rot sel [f0, f1] ep i s)
        (bc7St M p 0, buf) = .ok (bc7St M p 16, o) ∧ o.length = buf.length ∧
      (∀ i, 16 ≤ i → o[i]? = buf[i]?) ∧ ∀ i, i < 16 → o[i]? = some
        (let s := Spec.Bptc.subset M.num_subsets p i
         let w := bc7Weights data pos M p sel i
         rotate rot (Spec.Bptc.interpolate (fr (2 * s)) (fr (2 * s + 1)) w.1)
          (Spec.Bptc.interpolate (fg (2 * s)) (fg (2 * s + 1)) w.1)
          (Spec.Bptc.interpolate (fb (2 * s)) (fb (2 * s + 1)) w.1)
          (Spec.Bptc.interpolate (fa (2 * s)) (fa (2 * s + 1)) w.2)) := by
  obtain ⟨o, eo, lo, ho, hrest⟩ := pixelLoop (n := 16) (bc7St M p)
    (fun i _ => (let s := Spec.Bptc.subset M.num_subsets p i
         let w := bc7Weights data pos M p sel i
         rotate rot (Spec.Bptc.interpolate (fr (2 * s)) (fr (2 * s + 1)) w.1)
          (Spec.Bptc.interpolate (fg (2 * s)) (fg (2 * s + 1)) w.1)
          (Spec.Bptc.interpolate (fb (2 * s)) (fb (2 * s + 1)) w.1)
          (Spec.Bptc.interpolate (fa (2 * s)) (fa (2 * s + 1)) w.2))) buf (by omega)
    (f := fun i s => bc7Texel data pos M p rot sel [f0, f1] ep i s)
    (fun i hi o q hol hoq => bc7Texel_ok hd F hp hsel hsel0 hpos hf0 hf1 hr hg hb ha vr vg vb va hi
      (by omega))
  refine ⟨o, eo, lo, hrest, fun i hi => ?_⟩
  rw [ho i hi, List.getElem?_eq_getElem (by omega), Option.map_some]

end Verif.Proofs
