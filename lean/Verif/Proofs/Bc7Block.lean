import Verif.Proofs.Bc7

/-! # BC7: the block decoder satisfies the block contract -/

set_option linter.unusedSectionVars false

namespace Verif.Proofs

open Verif Verif.Model

variable [Build]

/-- The P-bit of endpoint `j`, 0 if the mode has none. -/
def qbit (data : List UInt8) (M : Bc7ModeInfo) (pos j : Nat) : Nat :=
  if M.endpoint_pbits + M.shared_pbits = 0 then 0 else pbitOf data M pos j

theorem qbit_lt (data : List UInt8) (M : Bc7ModeInfo) (pos j : Nat) : qbit data M pos j < 2 := by
  unfold qbit pbitOf
  split
  · omega
  · split
    · exact field_lt _ _ 1
    · exact field_lt _ _ 1

theorem pbits_all {data : List UInt8} (hd : 16 ≤ data.length) {M : Bc7ModeInfo} {pos : Nat}
    (hns : M.num_subsets < 4) (hp : M.endpoint_pbits + M.shared_pbits ≤ 1)
    (hpos : pos + 2 * M.num_subsets * M.endpoint_pbits + M.num_subsets * M.shared_pbits ≤ 128)
    {ep : Endpoints} {fr fg fb fa : Nat → Nat}
    (hr : ∀ f', Upd M.num_subsets fr f' 0 ep.r) (hg : ∀ f', Upd M.num_subsets fg f' 0 ep.g)
    (hb : ∀ f', Upd M.num_subsets fb f' 0 ep.b) (ha : ∀ f', Upd M.num_subsets fa f' 0 ep.a) :
    ∃ ep', bc7PBits data M (M.endpoint_pbits + M.shared_pbits) pos ep =
        .ok (pos + 2 * M.num_subsets * M.endpoint_pbits + M.num_subsets * M.shared_pbits, ep') ∧
      (∀ f', Upd M.num_subsets (fun j => fr j ||| qbit data M pos j) f' 0 ep'.r) ∧
      (∀ f', Upd M.num_subsets (fun j => fg j ||| qbit data M pos j) f' 0 ep'.g) ∧
      (∀ f', Upd M.num_subsets (fun j => fb j ||| qbit data M pos j) f' 0 ep'.b) ∧
      (∀ f', Upd M.num_subsets (fun j => fa j ||| qbit data M pos j) f' 0 ep'.a) := by
  rcases (by omega : M.endpoint_pbits + M.shared_pbits = 1 ∨
    M.endpoint_pbits + M.shared_pbits = 0) with h | h
  · have hq : qbit data M pos = pbitOf data M pos := by
      funext j; unfold qbit; rw [if_neg (by omega)]
    rw [hq, h]
    exact pbits_ok hd hns h hpos hr hg hb ha
  · have hq : qbit data M pos = fun _ => 0 := by
      funext j; unfold qbit; rw [if_pos (by omega)]
    rw [hq, h]
    simp only [Nat.or_zero]
    refine ⟨ep, ?_, hr, hg, hb, ha⟩
    have h1 : M.endpoint_pbits = 0 := by omega
    have h2 : M.shared_pbits = 0 := by omega
    simp [bc7PBits, h1, h2]

/-- An endpoint with its P-bit is the specification's. -/
theorem raw_or_qbit {data : List UInt8} {m : Nat} {M : Bc7ModeInfo}
    (hp : M.endpoint_pbits + M.shared_pbits ≤ 1) (pos bits j : Nat) :
    (rawEp data pos bits (M.endpoint_pbits + M.shared_pbits) j |||
      qbit data M (Spec.Bc7.pbitPos m (toMode M)) j) =
    Spec.Bc7.withPBit (data.take 16) m (toMode M) j (Spec.field (data.take 16) (pos + j * bits) bits) := by
  unfold rawEp qbit Spec.Bc7.withPBit pbitOf
  generalize Spec.field (data.take 16) (pos + j * bits) bits = v
  simp only [toMode]
  rcases (by omega : M.endpoint_pbits = 1 ∧ M.shared_pbits = 0 ∨
    M.endpoint_pbits = 0 ∧ M.shared_pbits = 1 ∨ M.endpoint_pbits = 0 ∧ M.shared_pbits = 0)
    with ⟨a, b⟩ | ⟨a, b⟩ | ⟨a, b⟩
  · simp only [a, b, if_true, Nat.add_zero, show ¬ (1 = 0) by omega, if_false]
    rw [mul_or v (field_lt _ _ 1)]; omega
  · simp only [a, b, if_true, Nat.zero_add, show ¬ (1 = 0) by omega, if_false,
      show ¬ (0 = 1) by omega]
    rw [mul_or v (field_lt _ _ 1)]; omega
  · simp [a, b]

theorem withPBit_lt {data : List UInt8} {m : Nat} {M : Bc7ModeInfo}
    (hp : M.endpoint_pbits + M.shared_pbits ≤ 1) {bits j v : Nat} (hv : v < 2 ^ bits) :
    Spec.Bc7.withPBit (data.take 16) m (toMode M) j v <
      2 ^ (bits + (M.endpoint_pbits + M.shared_pbits)) := by
  unfold Spec.Bc7.withPBit
  simp only [toMode]
  rcases (by omega : M.endpoint_pbits = 1 ∧ M.shared_pbits = 0 ∨
    M.endpoint_pbits = 0 ∧ M.shared_pbits = 1 ∨ M.endpoint_pbits = 0 ∧ M.shared_pbits = 0)
    with ⟨a, b⟩ | ⟨a, b⟩ | ⟨a, b⟩
  · simp only [a, b, if_true, Nat.add_zero]
    have := field_lt (data.take 16) (Spec.Bc7.pbitPos m (toMode M) + j) 1
    simp only [toMode, a, b] at this
    rw [Nat.pow_succ]; omega
  · simp only [a, b, if_true, Nat.zero_add, show ¬ (0 = 1) by omega, if_false]
    have := field_lt (data.take 16) (Spec.Bc7.pbitPos m (toMode M) + j / 2) 1
    simp only [toMode, a, b] at this
    rw [Nat.pow_succ]; omega
  · simp [a, b, hv]

theorem or_255 {q : Nat} (h : q < 2) : 255 ||| q = 255 := by
  rcases (by omega : q = 0 ∨ q = 1) with rfl | rfl <;> rfl

theorem bc7_mode_block {data : List UInt8} (hd : 16 ≤ data.length) {m : Nat} (hm : m < 8)
    {buf : List UInt32} (hbuf : 16 ≤ buf.length)
    (hmode : bc7Mode data 9 0 0 = .ok (m, m + 1)) :
    ∃ o, decodeBc7Block data buf = .ok o ∧ o.length = buf.length ∧
      (∀ i, 16 ≤ i → o[i]? = buf[i]?) ∧ ∀ i, i < 16 → o[i]? = some (Spec.Bc7.modeTexel (data.take 16) m
        (Spec.Bc7.modes.getD m ⟨1, 0, 0, 0, 5, 0, 0, 0, 2, 0⟩) i) := by
  obtain ⟨M, hM, F, hspec⟩ := modeFacts hm
  rw [hspec]
  have hpb := F.pb
  have hrb := F.rb
  have hisb := F.isb
  have hpbits := F.pbits
  have htot := F.total
  have hcb8 := F.cb8
  have hcb4 := F.cb4
  have hab8 := F.ab8
  have hib2 := F.ib2
  have hib4 := F.ib4
  have hmp : (if M.endpoint_pbits ≠ 0 then M.endpoint_pbits else M.shared_pbits) =
      M.endpoint_pbits + M.shared_pbits := by split <;> omega
  have hfields : (Spec.Bc7.partition (data.take 16) m (toMode M)) < 64 :=
    Nat.lt_of_lt_of_le (field_lt _ _ _) (Nat.pow_le_pow_right (n := 2) (by omega) hpb)
  have hsel : (Spec.Bc7.selection (data.take 16) m (toMode M)) < 2 :=
    Nat.lt_of_lt_of_le (field_lt _ _ _) (Nat.pow_le_pow_right (n := 2) (by omega) hisb)
  have hrot : (Spec.Bc7.rotation (data.take 16) m (toMode M)) < 4 :=
    Nat.lt_of_lt_of_le (field_lt _ _ _) (Nat.pow_le_pow_right (n := 2) (by omega) hrb)
  have hsel0 : M.index_bits1 = 0 → (Spec.Bc7.selection (data.take 16) m (toMode M)) = 0 := by
    intro h
    have := field_lt (data.take 16) (Spec.Bc7.selectionPos m (toMode M)) 0
    show Spec.field (data.take 16) (Spec.Bc7.selectionPos m (toMode M)) M.index_selection_bits = 0
    rw [F.sel h]; omega
  generalize hK : 2 * M.num_subsets * M.color_bits = K at *
  generalize hL : 2 * M.num_subsets * M.alpha_bits = L at *
  generalize hPd : 2 * M.num_subsets * M.endpoint_pbits = P1 at *
  generalize hPs : M.num_subsets * M.shared_pbits = P2 at *
  unfold decodeBc7Block
  rw [hmode, Out.ok_bind]
  simp only
  rw [if_neg (by omega), hM, Out.ok_bind]
  simp only [hmp]
  rw [readBits16 hd (by omega) (by omega), Out.ok_bind]
  simp only
  rw [readBits16 hd (by omega) (by omega), Out.ok_bind]
  simp only
  rw [readBits16 hd (by omega) (by omega), Out.ok_bind]
  simp only
  have epart : Spec.field (data.take 16) (m + 1) M.partition_bits =
    Spec.Bc7.partition (data.take 16) m (toMode M) := rfl
  have erot : Spec.field (data.take 16) (m + 1 + M.partition_bits) M.rotation_bits =
    Spec.Bc7.rotation (data.take 16) m (toMode M) := rfl
  have esel : Spec.field (data.take 16) (m + 1 + M.partition_bits + M.rotation_bits)
    M.index_selection_bits = Spec.Bc7.selection (data.take 16) m (toMode M) := rfl
  rw [epart, erot, esel]
  have ec0 : ∀ ch, Spec.Bc7.colourPos m (toMode M) ch =
    m + 1 + M.partition_bits + M.rotation_bits + M.index_selection_bits + ch * K := by
    intro ch; rw [← hK]; rfl
  have ea0 : Spec.Bc7.alphaPos m (toMode M) =
    m + 1 + M.partition_bits + M.rotation_bits + M.index_selection_bits + K + K + K := by
    unfold Spec.Bc7.alphaPos; rw [ec0]; omega
  have ep0 : Spec.Bc7.pbitPos m (toMode M) =
    m + 1 + M.partition_bits + M.rotation_bits + M.index_selection_bits + K + K + K + L := by
    unfold Spec.Bc7.pbitPos; rw [ea0, ← hL]; rfl
  have ei0 : Spec.Bc7.indexPos m (toMode M) =
    m + 1 + M.partition_bits + M.rotation_bits + M.index_selection_bits + K + K + K + L + P1 + P2 := by
    unfold Spec.Bc7.indexPos; rw [ep0, ← hPd, ← hPs]; rfl
  generalize hE : m + 1 + M.partition_bits + M.rotation_bits + M.index_selection_bits = E at *
  obtain ⟨epR, eR, uR⟩ := readEndpoints_ok hd (ns := M.num_subsets) (bits := M.color_bits)
    (pb := M.endpoint_pbits + M.shared_pbits) (pos := E) F.ns3 (by omega) hpbits (by omega)
    (ep := [0, 0, 0, 0, 0, 0]) rfl
  rw [eR, Out.ok_bind]
  simp only [hK]
  obtain ⟨epG, eG, uG⟩ := readEndpoints_ok hd (ns := M.num_subsets) (bits := M.color_bits)
    (pb := M.endpoint_pbits + M.shared_pbits) (pos := E + K) F.ns3 (by omega) hpbits (by omega)
    (ep := [0, 0, 0, 0, 0, 0]) rfl
  rw [eG, Out.ok_bind]
  simp only [hK]
  obtain ⟨epB, eB, uB⟩ := readEndpoints_ok hd (ns := M.num_subsets) (bits := M.color_bits)
    (pb := M.endpoint_pbits + M.shared_pbits) (pos := E + K + K) F.ns3 (by omega) hpbits (by omega)
    (ep := [0, 0, 0, 0, 0, 0]) rfl
  rw [eB, Out.ok_bind]
  simp only [hK]
  have hA : ∃ epA fa, (if M.alpha_bits > 0 then
        bc7ReadEndpoints data M.num_subsets M.alpha_bits (M.endpoint_pbits + M.shared_pbits)
          (E + K + K + K) [0, 0, 0, 0, 0, 0]
      else pure (E + K + K + K, [0xff, 0xff, 0xff, 0xff, 0xff, 0xff])) =
        .ok (E + K + K + K + L, epA) ∧ (∀ f', Upd M.num_subsets fa f' 0 epA) ∧
      fa = (if M.alpha_bits = 0 then fun _ => 255
        else rawEp data (E + K + K + K) M.alpha_bits (M.endpoint_pbits + M.shared_pbits)) := by
    by_cases hz : M.alpha_bits = 0
    · rw [if_neg (by omega)]
      have hL0 : L = 0 := by rw [← hL, hz, Nat.mul_zero]
      refine ⟨_, _, by rw [hL0]; rfl, ?_, rfl⟩
      intro f'
      refine ⟨rfl, fun j hj => ?_⟩
      have hj6 : j < 6 := by have := F.ns3; omega
      rw [if_neg (by omega), if_pos hz]
      rcases (by omega : j = 0 ∨ j = 1 ∨ j = 2 ∨ j = 3 ∨ j = 4 ∨ j = 5)
        with rfl | rfl | rfl | rfl | rfl | rfl <;> rfl
    · rw [if_pos (by omega)]
      obtain ⟨epA, eA, uA⟩ := readEndpoints_ok hd (ns := M.num_subsets) (bits := M.alpha_bits)
        (pb := M.endpoint_pbits + M.shared_pbits) (pos := E + K + K + K) F.ns3 (by omega) hpbits
        (by omega) (ep := [0, 0, 0, 0, 0, 0]) rfl
      refine ⟨epA, _, ?_, uA, ?_⟩
      · rw [eA, hL]
      · rw [if_neg hz]
  obtain ⟨epA, fa, eA, uA, hfa⟩ := hA
  rw [eA, Out.ok_bind]
  simp only
  obtain ⟨ep1, eP, vR, vG, vB, vA⟩ := pbits_all hd (M := M) (pos := E + K + K + K + L) F.ns3 hpbits
    (by omega) (ep := ⟨epR, epG, epB, epA⟩) uR uG uB uA
  rw [eP, Out.ok_bind]
  simp only
  rw [addU_ok (by omega), Out.ok_bind]
  -- endpoints with their P-bits
  have c0 : ∀ pos bits j, (rawEp data pos bits (M.endpoint_pbits + M.shared_pbits) j |||
      qbit data M (E + K + K + K + L) j) = Spec.Bc7.withPBit (data.take 16) m (toMode M) j
        (Spec.field (data.take 16) (pos + j * bits) bits) := by
    intro pos bits j; rw [← ep0]; exact raw_or_qbit hpbits pos bits j
  have lt0 : ∀ pos bits j, (rawEp data pos bits (M.endpoint_pbits + M.shared_pbits) j |||
      qbit data M (E + K + K + K + L) j) < 2 ^ (bits + (M.endpoint_pbits + M.shared_pbits)) := by
    intro pos bits j; rw [c0]; exact withPBit_lt hpbits (field_lt _ _ _)
  obtain ⟨ep2, eX, xa, xR, xG, xB⟩ := expandColor_ok F.ns3 (by omega) (by omega) vR vG vB
    (fun j => lt0 _ _ j) (fun j => lt0 _ _ j) (fun j => lt0 _ _ j)
  rw [eX, Out.ok_bind]
  have hAX : ∃ epA' fA, (if M.alpha_bits > 0 then do
        let alphaBits ← addU 64 M.alpha_bits (M.endpoint_pbits + M.shared_pbits)
        bc7ExpandAlpha M.num_subsets alphaBits ep2.a
      else pure ep2.a) = .ok epA' ∧ (∀ f', Upd M.num_subsets fA f' 0 epA') ∧
      fA = Spec.Bc7.alpha (data.take 16) m (toMode M) ∧ ∀ j, fA j < 256 := by
    by_cases hz : M.alpha_bits = 0
    · rw [if_neg (by omega)]
      rw [if_pos hz] at hfa
      subst hfa
      simp only [or_255 (qbit_lt _ _ _ _)] at vA
      refine ⟨_, _, rfl, by rw [xa]; exact vA, ?_, fun _ => by omega⟩
      funext j; unfold Spec.Bc7.alpha; rw [if_pos (by exact hz)]
    · rw [if_pos (by omega), addU_ok (by omega), Out.ok_bind]
      rw [if_neg hz] at hfa
      subst hfa
      have ha4 := F.ab4 hz
      obtain ⟨l, el, ul⟩ := expandAlpha_ok F.ns3 (bits := M.alpha_bits +
        (M.endpoint_pbits + M.shared_pbits)) (by omega) (by omega) (l := ep2.a)
        (by rw [xa]; exact vA) (fun j => lt0 _ _ j)
      refine ⟨l, _, el, ul, ?_, ?_⟩
      · funext j
        rw [c0, ← ea0]
        unfold Spec.Bc7.alpha
        rw [if_neg (by exact hz)]
        show Spec.Bc7.replicateBits (M.alpha_bits + (M.endpoint_pbits + M.shared_pbits)) _ =
          Spec.Bc7.replicateBits (M.alpha_bits + M.endpoint_pbits + M.shared_pbits) _
        rw [Nat.add_assoc]; rfl
      · exact fun j => (expandQuantized_ok (by omega) (by omega) (lt0 _ _ j)).2
  obtain ⟨epA', fA, eXA, uXA, hfA, hfA2⟩ := hAX
  rw [eXA, Out.ok_bind]
  obtain ⟨f0, g0, _⟩ := factor_all M.index_bits0 hib4 hib2 0 (Nat.two_pow_pos _)
  have hf0 : ∀ k, k < 2 ^ M.index_bits0 → idx f0 k = .ok (Spec.Bptc.weight M.index_bits0 k) ∧
      Spec.Bptc.weight M.index_bits0 k ≤ 64 := by
    intro k hk
    obtain ⟨f, g1, g2⟩ := factor_all M.index_bits0 hib4 hib2 k hk
    rw [g0] at g1; injection g1 with g1; subst g1; exact g2
  have hf1 : ∃ f1, (if M.index_bits1 ≠ 0 then do
        let k1 ← subU 64 M.index_bits1 2
        idx bptcFactors k1
      else do
        let k0 ← subU 64 M.index_bits0 2
        idx bptcFactors k0) = .ok f1 ∧ (if M.index_bits1 = 0 then f1 = f0 else
      ∀ k, k < 2 ^ M.index_bits1 → idx f1 k = .ok (Spec.Bptc.weight M.index_bits1 k) ∧
      Spec.Bptc.weight M.index_bits1 k ≤ 64) := by
    by_cases hz : M.index_bits1 = 0
    · refine ⟨f0, ?_, by rw [if_pos hz]⟩
      rw [if_neg (by omega), subU_ok hib2, Out.ok_bind, g0]
    · obtain ⟨h1, h2, _⟩ := F.ib1 hz
      obtain ⟨f1, g1, _⟩ := factor_all M.index_bits1 h2 h1 0 (Nat.two_pow_pos _)
      refine ⟨f1, ?_, ?_⟩
      · rw [if_pos hz, subU_ok h1, Out.ok_bind, g1]
      · rw [if_neg hz]
        intro k hk
        obtain ⟨f, g2, g3⟩ := factor_all M.index_bits1 h2 h1 k hk
        rw [g1] at g2; injection g2 with g2; subst g2; exact g3
  obtain ⟨f1, g1, hf1⟩ := hf1
  have hnn : M.num_subsets * (16 * M.index_bits0 - 1) ≤ 3 * (16 * M.index_bits0 - 1) :=
    Nat.mul_le_mul_right _ (by have := F.ns3; omega)
  rw [subU_ok hib2] at g1
  rw [subU_ok hib2, Out.ok_bind, g0, Out.ok_bind, g1, Out.ok_bind, mulU_ok (by omega), Out.ok_bind,
    subU_ok (by omega), Out.ok_bind, mulU_ok (by omega), Out.ok_bind]
  rw [forRange_nested 4 4]
  have hrot8 : asU 8 (Spec.Bc7.rotation (data.take 16) m (toMode M)) =
    Spec.Bc7.rotation (data.take 16) m (toMode M) := Nat.mod_eq_of_lt (by omega)
  rw [hrot8]
  have hst0 : bc7St M (Spec.Bc7.partition (data.take 16) m (toMode M)) 0 =
      (0, M.num_subsets * (16 * M.index_bits0 - 1)) := by
    unfold bc7St
    simp
  rw [← hst0]
  have cc : M.color_bits + (M.endpoint_pbits + M.shared_pbits) =
    M.color_bits + M.endpoint_pbits + M.shared_pbits := by omega
  have colEq : ∀ pos ch, pos = Spec.Bc7.colourPos m (toMode M) ch →
      (fun j => Spec.Bc7.replicateBits (M.color_bits + (M.endpoint_pbits + M.shared_pbits))
        (rawEp data pos M.color_bits (M.endpoint_pbits + M.shared_pbits) j |||
          qbit data M (E + K + K + K + L) j)) = Spec.Bc7.colour (data.take 16) m (toMode M) ch := by
    intro pos ch hpos
    funext j
    rw [c0, hpos, cc]; rfl
  rw [colEq E 0 (by rw [ec0]; omega)] at xR
  rw [colEq (E + K) 1 (by rw [ec0]; omega)] at xG
  rw [colEq (E + K + K) 2 (by rw [ec0]; omega)] at xB
  have colLt : ∀ ch j, Spec.Bc7.colour (data.take 16) m (toMode M) ch j < 256 := by
    intro ch j
    unfold Spec.Bc7.colour
    refine (expandQuantized_ok hcb4 hcb8 ?_).2
    rw [← cc]
    exact withPBit_lt hpbits (field_lt _ _ _)
  subst hfA
  obtain ⟨o, eo, lo, hrest, ho⟩ := bc7_texels hd F (pos := E + K + K + K + L + P1 + P2)
    (rot := Spec.Bc7.rotation (data.take 16) m (toMode M)) (ep := ⟨ep2.r, ep2.g, ep2.b, epA'⟩)
    hfields hsel hsel0 (by omega) hf0 hf1 (xR _) (xG _) (xB _) (uXA _) (colLt 0) (colLt 1) (colLt 2)
    hfA2 hbuf
  rw [hPd, hPs, eo, Out.ok_bind]
  refine ⟨o, rfl, lo, hrest, ?_⟩
  intro i hi
  rw [ho i hi]
  have hw : bc7Weights data (E + K + K + K + L + P1 + P2) M
      (Spec.Bc7.partition (data.take 16) m (toMode M))
      (Spec.Bc7.selection (data.take 16) m (toMode M)) i =
      Spec.Bc7.weights (data.take 16) m (toMode M) i := by
    rw [← ei0]
    unfold bc7Weights Spec.Bc7.weights bc7St
    by_cases hz : M.index_bits1 = 0
    · simp only [toMode, hz, if_true]; rfl
    · have h1 : (toMode M).ib2 ≠ 0 := hz
      obtain ⟨_, _, h3⟩ := F.ib1 hz
      simp only [hz, h1, if_false]
      unfold Spec.Bc7.index2 Spec.Bc7.index2Pos
      simp only [toMode, h3, Nat.one_mul, Nat.add_assoc]
      rfl
  simp only [hw]
  rfl

/-- The block function: 16 texels written, nothing else touched, for any 16 bytes. -/
theorem bc7_block {data : List UInt8} (hd : 16 ≤ data.length) {buf : List UInt32}
    (hb : 16 ≤ buf.length) :
    ∃ o, decodeBc7Block data buf = .ok o ∧ o.length = buf.length ∧
      (∀ i, 16 ≤ i → o[i]? = buf[i]?) ∧
      ∀ i, i < 16 → o[i]? = some (Spec.Bc7.texel (data.take 16) i) := by
  have hmode := bc7Mode_from hd 8 0 rfl
  unfold Spec.Bc7.texel Spec.Bc7.modeOf
  rw [← List.range_eq_range'] at hmode
  cases hf : (List.range 8).find? (fun k => Spec.field (data.take 16) k 1 == 1) with
  | some m =>
    rw [hf] at hmode
    have hm : m < 8 := by simpa using List.mem_of_find?_eq_some hf
    exact bc7_mode_block hd hm hb hmode
  | none =>
    rw [hf] at hmode
    refine ⟨buf.take 0 ++ List.replicate (16 - 0) 0 ++ buf.drop 16, ?_, by simp; omega, ?_, ?_⟩
    · unfold decodeBc7Block
      rw [hmode, Out.ok_bind]
      simp only [if_true]
      unfold fillRange
      rw [if_pos ⟨by omega, hb⟩]
    · intro i hi
      rw [List.getElem?_append_right (by simpa using hi)]
      simp
      congr 1; omega
    · intro i hi
      rw [List.getElem?_append_left (by simpa using hi), List.take_zero, List.nil_append,
        List.getElem?_replicate, if_pos (by omega)]
      rfl

theorem bc7_contract :
    BlockContract decodeBc7Block (4 * 4) 16 (fun _ => True) Spec.Bc7.texel
      (fun b => b.length = 16) where
  init := by simp
  step := by
    rintro data buf hd _ hb
    obtain ⟨o, e, l, _, h⟩ := bc7_block hd (buf := buf) (by omega)
    exact ⟨o, e, by omega, by omega, h⟩

end Verif.Proofs
