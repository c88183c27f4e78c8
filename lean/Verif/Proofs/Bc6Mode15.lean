import Verif.Proofs.Bc6Laws
import Verif.Proofs.Loops

/-! # BC6H: mode-15 blocks in a build without overflow checks, and images that contain them -/

set_option linter.unusedSectionVars false

namespace Verif.Proofs

open Verif Verif.Model

/-- The mode-15 parameters. -/
def M15 : Spec.Bc6.Mode := ⟨true, 1, 16, 4, 4, 4⟩

/-- Reading a mode-15 block: the exact base endpoints. -/
theorem bc6Read_15_exact [Build] {data : List UInt8} (hd : 16 ≤ data.length) :
    ∃ ep, bc6Read data (bc6Stmts 15) 5 [0, 0, 0, 0, 0, 0, 0, 0, 0, 0, 0, 0] = .ok (65, ep) ∧
      ep.length = 12 ∧ (∀ c, c < 3 → ep[4 * c]? = some (Spec.Bc6.stored (data.take 16) 15 c 0) ∧
        Spec.Bc6.stored (data.take 16) 15 c 0 < 65536) ∧
      ∀ c, c < 3 → ∃ v, ep[4 * c + 1]? = some v ∧ v < 2 ^ 4 := by
  obtain ⟨ep, e, l, h⟩ := bc6Read_ok hd (bc6Stmts 15) 5
    [0, 0, 0, 0, 0, 0, 0, 0, 0, 0, 0, 0] (fun _ => 0) (fun j => if j % 4 = 0 then 16 else 4) rfl
    (by
      intro j hj
      exact (by decide : ∀ j, j < 12 → ([0, 0, 0, 0, 0, 0, 0, 0, 0, 0, 0, 0] : List Nat)[j]? = some 0) j hj)
    (by decide) (fun _ _ => Nat.zero_and _) (by decide +kernel) (fun _ => Nat.two_pow_pos _) (by decide)
    (by decide)
  rw [layout15] at e h
  have hst : ∀ c k, Spec.Bc6.collect (data.take 16) c k (Spec.Bc6.layout 15) 5 =
    Spec.Bc6.stored (data.take 16) 15 c k := fun _ _ => rfl
  simp only [Nat.zero_add, hst] at h
  refine ⟨ep, e, l, fun c hc => ?_, fun c hc => ?_⟩
  · have := h c 0 hc (by omega)
    simp only [show (4 * c + 0) % 4 = 0 by omega, if_true] at this
    exact this
  · have := h c 1 hc (by omega)
    simp only [show (4 * c + 1) % 4 = 1 by omega, Nat.one_ne_zero, if_false] at this
    exact ⟨_, this⟩

/-- Unquantisation does nothing to 16-bit endpoints. -/
theorem unquantize16 [Build] (v : Nat) (signed : Bool) : unquantize v signed 16 = .ok v := by
  unfold unquantize
  rw [subU_ok (by omega), Out.ok_bind, shlU_ok (by omega), Out.ok_bind]
  cases signed <;> rfl

theorem signExtend16 [Build] {v : Nat} (h : v < 65536) : signExtend v 16 = .ok v := by
  rw [signExtend_ok (by omega) (by omega) (by simpa using h)]
  unfold sx
  congr 1
  split <;> omega

/-- The endpoints when the mask is zero. -/
theorem endpoints15_masked [Build] (signed : Bool) {ep : List Nat} {e : Nat → Nat} {eb d : Nat}
    (hshl : shlU 16 1 eb = .ok 1) (hse : ∀ v, v < 65536 → signExtend v eb = .ok v)
    (hd : ∀ v, v < 2 ^ 4 → ∃ r, signExtend v d = .ok r) (hu : ∀ v, unquantize v signed eb = .ok v)
    (l : ep.length = 12) (h0 : ∀ c, c < 3 → ep[4 * c]? = some (e c) ∧ e c < 65536)
    (h1 : ∀ c, c < 3 → ∃ v, ep[4 * c + 1]? = some v ∧ v < 2 ^ 4) :
    ∃ ep', bc6Endpoints ⟨true, 0, eb, [d, d, d]⟩ signed ep = .ok ep' ∧
      ∀ c k, c < 3 → k < 2 * M15.ns → ep'[4 * c + k]? = some (if k = 0 then e c else 0) := by
  obtain ⟨a0, a1, a2, a3, b0, b1, b2, b3, c0, c1, c2, c3, rfl⟩ := list12 l
  obtain ⟨E0, L0⟩ := h0 0 (by omega)
  obtain ⟨E1, L1⟩ := h0 1 (by omega)
  obtain ⟨E2, L2⟩ := h0 2 (by omega)
  obtain ⟨_, F0, K0⟩ := h1 0 (by omega)
  obtain ⟨_, F1, K1⟩ := h1 1 (by omega)
  obtain ⟨_, F2, K2⟩ := h1 2 (by omega)
  have E0 := Option.some.inj E0
  have E1 := Option.some.inj E1
  have E2 := Option.some.inj E2
  have F0 := Option.some.inj F0
  have F1 := Option.some.inj F1
  have F2 := Option.some.inj F2
  subst F0 F1 F2
  rw [← E0] at L0
  rw [← E1] at L1
  rw [← E2] at L2
  have i0 : ∀ a b c : Nat, idx [a, b, c] 0 = .ok a := fun _ _ _ => rfl
  have i1 : ∀ a b c : Nat, idx [a, b, c] 1 = .ok b := fun _ _ _ => rfl
  have i2 : ∀ a b c : Nat, idx [a, b, c] 2 = .ok c := fun _ _ _ => rfl
  obtain ⟨s0, S0⟩ := hd _ K0
  obtain ⟨s1, S1⟩ := hd _ K1
  obtain ⟨s2, S2⟩ := hd _ K2
  have B0 := hse _ L0
  have B1 := hse _ L1
  have B2 := hse _ L2
  have Z := hse 0 (by omega)
  have hsub : subU 16 1 1 = .ok 0 := subU_ok (by omega)
  have hand : ∀ x y : Nat, asU 16 (x + y) &&& 0 = 0 := fun _ _ => Nat.and_zero _
  refine ⟨[a0, 0, a2, a3, b0, 0, b2, b3, c0, 0, c2, c3], ?_, ?_⟩
  · unfold bc6Endpoints
    cases signed <;>
    simp only [bc6Delta, forRange, Bool.false_eq_true, if_false, if_true, ne_eq, not_true,
      Nat.reduceMul, Nat.reduceSub, Nat.reduceAdd, mi0, mi1, mi4, mi5, mi8, mi9, ix0, ix4, ix8, i0, i1, i2,
      Out.ok_bind, Out.pure_eq, S0, S1, S2, B0, B1, B2, hshl, hsub, Bool.or_true, hand, Z, hu]
  · intro c k hc hk
    have hk2 : k < 2 := hk
    rcases (by omega : c = 0 ∨ c = 1 ∨ c = 2) with rfl | rfl | rfl <;>
    rcases (by omega : k = 0 ∨ k = 1) with rfl | rfl
    · exact congrArg some E0
    · rfl
    · exact congrArg some E1
    · rfl
    · exact congrArg some E2
    · rfl

/-- The endpoints of a mode-15 block in a build without overflow checks. -/
theorem endpoints15_release (signed : Bool) {ep : List Nat} {e : Nat → Nat} (l : ep.length = 12)
    (h0 : ∀ c, c < 3 → ep[4 * c]? = some (e c) ∧ e c < 65536)
    (h1 : ∀ c, c < 3 → ∃ v, ep[4 * c + 1]? = some v ∧ v < 2 ^ 4) :
    ∃ ep', @bc6Endpoints Build.release ⟨true, 0, 16, [4, 4, 4]⟩ signed ep = .ok ep' ∧
      ∀ c k, c < 3 → k < 2 * M15.ns → ep'[4 * c + k]? = some (if k = 0 then e c else 0) := by
  letI := Build.release
  exact endpoints15_masked signed (by simp [shlU]) (fun v hv => signExtend16 hv)
    (fun v hv => ⟨_, signExtend_ok (by omega) (by omega) hv⟩) (fun v => unquantize16 v signed) l h0 h1

theorem body15_release {data : List UInt8} (hd : 16 ≤ data.length) (signed : Bool) {buf : List UInt32}
    (hb : 16 ≤ buf.length) :
    ∃ o, @bc6Body Build.release data buf signed 15 5 = .ok o ∧ o.length = buf.length ∧
      (∀ i, 16 ≤ i → o[i]? = buf[i]?) ∧ ∀ i, i < 16 → o[i]? = some (
        let c ch := Spec.halfToByte (Spec.Bc6.channelMode15 signed (data.take 16) ch i)
        Spec.px (c 0) (c 1) (c 2) 255) := by
  letI := Build.release
  obtain ⟨ep, e, l, h0, h1⟩ := bc6Read_15_exact hd
  obtain ⟨ep', eE, hE⟩ := endpoints15_release signed l h0 h1
  have hinfo : idx bc6ModeInfo 15 = .ok ⟨true, 0, 16, [4, 4, 4]⟩ := rfl
  obtain ⟨f0, g0, _⟩ := factor_all 4 (by omega) (by omega) 0 (Nat.two_pow_pos _)
  have hf0 : ∀ k, k < 2 ^ 4 → idx f0 k = .ok (Spec.Bptc.weight 4 k) ∧
      Spec.Bptc.weight 4 k ≤ 64 := by
    intro k hk
    obtain ⟨f, g1, g2⟩ := factor_all 4 (by omega) (by omega) k hk
    rw [g0] at g1; injection g1 with g1; subst g1; exact g2
  obtain ⟨o, eo, lo, hr, ho⟩ := bc6_texels hd (mi := ⟨true, 0, 16, [4, 4, 4]⟩) (M := M15) rfl signed
    (p := 0) (pos := 65) (by omega) (by decide) hf0 hE
    (by
      intro c k hc _
      split
      · exact (h0 c hc).2
      · omega) hb
  refine ⟨o, ?_, lo, hr, ho⟩
  unfold bc6Body
  rw [e, Out.ok_bind]
  simp only
  rw [hinfo, Out.ok_bind, eE, Out.ok_bind]
  simp only [ne_eq, not_true, if_false, Out.pure_eq, Out.ok_bind]
  rw [subU_ok (by omega), Out.ok_bind, g0, Out.ok_bind, forRange_nested 4 4]
  have eo' : forRange (4 * 4) (fun i st => bc6Texel data ⟨true, 0, 16, [4, 4, 4]⟩ signed 0 4 f0 ep' i st)
    (65, buf) = .ok (128, o) := eo
  rw [eo']
  rfl

/-- Every block decodes in a build without overflow checks. -/
theorem bc6_block_release {data : List UInt8} (hd : 16 ≤ data.length) (signed : Bool)
    {buf : List UInt32} (hb : 16 ≤ buf.length) :
    ∃ o, @decodeBc6Block Build.release signed data buf = .ok o ∧ o.length = buf.length ∧
      (∀ i, 16 ≤ i → o[i]? = buf[i]?) ∧
      ∀ i, i < 16 → o[i]? = some (Spec.Bc6.texelUnchecked signed (data.take 16) i) := by
  letI := Build.release
  unfold Spec.Bc6.texelUnchecked
  by_cases h15 : Spec.Bc6.modeOf (data.take 16) = 15
  · simp only [h15, if_true]
    have l2 := field_lt (data.take 16) 0 2
    have l3 := field_lt (data.take 16) 2 3
    have hsplit : Spec.field (data.take 16) 0 5 =
        Spec.field (data.take 16) 0 2 + 4 * Spec.field (data.take 16) 2 3 := by
      unfold Spec.field; omega
    have hlt : ¬ Spec.field (data.take 16) 0 2 < 2 := by
      intro h; unfold Spec.Bc6.modeOf at h15; rw [if_pos h] at h15; omega
    have hm : Spec.field (data.take 16) 0 5 = 15 := by
      unfold Spec.Bc6.modeOf at h15; rw [if_neg hlt] at h15; exact h15
    have ha : asU 8 (Spec.field (data.take 16) 0 2) = Spec.field (data.take 16) 0 2 :=
      Nat.mod_eq_of_lt (by omega)
    have hand : Spec.field (data.take 16) 0 2 &&& 2 ≠ 0 ↔ ¬ Spec.field (data.take 16) 0 2 < 2 := by
      have key : ∀ x, x < 4 → (x &&& 2 ≠ 0 ↔ ¬ x < 2) := by decide
      exact key _ l2
    have hinfo : idx bc6ModeInfo 15 = .ok ⟨true, 0, 16, [4, 4, 4]⟩ := rfl
    unfold decodeBc6Block
    rw [readBits16 hd (by omega) (by omega), Out.ok_bind]
    simp only [Nat.zero_add, ha]
    rw [if_pos (by rw [hand]; exact hlt), readBits16 hd (by omega) (by omega), Out.ok_bind]
    simp only
    rw [shlU_ok (by omega), Out.ok_bind, mode_bits_or l2 l3, ← hsplit, hm, hinfo, Out.ok_bind,
      if_neg (by decide)]
    exact body15_release hd signed hb
  · simp only [h15, if_false]
    exact bc6_block hd signed h15 hb

theorem bc6_contract_release (signed : Bool) :
    BlockContract (@decodeBc6Block Build.release signed) (4 * 4) 16 (fun _ => True)
      (Spec.Bc6.texelUnchecked signed) (fun b => b.length = 16) where
  init := by simp
  step := by
    rintro data buf hd - hb
    obtain ⟨o, e, l, _, h⟩ := bc6_block_release hd signed (buf := buf) (by omega)
    exact ⟨o, e, by omega, by omega, h⟩

/-! ## Images with a block that panics -/

variable [Build]

/-- If a block function panics on the blocks that satisfy `Bad`, whatever the buffer and the bytes that
follow the block, then so does the decoder on every image with such a block. -/
theorem blockDecoder_panic_of {f : BlockFn} {bw bh raw : Nat} {Bad : List UInt8 → Prop}
    (hbw : 0 < bw) (hbh : 0 < bh) (hraw : 0 < raw)
    (hpan : ∀ data buf, raw ≤ data.length → Bad (data.take raw) → f data buf = .panic)
    {data : List UInt8} {w h : Nat} {image : List UInt32} (hs : Spec.SizesOk bw bh raw w h image)
    (hdata : Spec.bytesNeeded bw bh raw w h ≤ data.length) (himg : w * h ≤ image.length) {k : Nat}
    (hk : k < Spec.numBlocks bw bh w h) (hbad : Bad (Spec.blockBytes raw data k)) :
    blockDecoder bw bh raw f data w h image = .panic := by
  have hbf := hs.bytes_fit
  have hpf := hs.pixels_fit
  unfold Spec.bytesNeeded at hbf hdata
  unfold Spec.numBlocks at hbf hdata hk
  have hfit : Spec.ceilDiv w bw * Spec.ceilDiv h bh < 2 ^ 64 :=
    Nat.lt_of_le_of_lt (Nat.le_mul_of_pos_right _ hraw) hbf
  unfold blockDecoder
  rw [divCeil_ok (by omega), Out.ok_bind, divCeil_ok (by omega), Out.ok_bind]
  simp only
  rw [show (w + bw - 1) / bw = Spec.ceilDiv w bw from rfl, show (h + bh - 1) / bh = Spec.ceilDiv h bh from rfl,
    mulU_ok hfit, Out.ok_bind, mulU_ok hbf, Out.ok_bind, if_neg (by omega), mulU_ok hpf, Out.ok_bind,
    if_neg (by omega)]
  generalize hnx : Spec.ceilDiv w bw = nx at *
  generalize hny : Spec.ceilDiv h bh = ny at *
  generalize hL : forRange ny _ _ = L
  cases L with
  | panic => rfl
  | ok s =>
  exfalso
  have key : ∀ j, j < ny * nx → ¬ Bad (Spec.blockBytes raw data j) := by
    have := forRange_ok_inv' hL (P := fun y s => s.2.1 = y * nx * raw ∧
      ∀ j, j < y * nx → ¬ Bad (Spec.blockBytes raw data j)) (by simp) ?_
    · exact this.2
    · rintro y hy s s' ⟨P1, P2⟩ hs
      have hrow : (y + 1) * nx ≤ ny * nx := Nat.mul_le_mul_right nx hy
      rw [Nat.add_mul, Nat.one_mul] at hrow
      have := forRange_ok_inv' hs (P := fun x s => s.2.1 = (y * nx + x) * raw ∧
        ∀ j, j < y * nx + x → ¬ Bad (Spec.blockBytes raw data j)) (by simpa using ⟨P1, P2⟩) ?_
      · rw [Nat.add_mul, Nat.one_mul]; exact this
      · rintro x hx ⟨b, o, im⟩ s' ⟨Q1, Q2⟩ hs
        simp only at Q1 Q2 hs
        subst Q1
        have hj : (y * nx + x + 1) * raw ≤ nx * ny * raw :=
          Nat.mul_le_mul_right raw (by rw [Nat.mul_comm nx ny]; omega)
        have hj' := hj
        rw [Nat.add_mul, Nat.one_mul] at hj'
        obtain ⟨blk, e1, hs⟩ := Out.bind_eq_ok.mp hs
        obtain ⟨b', e2, hs⟩ := Out.bind_eq_ok.mp hs
        obtain ⟨im', e3, hs⟩ := Out.bind_eq_ok.mp hs
        obtain ⟨o', e4, hs⟩ := Out.bind_eq_ok.mp hs
        rw [sliceFrom_ok (by omega), Out.ok.injEq] at e1
        rw [addU_ok (by omega), Out.ok.injEq] at e4
        cases hs
        subst e1 e4
        refine ⟨by rw [← Nat.add_assoc, Nat.add_mul _ 1, Nat.one_mul], fun j hlt => ?_⟩
        rcases (by omega : j < y * nx + x ∨ j = y * nx + x) with hlt | rfl
        · exact Q2 j hlt
        · intro hB
          have := hpan (data.drop ((y * nx + x) * raw)) b (by rw [List.length_drop]; omega) hB
          rw [this] at e2
          cases e2
  exact key k (by rw [Nat.mul_comm]; exact hk) hbad

end Verif.Proofs
