import Verif.Proofs.ImageLaws

/-!
# Properties C19 – C21 (BC7) and C45 (bit reads)
-/

namespace Verif.Props

open Verif Verif.Proofs

variable [Build]

/-- **C19** `decode_bc7_block` on any block (16 bytes, more are ignored) and any output of at least 16
pixels returns normally, writes the first 16 pixels and nothing else. -/
theorem C19_bc7_block_total (data : List UInt8) (out : List UInt32) (hd : 16 ≤ data.length)
    (ho : 16 ≤ out.length) :
    ∃ out', Model.decodeBc7Block data out = .ok out' ∧ out'.length = out.length ∧
      ∀ i, 16 ≤ i → out'[i]? = out[i]? := by
  obtain ⟨o, e, l, r, _⟩ := bc7_block hd ho
  exact ⟨o, e, l, r⟩

/-- **C19** The result depends only on the first 16 bytes. -/
theorem C19_bc7_only_16_bytes (block extra1 extra2 : List UInt8) (out : List UInt32)
    (hb : block.length = 16) (ho : 16 ≤ out.length) :
    Model.decodeBc7Block (block ++ extra1) out = Model.decodeBc7Block (block ++ extra2) out := by
  obtain ⟨o1, e1, l1, r1, h1⟩ := bc7_block (data := block ++ extra1) (by simp; omega) ho
  obtain ⟨o2, e2, l2, r2, h2⟩ := bc7_block (data := block ++ extra2) (by simp; omega) ho
  rw [e1, e2]
  congr 1
  apply List.ext_getElem?
  intro i
  by_cases hi : i < 16
  · rw [h1 i hi, h2 i hi, ← hb, List.take_left, List.take_left]
  · rw [r1 i (by omega), r2 i (by omega)]

/-- **C20** A block whose first byte is 0 decodes to sixteen zero words. -/
theorem C20_bc7_reserved (rest : List UInt8) (out : List UInt32) (hr : 15 ≤ rest.length)
    (ho : out.length = 16) :
    Model.decodeBc7Block (0 :: rest) out = .ok (List.replicate 16 0) := by
  obtain ⟨o, e, l, _, h⟩ := bc7_block (data := 0 :: rest) (buf := out) (by simp; omega) (by omega)
  rw [e]
  congr 1
  apply List.ext_getElem?
  intro i
  by_cases hi : i < 16
  · rw [h i hi, List.getElem?_replicate, if_pos hi]
    have hn : Spec.Bc7.modeOf ((0 :: rest).take 16) = none := by
      unfold Spec.Bc7.modeOf
      rw [List.find?_eq_none]
      intro m hm
      have hm : m < 8 := by simpa using hm
      unfold Spec.field
      rw [show (0 :: rest).take 16 = 0 :: rest.take 15 from rfl]
      simp only [Spec.leNat]
      rw [show (256 : Nat) = 2 ^ m * (2 * 2 ^ (7 - m)) by
        rw [← Nat.mul_assoc, Nat.mul_comm (2 ^ m) 2, ← Nat.pow_succ', ← Nat.pow_add,
          show m + 1 + (7 - m) = 8 by omega]]
      rw [UInt8.toNat_zero, Nat.zero_add, Nat.mul_assoc, Nat.mul_div_cancel_left _ (Nat.two_pow_pos m),
        Nat.mul_assoc, Nat.pow_one, Nat.mul_mod_right]
      decide
    unfold Spec.Bc7.texel
    rw [hn]
    rfl
  · rw [List.getElem?_eq_none (by omega), List.getElem?_eq_none (by simp; omega)]

example : ∃ o, Model.decodeBc7Block (List.replicate 16 0x5a) (List.replicate 20 7) = .ok o ∧
    o[17]? = some 7 := by
  obtain ⟨o, e, _, r⟩ := C19_bc7_block_total (List.replicate 16 0x5a) (List.replicate 20 7)
    (by decide) (by decide)
  exact ⟨o, e, (r 17 (by decide)).trans (by decide)⟩

example : (0 :: List.replicate 15 255 : List UInt8).length = 16 := by decide

/-- **C21** `decode_bc7` decodes exactly the BPTC colours. -/
theorem C21_bc7 : Spec.Decodes Model.decodeBc7 4 4 16 Spec.Bc7.texel :=
  decoder_spec .bc7

/-- **C21** Modes 0 to 3 are opaque. -/
theorem C21_bc7_opaque (data : List UInt8) (w h : Nat) (image out : List UInt32)
    (hs : Spec.SizesOk 4 4 16 w h image)
    (hok : Model.decodeBc7 data w h image = .ok (.ok (), out))
    (x y : Nat) (hx : x < w) (hy : y < h) :
    let blk := (data.drop ((y / 4 * ((w + 3) / 4) + x / 4) * 16)).take 16
    ∃ p, out[y * w + x]? = some p ∧
      (Spec.Bc7.modeOf blk = some 0 ∨ Spec.Bc7.modeOf blk = some 1 ∨ Spec.Bc7.modeOf blk = some 2 ∨
        Spec.Bc7.modeOf blk = some 3 → Spec.alpha p = 255) := by
  intro blk
  obtain ⟨_, _, d⟩ := ok_inv (fmt := .bc7) hs (fun _ _ => trivial) hok
  refine ⟨_, d.pixel x y hx hy, ?_⟩
  change _ → Spec.alpha (Spec.Bc7.texel blk (y % 4 * 4 + x % 4)) = 255
  generalize y % 4 * 4 + x % 4 = i
  have key : ∀ m M, M.ab = 0 → M.rb = 0 → M.ib2 = 0 →
      (Spec.Bc7.weights blk m M i).2 ≤ 64 →
      (∀ ch j, Spec.Bc7.colour blk m M ch j < 256) →
      Spec.alpha (Spec.Bc7.modeTexel blk m M i) = 255 := by
    intro m M h1 h2 h3 hw hc
    unfold Spec.Bc7.modeTexel
    have hrot : Spec.Bc7.rotation blk m M = 0 := by
      unfold Spec.Bc7.rotation
      rw [h2]
      have := field_lt blk (Spec.Bc7.rotationPos m M) 0
      omega
    have ha : ∀ j, Spec.Bc7.alpha blk m M j = 255 := by
      intro j; unfold Spec.Bc7.alpha; rw [if_pos h1]
    have hi : ∀ a b w, a < 256 → b < 256 → w ≤ 64 → Spec.Bptc.interpolate a b w < 256 := by
      intro a b w ha hb hw
      unfold Spec.Bptc.interpolate
      have k1 : a * (64 - w) ≤ 255 * (64 - w) := Nat.mul_le_mul_right _ (by omega)
      have k2 : b * w ≤ 255 * w := Nat.mul_le_mul_right _ (by omega)
      omega
    have hw1 : (Spec.Bc7.weights blk m M i).1 ≤ 64 := by
      have : (Spec.Bc7.weights blk m M i).1 = (Spec.Bc7.weights blk m M i).2 := by
        unfold Spec.Bc7.weights; simp only [h3, if_true]
      omega
    simp only [hrot, ha]
    rw [alpha_px (hi _ _ _ (hc _ _) (hc _ _) hw1) (hi _ _ _ (hc _ _) (hc _ _) hw1)
      (hi _ _ _ (hc _ _) (hc _ _) hw1) (hi _ _ _ (by omega) (by omega) hw)]
    unfold Spec.Bptc.interpolate
    have k : 255 * (64 - (Spec.Bc7.weights blk m M i).2) + 255 * (Spec.Bc7.weights blk m M i).2 =
      255 * 64 := by omega
    rw [k]
  intro hm
  have hmode : ∃ m, m < 4 ∧ Spec.Bc7.modeOf blk = some m := by
    rcases hm with h | h | h | h
    · exact ⟨0, by omega, h⟩
    · exact ⟨1, by omega, h⟩
    · exact ⟨2, by omega, h⟩
    · exact ⟨3, by omega, h⟩
  obtain ⟨m, hm4, hm⟩ := hmode
  unfold Spec.Bc7.texel
  rw [hm]
  simp only
  obtain ⟨M, _, F, hspec⟩ := modeFacts (m := m) (by omega)
  have hz : M.alpha_bits = 0 ∧ M.rotation_bits = 0 ∧ M.index_bits1 = 0 := by
    have h0 := hspec ⟨1, 0, 0, 0, 5, 0, 0, 0, 2, 0⟩
    have e1 : (toMode M).ab = M.alpha_bits := rfl
    have e2 : (toMode M).rb = M.rotation_bits := rfl
    have e3 : (toMode M).ib2 = M.index_bits1 := rfl
    rw [← e1, ← e2, ← e3, ← h0]
    rcases (by omega : m = 0 ∨ m = 1 ∨ m = 2 ∨ m = 3) with rfl | rfl | rfl | rfl <;> decide
  rw [hspec]
  refine key m (toMode M) hz.1 hz.2.1 hz.2.2 ?_ ?_
  · unfold Spec.Bc7.weights
    have : (toMode M).ib2 = 0 := hz.2.2
    simp only [this, if_true]
    have hn := F.ib2
    have hk : Spec.Bc7.index blk m (toMode M) (Spec.Bc7.partition blk m (toMode M)) i <
        2 ^ M.index_bits0 := by
      unfold Spec.Bc7.index
      exact Nat.lt_of_lt_of_le (field_lt _ _ _)
        (Nat.pow_le_pow_right (by omega) (Nat.sub_le _ _))
    obtain ⟨_, _, _, h⟩ := factor_all M.index_bits0 F.ib4 F.ib2 _ hk
    exact h
  · intro ch j
    unfold Spec.Bc7.colour
    refine (expandQuantized_ok F.cb4 F.cb8 ?_).2
    have hle : blk.length ≤ 16 := List.length_take_le _ _
    have hb : blk = blk.take 16 := by rw [List.take_of_length_le hle]
    rw [hb, Nat.add_assoc]
    exact withPBit_lt F.pbits (field_lt _ _ _)

/-- A mode-6 block (mode bit 6, one subset, P-bits): red endpoints 0 and 127 with P-bits 0 and 1, so
0 and 255; the other channels 0 / 1. Texel 0 has index 0, texel 1 has index 15. -/
def bc7Demo : List UInt8 :=
  [0x40, 0xc0, 0x1f, 0, 0, 0, 0, 0, 0xf1, 0x00, 0, 0, 0, 0, 0, 0]

example : Spec.Bc7.modeOf bc7Demo = some 6 := by decide

example : Spec.Bc7.texel bc7Demo 0 = Spec.px 0 0 0 0 ∧ Spec.Bc7.texel bc7Demo 1 = Spec.px 255 1 1 1 := by
  decide +kernel

example : ∃ o, Model.decodeBc7 bc7Demo 2 1 [0, 0] = .ok (.ok (), o) ∧
    o[0]? = some (Spec.Bc7.texel bc7Demo 0) ∧ o[1]? = some (Spec.Bc7.texel bc7Demo 1) := by
  obtain ⟨o, e, d⟩ := C21_bc7.success bc7Demo 2 1 [0, 0] ⟨by decide, by decide, by decide⟩
    (by decide) (by decide) (fun _ _ => trivial)
  exact ⟨o, e, d.pixel 0 0 (by decide) (by decide), d.pixel 1 0 (by decide) (by decide)⟩

/-- **C45** The sequential reader (BC6H, BC7): `read(n)` at position `pos` yields the `n` bits at
`pos` of the little-endian bit stream and moves to `pos + n`. -/
theorem C45_read (data : List UInt8) (pos n : Nat) (h : pos + n ≤ 8 * data.length) (hn : n ≤ 15)
    (hlen : 8 * data.length < 2 ^ 64) :
    Model.readBits data pos n = .ok (Spec.leNat data / 2 ^ pos % 2 ^ n, pos + n) :=
  readBits_ok h hn (by omega)

/-- **C45** Two consecutive reads are one read of the concatenated bits. -/
theorem C45_consecutive (data : List UInt8) (pos n1 n2 v1 v2 p1 p2 : Nat)
    (h : pos + n1 + n2 ≤ 8 * data.length) (hn : n1 + n2 ≤ 15) (hlen : 8 * data.length < 2 ^ 64)
    (h1 : Model.readBits data pos n1 = .ok (v1, p1)) (h2 : Model.readBits data p1 n2 = .ok (v2, p2)) :
    Model.readBits data pos (n1 + n2) = .ok (v1 + 2 ^ n1 * v2, p2) := by
  rw [readBits_ok (by omega) (by omega) (by omega), Out.ok.injEq, Prod.mk.injEq] at h1
  obtain ⟨rfl, rfl⟩ := h1
  rw [readBits_ok (by omega) (by omega) (by omega), Out.ok.injEq, Prod.mk.injEq] at h2
  obtain ⟨rfl, rfl⟩ := h2
  rw [readBits_ok (by omega) (by omega) (by omega), Nat.pow_add, Nat.mod_mul, Nat.div_div_eq_div_mul,
    ← Nat.pow_add, Nat.add_assoc]

/-- **C45** `getbits` (ASTC): up to 30 bits within four bytes. -/
theorem C45_getbits (data : List UInt8) (pos n : Nat) (h : pos + n ≤ 8 * data.length)
    (hn : pos % 8 + n ≤ 32) (hn30 : n ≤ 30) (hlen : 8 * data.length < 2 ^ 64) :
    Model.getbits data pos n = .ok ((Spec.leNat data / 2 ^ pos % 2 ^ n : Nat) : Int) :=
  getbits_ok h hn hn30 (by omega)

/-- **C45** `getbits64` (ASTC): up to 64 bits of a 16-byte block; bits past the block read as 0. -/
theorem C45_getbits64 (data : List UInt8) (pos n : Nat) (hd : data.length = 16) (hp : pos < 128)
    (hn : n ≤ 64) :
    Model.getbits64 data (pos : Int) n = .ok (Spec.leNat data / 2 ^ pos % 2 ^ n) := by
  rw [getbits64_ok (by omega) hp hn, Spec.field, ← hd, List.take_length]

example : Model.readBits [0xf0, 0x0a] 4 8 = .ok (0xaf, 12) :=
  C45_read [0xf0, 0x0a] 4 8 (by decide) (by decide) (by decide)

example : Model.getbits64 (List.replicate 16 0x12) 60 12 = .ok 0x121 :=
  C45_getbits64 (List.replicate 16 0x12) 60 12 (by decide) (by decide) (by decide)

end Verif.Props
