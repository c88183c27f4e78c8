import Verif.Spec.StoreBc7
import Verif.Proofs.Store

/-! # Proofs: BC7 blocks of mode 6 that hold given gradients -/

namespace Verif.Proofs.Store

open Verif Verif.Spec

/-- The fields of seven bits and the P-bit of the first endpoint. -/
def six1 (E : Nat → Nat → Nat) (k : Nat) : Nat := if k = 8 then E 0 0 % 2 else E (k % 2) (k / 2) / 2 % 128

/-- The P-bit of the second endpoint and the indices. -/
def six2 (E : Nat → Nat → Nat) (step : Nat → Nat) (i : Nat) : Nat :=
  if i = 0 then E 1 0 % 2 + 2 * (step 0 % 8) else step i % 16

def sixHead (E : Nat → Nat → Nat) : Nat := 64 + 2 ^ 7 * digits 128 (six1 E) 9
def sixTail (E : Nat → Nat → Nat) (step : Nat → Nat) : Nat := digits 16 (six2 E step) 16

/-- A BC7 block of mode 6 with the endpoints `E j ch` and the indices `step i`. -/
def sixBlock (E : Nat → Nat → Nat) (step : Nat → Nat) : Nat := sixHead E + 2 ^ 64 * sixTail E step

section
variable (E : Nat → Nat → Nat) (step : Nat → Nat)

theorem six1_lt (k : Nat) : six1 E k < 128 := by
  unfold six1; split <;> omega

theorem six2_lt (i : Nat) : six2 E step i < 16 := by
  unfold six2; split <;> omega

theorem sixHead_lt : sixHead E < 2 ^ 64 := by
  have h := digits_lt (six1_lt E) 8
  have e : digits 128 (six1 E) 9 = digits 128 (six1 E) 8 + 128 ^ 8 * six1 E 8 := rfl
  have h8 : six1 E 8 = E 0 0 % 2 := rfl
  unfold sixHead
  rw [e, h8]
  generalize digits 128 (six1 E) 8 = D at h
  omega

theorem sixBlock_lt : sixBlock E step < 256 ^ 16 := by
  have h1 := sixHead_lt E
  have h2 : sixTail E step < 16 ^ 16 := digits_lt (six2_lt E step) 16
  unfold sixBlock
  omega

theorem six_head_field {pos n : Nat} (h : pos + n ≤ 64) :
    field (bytesLe 16 (sixBlock E step)) pos n = sixHead E / 2 ^ pos % 2 ^ n := by
  rw [field_bytesLe (sixBlock_lt E step)]
  unfold sixBlock
  rw [show (2 : Nat) ^ 64 = 2 ^ pos * (2 ^ n * 2 ^ (64 - n - pos)) by
      rw [← Nat.pow_add, ← Nat.pow_add]; congr 1; omega, Nat.mul_assoc,
      Nat.add_mul_div_left _ _ (Nat.two_pow_pos _), Nat.mul_assoc, Nat.add_mul_mod_self_left]

theorem six_tail_field (pos n : Nat) :
    field (bytesLe 16 (sixBlock E step)) (64 + pos) n = sixTail E step / 2 ^ pos % 2 ^ n := by
  rw [field_bytesLe (sixBlock_lt E step)]
  unfold sixBlock
  rw [Nat.pow_add, ← Nat.div_div_eq_div_mul, Nat.add_mul_div_left _ _ (Nat.two_pow_pos _),
    Nat.div_eq_of_lt (sixHead_lt E), Nat.zero_add]

theorem six_head_div (q : Nat) : sixHead E / 2 ^ (7 + q) = digits 128 (six1 E) 9 / 2 ^ q := by
  unfold sixHead
  rw [Nat.pow_add, ← Nat.div_div_eq_div_mul, Nat.add_mul_div_left _ _ (Nat.two_pow_pos _),
    Nat.div_eq_of_lt (a := 64) (by decide), Nat.zero_add]

theorem six_endpoint {k : Nat} (hk : k < 8) :
    field (bytesLe 16 (sixBlock E step)) (7 + 7 * k) 7 = E (k % 2) (k / 2) / 2 % 128 := by
  rw [six_head_field E step (by omega), six_head_div, Nat.pow_mul]
  have h := digits_get (six1_lt E) (n := 9) (i := k) (by omega)
  refine h.trans ?_
  unfold six1
  rw [if_neg (by omega)]

theorem six_pbit0 : field (bytesLe 16 (sixBlock E step)) 63 1 = E 0 0 % 2 := by
  rw [six_head_field E step (by omega), show 63 = 7 + 7 * 8 from rfl, six_head_div, Nat.pow_mul]
  have h := digits_get (six1_lt E) (n := 9) (i := 8) (by omega)
  have h8 : six1 E 8 = E 0 0 % 2 := rfl
  rw [h8] at h
  show digits 128 (six1 E) 9 / 128 ^ 8 % 2 = _
  generalize digits 128 (six1 E) 9 / 128 ^ 8 = X at h
  omega

theorem six_pbit1 : field (bytesLe 16 (sixBlock E step)) 64 1 = E 1 0 % 2 := by
  have e := six_tail_field E step 0 1
  rw [Nat.add_zero] at e
  rw [e, Nat.pow_zero, Nat.div_one]
  have h := digits_get (six2_lt E step) (n := 16) (i := 0) (by omega)
  have h0 : six2 E step 0 = E 1 0 % 2 + 2 * (step 0 % 8) := rfl
  rw [Nat.pow_zero, Nat.div_one, h0] at h
  unfold sixTail
  generalize digits 16 (six2 E step) 16 = X at h
  omega

theorem six_index0 : field (bytesLe 16 (sixBlock E step)) 65 3 = step 0 % 8 := by
  rw [show 65 = 64 + 1 from rfl, six_tail_field E step 1 3]
  have h := digits_get (six2_lt E step) (n := 16) (i := 0) (by omega)
  have h0 : six2 E step 0 = E 1 0 % 2 + 2 * (step 0 % 8) := rfl
  rw [Nat.pow_zero, Nat.div_one, h0] at h
  unfold sixTail
  generalize digits 16 (six2 E step) 16 = X at h
  omega

theorem six_index {i : Nat} (h0 : i ≠ 0) (hi : i < 16) :
    field (bytesLe 16 (sixBlock E step)) (64 + 4 * i) 4 = step i % 16 := by
  rw [six_tail_field, Nat.pow_mul]
  refine (digits_get (six2_lt E step) hi).trans ?_
  unfold six2
  rw [if_neg h0]

theorem six_mode : Bc7.modeOf (bytesLe 16 (sixBlock E step)) = some 6 := by
  have e : sixHead E % 2 ^ 7 = 64 := by unfold sixHead; omega
  have f : ∀ m, m < 7 → field (bytesLe 16 (sixBlock E step)) m 1 = 64 / 2 ^ m % 2 := by
    intro m hm
    rw [six_head_field E step (by omega)]
    generalize sixHead E = H at e
    match m, hm with
    | 0, _ | 1, _ | 2, _ | 3, _ | 4, _ | 5, _ | 6, _ => simp; omega
  have e8 : List.range 8 = [0, 1, 2, 3, 4, 5, 6, 7] := by decide
  unfold Bc7.modeOf
  rw [e8]
  simp [f 0 (by omega), f 1 (by omega), f 2 (by omega), f 3 (by omega), f 4 (by omega), f 5 (by omega),
    f 6 (by omega)]

end

/-- Mode 6. -/
def bc7Mode6 : Bc7.Mode := ⟨1, 0, 0, 0, 7, 7, 1, 0, 4, 0⟩

theorem bc7Mode6_get : Bc7.modes.getD 6 ⟨1, 0, 0, 0, 5, 0, 0, 0, 2, 0⟩ = bc7Mode6 := rfl

theorem bc7Mode6_positions (blk : List UInt8) :
    Bc7.partition blk 6 bc7Mode6 = 0 ∧ Bc7.rotation blk 6 bc7Mode6 = 0 ∧
    (∀ ch j, Bc7.colour blk 6 bc7Mode6 ch j =
      Bc7.replicateBits 8 (2 * field blk (7 + ch * 14 + j * 7) 7 + field blk (63 + j) 1)) ∧
    (∀ j, Bc7.alpha blk 6 bc7Mode6 j =
      Bc7.replicateBits 8 (2 * field blk (49 + j * 7) 7 + field blk (63 + j) 1)) ∧
    (∀ i, Bc7.index blk 6 bc7Mode6 0 i =
      field blk (65 + (i * 4 - Bptc.anchorsBefore 1 0 i)) (4 - (Bptc.isAnchor 1 0 i).toNat)) := by
  refine ⟨?_, ?_, fun ch j => ?_, fun j => ?_, fun i => ?_⟩
  · simp [Bc7.partition, bc7Mode6, field, Nat.mod_one]
  · simp [Bc7.rotation, bc7Mode6, field, Nat.mod_one]
  · simp [Bc7.colour, Bc7.withPBit, Bc7.pbitPos, Bc7.alphaPos, Bc7.colourPos, Bc7.selectionPos,
      Bc7.rotationPos, Bc7.partitionPos, bc7Mode6]
  · simp [Bc7.alpha, Bc7.withPBit, Bc7.pbitPos, Bc7.alphaPos, Bc7.colourPos, Bc7.selectionPos,
      Bc7.rotationPos, Bc7.partitionPos, bc7Mode6]
  · simp [Bc7.index, Bc7.indexPos, Bc7.pbitPos, Bc7.alphaPos, Bc7.colourPos, Bc7.selectionPos,
      Bc7.rotationPos, Bc7.partitionPos, bc7Mode6]

theorem six_anchor_table : ∀ i : Fin 16,
    Bptc.anchorsBefore 1 0 i = (if i.val = 0 then 0 else 1) ∧
    (Bptc.isAnchor 1 0 i).toNat = (if i.val = 0 then 1 else 0) ∧ Bptc.subset 1 0 i = 0 := by
  decide +kernel

theorem replicate8 {v : Nat} (h : v < 256) : Bc7.replicateBits 8 v = v := by
  unfold Bc7.replicateBits
  have : v / 2 ^ (2 * 8 - 8) = 0 := Nat.div_eq_of_lt h
  rw [this]
  omega

/-- A block of mode 6 shows the gradient between its endpoints. -/
theorem six_texel {E : Nat → Nat → Nat} {step : Nat → Nat} (hE : ∀ j ch, E j ch < 256)
    (hp : ∀ j ch, E j ch % 2 = E j 0 % 2) (h0 : step 0 < 8) (hs : ∀ i, step i < 16) {i : Nat} (hi : i < 16) :
    Bc7.texel (bytesLe 16 (sixBlock E step)) i =
      px (Bptc.interpolate (E 0 0) (E 1 0) (Bptc.weight 4 (step i)))
        (Bptc.interpolate (E 0 1) (E 1 1) (Bptc.weight 4 (step i)))
        (Bptc.interpolate (E 0 2) (E 1 2) (Bptc.weight 4 (step i)))
        (Bptc.interpolate (E 0 3) (E 1 3) (Bptc.weight 4 (step i))) := by
  have hep := fun k (hk : k < 8) => six_endpoint E step hk
  have p0 := six_pbit0 E step
  have p1 := six_pbit1 E step
  have i0 := six_index0 E step
  have ii := fun (h : i ≠ 0) => six_index E step h hi
  have hm := six_mode E step
  generalize bytesLe 16 (sixBlock E step) = blk at *
  obtain ⟨kp, kr, kc, ka, ki⟩ := bc7Mode6_positions blk
  obtain ⟨t1, t2, t3⟩ := six_anchor_table ⟨i, hi⟩
  simp only at t1 t2 t3
  have hidx : Bc7.index blk 6 bc7Mode6 0 i = step i := by
    rw [ki, t1, t2]
    by_cases h : i = 0
    · subst h
      rw [if_pos rfl, if_pos rfl]
      exact i0.trans (Nat.mod_eq_of_lt h0)
    · rw [if_neg h, if_neg h, show 65 + (i * 4 - 1) = 64 + 4 * i by omega]
      exact (ii h).trans (Nat.mod_eq_of_lt (hs i))
  have hw : Bc7.weights blk 6 bc7Mode6 i = (Bptc.weight 4 (step i), Bptc.weight 4 (step i)) := by
    unfold Bc7.weights
    simp only [kp, hidx]
    rfl
  have ends : ∀ ch, ch < 4 → ∀ j, j < 2 →
      Bc7.replicateBits 8 (2 * field blk (7 + ch * 14 + j * 7) 7 + field blk (63 + j) 1) = E j ch := by
    intro ch hc j hj
    have h1 := hep (2 * ch + j) (by omega)
    rw [show 7 + 7 * (2 * ch + j) = 7 + ch * 14 + j * 7 by omega, show (2 * ch + j) % 2 = j by omega,
      show (2 * ch + j) / 2 = ch by omega] at h1
    have h2 : field blk (63 + j) 1 = E j 0 % 2 := by
      rcases (by omega : j = 0 ∨ j = 1) with rfl | rfl
      · exact p0
      · exact p1
    have h3 := hE j ch
    have h4 := hp j ch
    have e : 2 * field blk (7 + ch * 14 + j * 7) 7 + field blk (63 + j) 1 = E j ch := by
      rw [h1, h2]; omega
    rw [e, replicate8 h3]
  unfold Bc7.texel
  rw [hm]
  simp only [bc7Mode6_get]
  unfold Bc7.modeTexel
  have a0 := ends 3 (by omega) 0 (by omega)
  have a1 := ends 3 (by omega) 1 (by omega)
  simp only [Nat.reduceMul, Nat.reduceAdd, Nat.add_zero] at a0 a1
  have ka0 := ka 0
  have ka1 := ka 1
  simp only [Nat.reduceMul, Nat.reduceAdd, Nat.add_zero] at ka0 ka1
  rw [kp, hw, kr, show bc7Mode6.ns = 1 from rfl, t3]
  simp only [Nat.mul_zero, Nat.zero_add, ka0, ka1, a0, a1]
  rw [kc 0 0, kc 0 1, kc 1 0, kc 1 1, kc 2 0, kc 2 1]
  rw [ends 0 (by omega) 0 (by omega), ends 0 (by omega) 1 (by omega), ends 1 (by omega) 0 (by omega),
    ends 1 (by omega) 1 (by omega), ends 2 (by omega) 0 (by omega), ends 2 (by omega) 1 (by omega)]

theorem weight4_table : ∀ k : Fin 16,
    Bptc.weight 4 (15 - k) = 64 - Bptc.weight 4 k ∧ Bptc.weight 4 k ≤ 64 := by decide

theorem interpolate_swap {a b k : Nat} (hk : k < 16) :
    Bptc.interpolate b a (Bptc.weight 4 (15 - k)) = Bptc.interpolate a b (Bptc.weight 4 k) := by
  obtain ⟨h1, h2⟩ := weight4_table ⟨k, hk⟩
  simp only at h1 h2
  unfold Bptc.interpolate
  rw [h1, Nat.sub_sub_self h2, Nat.add_comm (b * _)]

/-- Channel `ch` of a colour. -/
def channelOf (p : UInt32) (ch : Nat) : Nat :=
  if ch = 0 then red p else if ch = 1 then green p else if ch = 2 then blue p else alpha p

theorem channelOf_lt (p : UInt32) (ch : Nat) : channelOf p ch < 256 := by
  have := p.toNat_lt
  unfold channelOf Spec.red Spec.green Spec.blue Spec.alpha
  split
  · omega
  · split
    · omega
    · split <;> omega

theorem channelOf_parity {p : UInt32} (h : SameParity p) (ch : Nat) :
    channelOf p ch % 2 = channelOf p 0 % 2 := by
  obtain ⟨h1, h2, h3⟩ := h
  unfold channelOf
  rw [if_pos rfl]
  split
  · rfl
  · split
    · exact h1
    · split
      · exact h2
      · exact h3

/-- The endpoints and the indices of the block; the first index must be below 8. -/
def gradEnds (c : Bool → UInt32) (flip : Bool) (j ch : Nat) : Nat := channelOf (c (flip ^^ (j == 1))) ch
def gradSteps (step : Nat → Nat) (flip : Bool) (i : Nat) : Nat := if flip then 15 - step i else step i

/-- A BC7 block with the gradient between two colours. -/
def gradBlock (c : Bool → UInt32) (step : Nat → Nat) : List UInt8 :=
  bytesLe 16 (sixBlock (gradEnds c (decide (8 ≤ step 0))) (gradSteps step (decide (8 ≤ step 0))))

theorem gradBlock_texel {c : Bool → UInt32} {step : Nat → Nat} (hc : ∀ b, SameParity (c b))
    (hs : ∀ i, step i < 16) {i : Nat} (hi : i < 16) :
    Bc7.texel (gradBlock c step) i = mixed (c false) (c true) (Bptc.weight 4 (step i)) := by
  unfold gradBlock
  generalize hf : decide (8 ≤ step 0) = flip
  rw [six_texel (E := gradEnds c flip) (fun j ch => channelOf_lt _ ch) (fun j ch => channelOf_parity (hc _) ch) ?_ ?_ hi]
  · unfold mixed
    cases flip with
    | false => rfl
    | true =>
      simp only [gradSteps, if_true]
      show px (Bptc.interpolate (red (c true)) (red (c false)) _) _ _ _ = _
      show px (Bptc.interpolate (red (c true)) (red (c false)) _)
        (Bptc.interpolate (green (c true)) (green (c false)) _)
        (Bptc.interpolate (blue (c true)) (blue (c false)) _)
        (Bptc.interpolate (Spec.alpha (c true)) (Spec.alpha (c false)) _) = _
      rw [interpolate_swap (hs i), interpolate_swap (hs i), interpolate_swap (hs i), interpolate_swap (hs i)]
  · have := hs 0
    unfold gradSteps
    cases flip with
    | false => have := of_decide_eq_false hf; simp; omega
    | true => have := of_decide_eq_true hf; simp; omega
  · intro i
    have := hs i
    unfold gradSteps
    split <;> omega

/-- A colour with all channels made even. -/
def evenColour (p : UInt32) : UInt32 :=
  px (red p / 2 * 2) (green p / 2 * 2) (blue p / 2 * 2) (alpha p / 2 * 2)

theorem evenColour_channels (p : UInt32) :
    red (evenColour p) = red p / 2 * 2 ∧ green (evenColour p) = green p / 2 * 2 ∧
    blue (evenColour p) = blue p / 2 * 2 ∧ alpha (evenColour p) = alpha p / 2 * 2 := by
  have h := p.toNat_lt
  have h1 : red p / 2 * 2 < 256 := by unfold red; omega
  have h2 : green p / 2 * 2 < 256 := by unfold green; omega
  have h3 : blue p / 2 * 2 < 256 := by unfold blue; omega
  have h4 : alpha p / 2 * 2 < 256 := by unfold alpha; omega
  unfold evenColour
  exact ⟨red_px h1 h2 h3 h4, green_px h1 h2 h3 h4, blue_px h1 h2 h3 h4, alpha_px h1 h2 h3 h4⟩

end Verif.Proofs.Store
