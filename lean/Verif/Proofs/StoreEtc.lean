import Verif.Spec.Gradient
import Verif.Proofs.Store

/-! # Proofs: ETC, EAC and ATC blocks that hold given texels -/

namespace Verif.Proofs.Store

open Verif Verif.Spec

/-- The number made of fields with the given widths and values, the first one lowest. -/
def pack : List Nat → List Nat → Nat
  | n :: ns, v :: vs => v % 2 ^ n + 2 ^ n * pack ns vs
  | _, _ => 0

theorem pack_lt (ns vs : List Nat) : pack ns vs < 2 ^ ns.sum := by
  induction ns generalizing vs with
  | nil => simp [pack]
  | cons n ns ih =>
    cases vs with
    | nil => exact Nat.two_pow_pos _
    | cons v vs =>
      have ih := ih vs
      simp only [pack, List.sum_cons, Nat.pow_add]
      have h1 := Nat.mod_lt v (Nat.two_pow_pos n)
      have h2 := Nat.mul_le_mul_left (2 ^ n) (Nat.le_sub_one_of_lt ih)
      rw [Nat.mul_sub_one] at h2
      have : 2 ^ n ≤ 2 ^ n * 2 ^ ns.sum := Nat.le_mul_of_pos_right _ (Nat.two_pow_pos _)
      omega

theorem pack_take_drop (ns vs : List Nat) (h : ns.length = vs.length) (i : Nat) :
    pack ns vs = pack (ns.take i) (vs.take i) + 2 ^ (ns.take i).sum * pack (ns.drop i) (vs.drop i) := by
  induction i generalizing ns vs with
  | zero => simp [pack]
  | succ i ih =>
    match ns, vs, h with
    | [], [], _ => simp [pack]
    | n :: ns, v :: vs, h =>
      have := ih ns vs (by simpa using h)
      simp only [pack, List.take_succ_cons, List.drop_succ_cons, List.sum_cons, Nat.pow_add]
      rw [this, Nat.mul_add, Nat.mul_assoc, Nat.add_assoc]

/-- A part of the fields. -/
theorem pack_mid (ns vs : List Nat) (h : ns.length = vs.length) (i k : Nat) {p n : Nat}
    (hp : (ns.take i).sum = p) (hn : ((ns.drop i).take k).sum = n) :
    pack ns vs / 2 ^ p % 2 ^ n = pack ((ns.drop i).take k) ((vs.drop i).take k) := by
  subst hp hn
  rw [pack_take_drop ns vs h i, Nat.add_mul_div_left _ _ (Nat.two_pow_pos _),
    Nat.div_eq_of_lt (pack_lt _ _), Nat.zero_add,
    pack_take_drop (ns.drop i) (vs.drop i) (by rw [List.length_drop, List.length_drop, h]) k,
    Nat.add_mul_mod_self_left, Nat.mod_eq_of_lt (pack_lt _ _)]

/-- The block of 8 bytes with the given fields, the lowest bits last. -/
def bigBlock (ns vs : List Nat) : List UInt8 := (bytesLe 8 (pack ns vs)).reverse

theorem bigBlock_length (ns vs : List Nat) : (bigBlock ns vs).length = 8 := by
  unfold bigBlock; rw [List.length_reverse, bytesLe_length]

theorem beNat_bigBlock {ns : List Nat} (h : ns.sum = 64) (vs : List Nat) :
    beNat (bigBlock ns vs) = pack ns vs := by
  unfold beNat bigBlock
  rw [List.reverse_reverse]
  exact leNat_bytesLe _ _ (by have := pack_lt ns vs; rw [h] at this; exact this)

/-- Bits `hi` to `lo` of a block are `k` fields from field `i` on. -/
theorem bits_at {ns : List Nat} (vs : List Nat) (h : ns.sum = 64) (hl : ns.length = vs.length)
    (hi lo i k : Nat) (hlo : (ns.take i).sum = lo) (hhi : ((ns.drop i).take k).sum = hi + 1 - lo) :
    Etc.bits (bigBlock ns vs) hi lo = pack ((ns.drop i).take k) ((vs.drop i).take k) := by
  unfold Etc.bits
  rw [beNat_bigBlock h]
  exact pack_mid ns vs hl i k hlo hhi

/-! ## Planar blocks -/

/-- The fields of a planar block. -/
def planarWidths : List Nat := [6, 7, 6, 6, 7, 1, 1, 5, 1, 2, 1, 2, 3, 1, 2, 4, 1, 1, 2, 4, 1]
def planarFields (o r b : Nat → Nat) : List Nat :=
  [b 2, b 1, b 0, r 2, r 1, r 0, 1, r 0 / 2,
   o 2, o 2 / 2, if o 2 / 8 % 4 + o 2 / 2 % 4 < 4 then 1 else 0, o 2 / 8,
   if o 2 / 8 % 4 + o 2 / 2 % 4 < 4 then 0 else 7, o 2 / 32,
   o 1, o 1 / 4, o 1 / 2, o 1 / 64, o 0, o 0 / 4, o 0 / 2]

def planarBig (o r b : Nat → Nat) : List UInt8 := bigBlock planarWidths (planarFields o r b)

section
variable {o r b : Nat → Nat} (ho : Is676 o) (hr : Is676 r) (hb : Is676 b)

section
variable (o r b)

theorem planar_bits (hi lo i k : Nat) (hlo : (planarWidths.take i).sum = lo)
    (hhi : ((planarWidths.drop i).take k).sum = hi + 1 - lo) :
    Etc.bits (planarBig o r b) hi lo =
      pack ((planarWidths.drop i).take k) (((planarFields o r b).drop i).take k) :=
  bits_at _ (by decide) (by rfl) hi lo i k hlo hhi

end

theorem planar_diff : Etc.diffBit (planarBig o r b) = true := by
  unfold Etc.diffBit
  rw [planar_bits o r b 33 33 6 1 (by decide) (by decide)]; rfl

include ho

theorem planar_red : ¬ Etc.overflows (planarBig o r b) 0 := by
  obtain ⟨h0, h1, h2⟩ := ho
  unfold Etc.overflows Etc.diffSum Etc.signed3
  rw [planar_bits o r b (63 - 8 * 0) (59 - 8 * 0) 19 2 (by decide) (by decide),
    planar_bits o r b (58 - 8 * 0) (56 - 8 * 0) 17 2 (by decide) (by decide)]
  simp only [planarFields, planarWidths, List.drop, List.take, pack]
  split <;> omega

theorem planar_green : ¬ Etc.overflows (planarBig o r b) 1 := by
  obtain ⟨h0, h1, h2⟩ := ho
  unfold Etc.overflows Etc.diffSum Etc.signed3
  rw [planar_bits o r b (63 - 8 * 1) (59 - 8 * 1) 15 2 (by decide) (by decide),
    planar_bits o r b (58 - 8 * 1) (56 - 8 * 1) 13 2 (by decide) (by decide)]
  simp only [planarFields, planarWidths, List.drop, List.take, pack]
  split <;> omega

theorem planar_blue : Etc.overflows (planarBig o r b) 2 := by
  obtain ⟨h0, h1, h2⟩ := ho
  unfold Etc.overflows Etc.diffSum Etc.signed3
  rw [planar_bits o r b (63 - 8 * 2) (59 - 8 * 2) 11 2 (by decide) (by decide),
    planar_bits o r b (58 - 8 * 2) (56 - 8 * 2) 9 2 (by decide) (by decide)]
  simp only [planarFields, planarWidths, List.drop, List.take, pack]
  by_cases h : o 2 / 8 % 4 + o 2 / 2 % 4 < 4
  · rw [if_pos h, if_pos h]; split <;> omega
  · rw [if_neg h, if_neg h]; split <;> omega

theorem planar_mode : Etc.mode true (planarBig o r b) = .planar := by
  unfold Etc.mode
  rw [if_neg (by decide), if_neg (planar_red ho), if_neg (planar_green ho), if_pos (planar_blue ho)]

theorem planar_o {ch : Nat} (hch : ch < 3) :
    Etc.planarO (planarBig o r b) ch = widen676 o ch := by
  obtain ⟨h0, h1, h2⟩ := ho
  unfold Etc.planarO widen676
  match ch, hch with
  | 0, _ =>
    rw [if_pos rfl, if_neg (by decide), planar_bits o r b 62 57 18 2 (by decide) (by decide)]
    simp only [planarFields, planarWidths, List.drop, List.take, pack]
    congr 1; omega
  | 1, _ =>
    rw [if_neg (by decide), if_pos rfl, if_pos rfl, planar_bits o r b 56 56 17 1 (by decide) (by decide),
      planar_bits o r b 54 49 14 2 (by decide) (by decide)]
    simp only [planarFields, planarWidths, List.drop, List.take, pack]
    congr 1; omega
  | 2, _ =>
    rw [if_neg (by decide), if_neg (by decide), if_neg (by decide), planar_bits o r b 48 48 13 1 (by decide) (by decide),
      planar_bits o r b 44 43 11 1 (by decide) (by decide), planar_bits o r b 41 39 8 2 (by decide) (by decide)]
    simp only [planarFields, planarWidths, List.drop, List.take, pack]
    congr 1; omega

omit ho
include hr

theorem planar_h {ch : Nat} (hch : ch < 3) :
    Etc.planarH (planarBig o r b) ch = widen676 r ch := by
  obtain ⟨h0, h1, h2⟩ := hr
  unfold Etc.planarH widen676
  match ch, hch with
  | 0, _ =>
    rw [if_pos rfl, if_neg (by decide), planar_bits o r b 38 34 7 1 (by decide) (by decide), planar_bits o r b 32 32 5 1 (by decide) (by decide)]
    simp only [planarFields, planarWidths, List.drop, List.take, pack]
    congr 1; omega
  | 1, _ =>
    rw [if_neg (by decide), if_pos rfl, if_pos rfl, planar_bits o r b 31 25 4 1 (by decide) (by decide)]
    simp only [planarFields, planarWidths, List.drop, List.take, pack]
    congr 1; omega
  | 2, _ =>
    rw [if_neg (by decide), if_neg (by decide), if_neg (by decide), planar_bits o r b 24 19 3 1 (by decide) (by decide)]
    simp only [planarFields, planarWidths, List.drop, List.take, pack]
    congr 1; omega

omit hr
include hb

theorem planar_v {ch : Nat} (hch : ch < 3) :
    Etc.planarV (planarBig o r b) ch = widen676 b ch := by
  obtain ⟨h0, h1, h2⟩ := hb
  unfold Etc.planarV widen676
  match ch, hch with
  | 0, _ =>
    rw [if_pos rfl, if_neg (by decide), planar_bits o r b 18 13 2 1 (by decide) (by decide)]
    simp only [planarFields, planarWidths, List.drop, List.take, pack]
    congr 1; omega
  | 1, _ =>
    rw [if_neg (by decide), if_pos rfl, if_pos rfl, planar_bits o r b 12 6 1 1 (by decide) (by decide)]
    simp only [planarFields, planarWidths, List.drop, List.take, pack]
    congr 1; omega
  | 2, _ =>
    rw [if_neg (by decide), if_neg (by decide), if_neg (by decide), planar_bits o r b 5 0 0 1 (by decide) (by decide)]
    simp only [planarFields, planarWidths, List.drop, List.take, pack]
    congr 1; omega

end

/-- A planar block with the given gradient. -/
def planarBlock (c : Nat → Nat → Nat) : List UInt8 := planarBig (c 0) (c 1) (c 2)

section
variable {c : Nat → Nat → Nat} (hc : ∀ k, Is676 (c k))
include hc

theorem planarChannel_block (x y : Nat) {ch : Nat} (hch : ch < 3) :
    Etc.planarChannel (planarBlock c) x y ch = gradient c x y ch := by
  unfold Etc.planarChannel gradient planarBlock
  rw [planar_o (hc 0) hch, planar_h (hc 1) hch, planar_v (hc 2) hch]
  simp only []
  congr 2
  omega

theorem planarTexel_block (i : Nat) :
    Etc.planarTexel (planarBlock c) i = gradientColour c (i % 4) (i / 4) 255 := by
  unfold Etc.planarTexel gradientColour
  rw [planarChannel_block hc _ _ (by decide), planarChannel_block hc _ _ (by decide),
    planarChannel_block hc _ _ (by decide)]

theorem etc2RgbTexel_planar (i : Nat) :
    Etc.etc2RgbTexel (planarBlock c) i = gradientColour c (i % 4) (i / 4) 255 := by
  unfold Etc.etc2RgbTexel
  rw [show Etc.diffBit (planarBlock c) = true from planar_diff,
    show Etc.mode true (planarBlock c) = .planar from planar_mode (hc 0)]
  exact planarTexel_block hc i

theorem etc2Rgba1Texel_planar (i : Nat) :
    Etc.etc2Rgba1Texel (planarBlock c) i = gradientColour c (i % 4) (i / 4) 255 := by
  unfold Etc.etc2Rgba1Texel
  simp only [show Etc.mode true (planarBlock c) = .planar from planar_mode (hc 0)]
  exact planarTexel_block hc i

end

theorem clamp255_lt (v : Int) : Etc.clamp255 v < 256 := by
  unfold Etc.clamp255; split
  · omega
  · split <;> omega

theorem gradient_lt (c : Nat → Nat → Nat) (x y ch : Nat) : gradient c x y ch < 256 := clamp255_lt _

/-- The gradient between three equal colours. -/
theorem gradient_flat {c : Nat → Nat} (hc : Is676 c) (x y : Nat) {ch : Nat} (hch : ch < 3) :
    gradient (fun _ => c) x y ch = widen676 c ch := by
  have h : widen676 c ch < 256 := by
    obtain ⟨h0, h1, h2⟩ := hc
    unfold widen676 Etc.expand7 expand6
    match ch, hch with
    | 0, _ => rw [if_neg (by decide)]; omega
    | 1, _ => rw [if_pos rfl]; omega
    | 2, _ => rw [if_neg (by decide)]; omega
  unfold gradient
  simp only [Int.sub_self, Int.mul_zero]
  unfold Etc.clamp255
  generalize widen676 c ch = v at h
  rw [if_neg (by omega), if_neg (by omega)]
  omega

/-! ## Flat EAC blocks -/

/-- An EAC block with one alpha value. -/
def eacFlat (a : Nat) : List UInt8 := bigBlock [48, 4, 4, 8] [0, 0, 0, a]

theorem eacAlpha_flat {a : Nat} (ha : a < 256) (i : Nat) : Etc.eacAlpha (eacFlat a) i = a := by
  unfold Etc.eacAlpha eacFlat
  rw [bits_at (ns := [48, 4, 4, 8]) [0, 0, 0, a] (by decide) rfl 63 56 3 1 (by decide) (by decide),
    bits_at (ns := [48, 4, 4, 8]) [0, 0, 0, a] (by decide) rfl 55 52 2 1 (by decide) (by decide)]
  simp only [List.drop, List.take, pack]
  unfold Etc.clamp255
  rw [if_neg (by omega), if_neg (by omega)]
  omega

/-! ## Individual and differential blocks -/

/-- Bit `n` of the texel indices in the order of the block. -/
def turned (f : Nat → Nat) (n : Nat) : Nat := f (4 * (n % 4) + n / 4) % 2

theorem turned_lt (f : Nat → Nat) (n : Nat) : turned f n < 2 := Nat.mod_lt _ (by decide)

theorem turned_order (f : Nat → Nat) {i : Nat} (hi : i < 16) : turned f (Etc.order i) = f i % 2 := by
  unfold turned Etc.order
  congr 2
  omega

/-- A bit of a number of 16 bits within another one. -/
theorem bit_within {X n p D : Nat} (h : X / 2 ^ p % 2 ^ 16 = D) (hn : n < 16) :
    X / 2 ^ (p + n) % 2 = D / 2 ^ n % 2 := by
  rw [← h, Nat.pow_add, ← Nat.div_div_eq_div_mul]
  generalize X / 2 ^ p = Y
  have e := Nat.div_add_mod Y (2 ^ 16)
  generalize Y % 2 ^ 16 = r at *
  generalize Y / 2 ^ 16 = q at *
  rw [← e, show (2 : Nat) ^ 16 = 2 ^ n * (2 ^ 1 * 2 ^ (15 - n)) by
    rw [← Nat.pow_add, ← Nat.pow_add]; congr 1; omega, Nat.mul_assoc,
    Nat.mul_add_div (Nat.two_pow_pos n), Nat.mul_assoc, Nat.pow_one, Nat.mul_add_mod]

/-- The first two fields of a block hold the indices. -/
def indexFields (f : Nat → Nat) (vs : List Nat) : List Nat :=
  digits 2 (turned f) 16 :: digits 2 (turned fun i => f i / 2) 16 :: vs

theorem index_block {ns vs : List Nat} (h : (16 :: 16 :: ns).sum = 64) (hl : ns.length = vs.length)
    {f : Nat → Nat} (hf : ∀ i, f i < 4) {i : Nat} (hi : i < 16) :
    Etc.index (bigBlock (16 :: 16 :: ns) (indexFields f vs)) i = f i := by
  have ho : Etc.order i < 16 := by unfold Etc.order; omega
  have d0 := digits_lt (turned_lt f) 16
  have d1 := digits_lt (turned_lt fun i => f i / 2) 16
  have b0 : beNat (bigBlock (16 :: 16 :: ns) (indexFields f vs)) / 2 ^ 0 % 2 ^ 16 = digits 2 (turned f) 16 := by
    rw [beNat_bigBlock h]
    unfold indexFields
    rw [pack_mid (16 :: 16 :: ns) _ (by simp [hl]) 0 1 (by simp) (by simp)]
    simp only [List.drop, List.take, pack]
    omega
  have b1 : beNat (bigBlock (16 :: 16 :: ns) (indexFields f vs)) / 2 ^ 16 % 2 ^ 16 =
      digits 2 (turned fun i => f i / 2) 16 := by
    rw [beNat_bigBlock h]
    unfold indexFields
    rw [pack_mid (16 :: 16 :: ns) _ (by simp [hl]) 1 1 (by simp) (by simp)]
    simp only [List.drop, List.take, pack]
    omega
  have e0 := bit_within b0 ho
  have e1 := bit_within b1 ho
  rw [digits_get (turned_lt _) ho, turned_order _ hi] at e0 e1
  unfold Etc.index Etc.bits
  rw [show 16 + Etc.order i + 1 - (16 + Etc.order i) = 1 by omega, show Etc.order i + 1 - Etc.order i = 1 by omega,
    Nat.pow_one, e1]
  rw [Nat.zero_add] at e0
  rw [e0]
  have := hf i
  omega

theorem shade_congr {c d : Nat → Nat} (h : ∀ ch, ch < 3 → c ch = d ch) (m : Int) (a : Nat) :
    Etc.shade c m a = Etc.shade d m a := by
  unfold Etc.shade
  rw [h 0 (by decide), h 1 (by decide), h 2 (by decide)]

/-- A differential block with one base colour. -/
def oneWidths : List Nat := [1, 1, 3, 3, 3, 5, 3, 5, 3, 5]
def oneBlock (c : Nat → Nat) (t : Nat) (f : Nat → Nat) : List UInt8 :=
  bigBlock (16 :: 16 :: oneWidths) (indexFields f [0, 1, t, t, 0, c 2, 0, c 1, 0, c 0])

section
variable {c : Nat → Nat} {t : Nat} {f : Nat → Nat}

section
variable (c t f)
theorem one_bits (hi lo i k : Nat) (hlo : ((16 :: 16 :: oneWidths).take i).sum = lo)
    (hhi : (((16 :: 16 :: oneWidths).drop i).take k).sum = hi + 1 - lo) :
    Etc.bits (oneBlock c t f) hi lo = pack (((16 :: 16 :: oneWidths).drop i).take k)
      (((indexFields f [0, 1, t, t, 0, c 2, 0, c 1, 0, c 0]).drop i).take k) :=
  bits_at _ (by decide) (by simp [indexFields, oneWidths]) hi lo i k hlo hhi
end

theorem one_diffBit : Etc.diffBit (oneBlock c t f) = true := by
  unfold Etc.diffBit
  rw [one_bits c t f 33 33 3 1 (by decide) (by decide)]; rfl

theorem one_codeword (ht : t < 8) (snd : Bool) : Etc.codeword (oneBlock c t f) snd = t := by
  unfold Etc.codeword
  rw [one_bits c t f 36 34 4 1 (by decide) (by decide), one_bits c t f 39 37 5 1 (by decide) (by decide)]
  simp only [indexFields, oneWidths, List.drop, List.take, pack]
  cases snd <;> simp <;> omega

theorem one_base (hc : HasBits 5 c) {ch : Nat} (hch : ch < 3) :
    Etc.bits (oneBlock c t f) (63 - 8 * ch) (59 - 8 * ch) = c ch ∧
    Etc.bits (oneBlock c t f) (58 - 8 * ch) (56 - 8 * ch) = 0 := by
  have h := hc ch
  rcases (by omega : ch = 0 ∨ ch = 1 ∨ ch = 2) with rfl | rfl | rfl
  · rw [one_bits c t f (63 - 8 * 0) (59 - 8 * 0) 11 1 (by decide) (by decide),
      one_bits c t f (58 - 8 * 0) (56 - 8 * 0) 10 1 (by decide) (by decide)]
    simp only [indexFields, oneWidths, List.drop, List.take, pack]
    exact ⟨by omega, trivial⟩
  · rw [one_bits c t f (63 - 8 * 1) (59 - 8 * 1) 9 1 (by decide) (by decide),
      one_bits c t f (58 - 8 * 1) (56 - 8 * 1) 8 1 (by decide) (by decide)]
    simp only [indexFields, oneWidths, List.drop, List.take, pack]
    exact ⟨by omega, trivial⟩
  · rw [one_bits c t f (63 - 8 * 2) (59 - 8 * 2) 7 1 (by decide) (by decide),
      one_bits c t f (58 - 8 * 2) (56 - 8 * 2) 6 1 (by decide) (by decide)]
    simp only [indexFields, oneWidths, List.drop, List.take, pack]
    exact ⟨by omega, trivial⟩

theorem one_diffSum (hc : HasBits 5 c) {ch : Nat} (hch : ch < 3) :
    Etc.diffSum (oneBlock c t f) ch = c ch := by
  unfold Etc.diffSum
  rw [(one_base hc hch).1, (one_base hc hch).2]
  show (c ch : Int) + 0 = _
  omega

theorem one_texel (hc : HasBits 5 c) (ht : t < 8) (hf : ∀ i, f i < 4) {i : Nat} (hi : i < 16) :
    Etc.etc1Texel (oneBlock c t f) i = Etc.shade (fun ch => expand5 (c ch)) (Etc.modifier t (f i)) 255 := by
  unfold Etc.etc1Texel
  simp only [one_diffBit, one_codeword ht, if_true]
  rw [show Etc.index (oneBlock c t f) i = f i from index_block (by decide) (by rfl) hf hi]
  apply shade_congr
  intro ch hch
  unfold Etc.differential
  rw [one_diffSum hc hch, (one_base hc hch).1]
  have h : c ch < 32 := hc ch
  split
  · congr 1; omega
  · rfl

theorem one_etc2 (hc : HasBits 5 c) (i : Nat) :
    Etc.etc2RgbTexel (oneBlock c t f) i = Etc.etc1Texel (oneBlock c t f) i := by
  have h : ∀ ch, ch < 3 → ¬ Etc.overflows (oneBlock c t f) ch := by
    intro ch hch
    unfold Etc.overflows
    rw [one_diffSum hc hch]
    have h : c ch < 32 := hc ch
    omega
  unfold Etc.etc2RgbTexel Etc.mode
  rw [one_diffBit, if_neg (by decide), if_neg (h 0 (by decide)), if_neg (h 1 (by decide)), if_neg (h 2 (by decide))]

end

/-- An individual block with two base colours. -/
def twoWidths : List Nat := [1, 1, 3, 3, 4, 4, 4, 4, 4, 4]
def twoBlock (c : Bool → Nat → Nat) (t : Bool → Nat) (flip : Bool) (f : Nat → Nat) : List UInt8 :=
  bigBlock (16 :: 16 :: twoWidths) (indexFields f [flip.toNat, 0, t true, t false, c true 2, c false 2, c true 1,
    c false 1, c true 0, c false 0])

/-- The half of a block that texel `i` is in: the right one, or with `flip` the lower one. -/
def halfOf (flip : Bool) (i : Nat) : Bool := if flip then decide (2 ≤ i / 4) else decide (2 ≤ i % 4)

section
variable {c : Bool → Nat → Nat} {t : Bool → Nat} {flip : Bool} {f : Nat → Nat}

section
variable (c t flip f)
theorem two_bits (hi lo i k : Nat) (hlo : ((16 :: 16 :: twoWidths).take i).sum = lo)
    (hhi : (((16 :: 16 :: twoWidths).drop i).take k).sum = hi + 1 - lo) :
    Etc.bits (twoBlock c t flip f) hi lo = pack (((16 :: 16 :: twoWidths).drop i).take k)
      (((indexFields f [flip.toNat, 0, t true, t false, c true 2, c false 2, c true 1,
    c false 1, c true 0, c false 0]).drop i).take k) :=
  bits_at _ (by decide) (by simp [indexFields, twoWidths]) hi lo i k hlo hhi
end

theorem two_diffBit : Etc.diffBit (twoBlock c t flip f) = false := by
  unfold Etc.diffBit
  rw [two_bits c t flip f 33 33 3 1 (by decide) (by decide)]; rfl

theorem two_second (i : Nat) : Etc.second (twoBlock c t flip f) i = halfOf flip i := by
  unfold Etc.second halfOf
  rw [two_bits c t flip f 32 32 2 1 (by decide) (by decide)]
  simp only [indexFields, twoWidths, List.drop, List.take, pack]
  cases flip <;> simp

theorem two_codeword (ht : ∀ s, t s < 8) (snd : Bool) : Etc.codeword (twoBlock c t flip f) snd = t snd := by
  have h0 := ht false
  have h1 := ht true
  unfold Etc.codeword
  rw [two_bits c t flip f 36 34 4 1 (by decide) (by decide), two_bits c t flip f 39 37 5 1 (by decide) (by decide)]
  simp only [indexFields, twoWidths, List.drop, List.take, pack]
  cases snd <;> simp <;> omega

theorem two_base (hc : ∀ s, HasBits 4 (c s)) (snd : Bool) {ch : Nat} (hch : ch < 3) :
    Etc.individual (twoBlock c t flip f) snd ch = Etc.expand4 (c snd ch) := by
  have h0 := hc false ch
  have h1 := hc true ch
  unfold Etc.individual
  rcases (by omega : ch = 0 ∨ ch = 1 ∨ ch = 2) with rfl | rfl | rfl
  · rw [two_bits c t flip f (59 - 8 * 0) (56 - 8 * 0) 10 1 (by decide) (by decide),
      two_bits c t flip f (63 - 8 * 0) (60 - 8 * 0) 11 1 (by decide) (by decide)]
    simp only [indexFields, twoWidths, List.drop, List.take, pack]
    cases snd <;> simp <;> congr 1 <;> omega
  · rw [two_bits c t flip f (59 - 8 * 1) (56 - 8 * 1) 8 1 (by decide) (by decide),
      two_bits c t flip f (63 - 8 * 1) (60 - 8 * 1) 9 1 (by decide) (by decide)]
    simp only [indexFields, twoWidths, List.drop, List.take, pack]
    cases snd <;> simp <;> congr 1 <;> omega
  · rw [two_bits c t flip f (59 - 8 * 2) (56 - 8 * 2) 6 1 (by decide) (by decide),
      two_bits c t flip f (63 - 8 * 2) (60 - 8 * 2) 7 1 (by decide) (by decide)]
    simp only [indexFields, twoWidths, List.drop, List.take, pack]
    cases snd <;> simp <;> congr 1 <;> omega

theorem two_texel (hc : ∀ s, HasBits 4 (c s)) (ht : ∀ s, t s < 8) (hf : ∀ i, f i < 4) {i : Nat} (hi : i < 16) :
    Etc.etc1Texel (twoBlock c t flip f) i =
      Etc.shade (fun ch => Etc.expand4 (c (halfOf flip i) ch)) (Etc.modifier (t (halfOf flip i)) (f i)) 255 := by
  unfold Etc.etc1Texel
  simp only [two_diffBit, two_codeword ht, two_second, Bool.false_eq_true, if_false]
  rw [show Etc.index (twoBlock c t flip f) i = f i from index_block (by decide) (by rfl) hf hi]
  apply shade_congr
  intro ch hch
  exact two_base hc _ hch

theorem two_etc2 (i : Nat) :
    Etc.etc2RgbTexel (twoBlock c t flip f) i = Etc.etc1Texel (twoBlock c t flip f) i := by
  unfold Etc.etc2RgbTexel Etc.mode
  rw [two_diffBit, if_pos rfl]

end

/-! ## ATC -/

/-- The index that picks the second endpoint. -/
def atcIndex (pick : Nat → Bool) (i : Nat) : Nat := 3 * (pick i).toNat

theorem atcIndex_lt (pick : Nat → Bool) (i : Nat) : atcIndex pick i < 2 ^ 2 := by
  unfold atcIndex; cases pick i <;> decide

/-- An ATC block with two colours. -/
def atcWidths : List Nat := [5, 5, 5, 1, 5, 6, 5, 32]
def atcFields (c : Bool → Nat → Nat) (pick : Nat → Bool) : List Nat :=
  [c false 2, c false 1, c false 0, 0, c true 2, c true 1, c true 0, digits (2 ^ 2) (atcIndex pick) 16]
def atcBlock (c : Bool → Nat → Nat) (pick : Nat → Bool) : Nat := pack atcWidths (atcFields c pick)

theorem atcBlock_lt (c : Bool → Nat → Nat) (pick : Nat → Bool) : atcBlock c pick < 2 ^ 64 :=
  pack_lt atcWidths _

/-- A colour with 5, 6 and 5 bits. -/
def atcEnd (c : Bool → Nat → Nat) (s : Bool) (ch : Nat) : Nat :=
  if s = true ∧ ch = 1 then expand6 (c s ch) else expand5 (c s ch)

section
variable {c : Bool → Nat → Nat} {pick : Nat → Bool} (h0 : HasBits 5 (c false))
  (h1 : c true 0 < 32 ∧ c true 1 < 64 ∧ c true 2 < 32) {blk : List UInt8} (hblk : leNat blk = atcBlock c pick)
include hblk

theorem atc_field (pos n i k : Nat) (hp : (atcWidths.take i).sum = pos) (hn : ((atcWidths.drop i).take k).sum = n) :
    field blk pos n = pack ((atcWidths.drop i).take k) (((atcFields c pick).drop i).take k) := by
  unfold field
  rw [hblk]
  exact pack_mid _ _ (by simp [atcWidths, atcFields]) i k hp hn

theorem atc_index {i : Nat} (hi : i < 16) : Atc.index blk i = atcIndex pick i := by
  have d := digits_lt (atcIndex_lt pick) 16
  have e := atc_field hblk 32 32 7 1 (by decide) (by decide)
  simp only [atcFields, atcWidths, List.drop, List.take, pack] at e
  rw [Nat.mul_zero, Nat.add_zero, Nat.mod_eq_of_lt (by omega)] at e
  have g := digits_get (atcIndex_lt pick) hi
  unfold Atc.index field
  unfold field at e
  rw [← e] at g
  rw [← g, Nat.pow_add, ← Nat.div_div_eq_div_mul]
  generalize leNat blk / 2 ^ 32 = Y
  rw [← Nat.pow_mul]
  have e := Nat.div_add_mod Y (2 ^ 32)
  generalize Y % 2 ^ 32 = r at *
  generalize Y / 2 ^ 32 = q at *
  rw [← e, show (2 : Nat) ^ 32 = 2 ^ (2 * i) * (2 ^ 2 * 2 ^ (30 - 2 * i)) by
    rw [← Nat.pow_add, ← Nat.pow_add]; congr 1; omega, Nat.mul_assoc,
    Nat.mul_add_div (Nat.two_pow_pos _), Nat.mul_assoc, Nat.mul_add_mod]

include h0 h1

theorem atc_texel {i : Nat} (hi : i < 16) :
    Atc.rgbTexelAsIs blk i =
      px (atcEnd c (pick i) 0) (atcEnd c (pick i) 1) (atcEnd c (pick i) 2) 255 := by
  have f0 : c false 0 < 32 := h0 0
  have f1 : c false 1 < 32 := h0 1
  have f2 : c false 2 < 32 := h0 2
  obtain ⟨g0, g1, g2⟩ := h1
  have ealt : Atc.alternate blk = false := by
    unfold Atc.alternate
    rw [atc_field hblk 15 1 3 1 (by decide) (by decide)]; rfl
  unfold Atc.rgbTexelAsIs Atc.texelWith
  simp only [ealt, atc_index hblk hi, Bool.false_eq_true, if_false]
  have e0 : ∀ ch, ch < 3 → Atc.end0 blk ch = expand5 (c false ch) := by
    intro ch hch
    unfold Atc.end0
    rcases (by omega : ch = 0 ∨ ch = 1 ∨ ch = 2) with rfl | rfl | rfl
    · rw [if_pos rfl, atc_field hblk 10 5 2 1 (by decide) (by decide)]
      simp only [atcFields, atcWidths, List.drop, List.take, pack]
      congr 1; omega
    · rw [if_neg (by decide), if_pos rfl, atc_field hblk 5 5 1 1 (by decide) (by decide)]
      simp only [atcFields, atcWidths, List.drop, List.take, pack]
      congr 1; omega
    · rw [if_neg (by decide), if_neg (by decide), atc_field hblk 0 5 0 1 (by decide) (by decide)]
      simp only [atcFields, atcWidths, List.drop, List.take, pack]
      congr 1; omega
  have e1 : ∀ ch, ch < 3 → Atc.end1 blk ch = if ch = 1 then expand6 (c true ch) else expand5 (c true ch) := by
    intro ch hch
    unfold Atc.end1
    rcases (by omega : ch = 0 ∨ ch = 1 ∨ ch = 2) with rfl | rfl | rfl
    · rw [if_pos rfl, if_neg (by decide), atc_field hblk 27 5 6 1 (by decide) (by decide)]
      simp only [atcFields, atcWidths, List.drop, List.take, pack]
      congr 1; omega
    · rw [if_neg (by decide), if_pos rfl, if_pos rfl, atc_field hblk 21 6 5 1 (by decide) (by decide)]
      simp only [atcFields, atcWidths, List.drop, List.take, pack]
      congr 1; omega
    · rw [if_neg (by decide), if_neg (by decide), if_neg (by decide),
        atc_field hblk 16 5 4 1 (by decide) (by decide)]
      simp only [atcFields, atcWidths, List.drop, List.take, pack]
      congr 1; omega
  rw [e0 0 (by decide), e0 1 (by decide), e0 2 (by decide), e1 0 (by decide), e1 1 (by decide), e1 2 (by decide)]
  unfold atcIndex atcEnd
  cases pick i <;> simp [Atc.normalEntry]

end

theorem planarBlock_length (c : Nat → Nat → Nat) : (planarBlock c).length = 8 := by
  unfold planarBlock planarBig; exact bigBlock_length _ _

theorem eacFlat_length (a : Nat) : (eacFlat a).length = 8 := by
  unfold eacFlat; exact bigBlock_length _ _

theorem oneBlock_length (c : Nat → Nat) (t : Nat) (f : Nat → Nat) : (oneBlock c t f).length = 8 := by
  unfold oneBlock; exact bigBlock_length _ _

theorem twoBlock_length (c : Bool → Nat → Nat) (t : Bool → Nat) (flip : Bool) (f : Nat → Nat) :
    (twoBlock c t flip f).length = 8 := by
  unfold twoBlock; exact bigBlock_length _ _

end Verif.Proofs.Store
