import Verif.Spec.Recolour
import Verif.Proofs.Channels

/-! # Exchanging colour channels in a block -/

namespace Verif.Proofs.Recolour

open Verif.Spec Verif.Proofs

/-- A picture whose blocks were changed one by one is the old picture, changed pixel by pixel. -/
theorem picture [Build] {fmt : Format} {g : UInt32 → UInt32} (hf : fmt ≠ .bc6s ∧ fmt ≠ .bc6u)
    {data data' : List UInt8} {w h : Nat} {image image' out out' : List UInt32}
    (hs : fmt.SizesOk w h image) (hs' : fmt.SizesOk w h image')
    (hok : decoder fmt data w h image = .ok (.ok (), out))
    (hok' : decoder fmt data' w h image' = .ok (.ok (), out'))
    (hb : ∀ k, k < numBlocks 4 4 w h → ∀ i, i < 16 →
      fmt.texel (blockBytes fmt.blockSize data' k) i = g (fmt.texel (blockBytes fmt.blockSize data k) i))
    {x y : Nat} (hx : x < w) (hy : y < h) : out'[y * w + x]? = out[y * w + x]?.map g := by
  obtain ⟨_, _, d⟩ := ok_inv hs (legal_of hf data w h) hok
  obtain ⟨_, _, d'⟩ := ok_inv hs' (legal_of hf data' w h) hok'
  rw [d.pixel x y hx hy, d'.pixel x y hx hy]
  have hk : y / 4 * ceilDiv w 4 + x / 4 < numBlocks 4 4 w h := by
    have h1 : x / 4 < ceilDiv w 4 := by unfold ceilDiv; omega
    have h2 : y / 4 + 1 ≤ ceilDiv h 4 := by unfold ceilDiv; omega
    have := Nat.mul_le_mul_right (ceilDiv w 4) h2
    rw [Nat.add_mul, Nat.one_mul] at this
    unfold numBlocks
    rw [Nat.mul_comm (ceilDiv w 4)]
    omega
  exact congrArg some (hb _ hk _ (by omega))

theorem swapRedBlue_px {r g b a : Nat} (hr : r < 256) (hg : g < 256) (hb : b < 256) (ha : a < 256) :
    swapRedBlue (px r g b a) = px b g r a := by
  unfold swapRedBlue
  rw [red_px hr hg hb ha, green_px hr hg hb ha, blue_px hr hg hb ha, alpha_px hr hg hb ha]

theorem swapRedGreen_px {r g b a : Nat} (hr : r < 256) (hg : g < 256) (hb : b < 256) (ha : a < 256) :
    swapRedGreen (px r g b a) = px g r b a := by
  unfold swapRedGreen
  rw [red_px hr hg hb ha, green_px hr hg hb ha, blue_px hr hg hb ha, alpha_px hr hg hb ha]

/-! ## Halves -/

theorem leNat_take_mod (l : List UInt8) : ∀ n, leNat (l.take n) = leNat l % 256 ^ n := by
  induction l with
  | nil => intro n; simp [leNat]
  | cons b l ih =>
    intro n
    cases n with
    | zero => simp [leNat, Nat.mod_one]
    | succ n =>
      have := b.toNat_lt
      rw [List.take_succ_cons]
      unfold leNat
      rw [ih n, Nat.pow_succ, Nat.mul_comm (256 ^ n), Nat.mod_mul]
      have h1 : (b.toNat + 256 * leNat l) % 256 = b.toNat := by omega
      have h2 : (b.toNat + 256 * leNat l) / 256 = leNat l := by omega
      rw [h1, h2]

theorem field_take {l : List UInt8} {p n k : Nat} (h : p + n ≤ 8 * k) :
    field (l.take k) p n = field l p n := by
  unfold field
  rw [leNat_take_mod, show (256 : Nat) ^ k = 2 ^ (8 * k) by rw [Nat.pow_mul]]
  exact mod_div_mod (S := leNat l) h

theorem bc3Value_take (l : List UInt8) {i : Nat} (hi : i < 16) :
    bc3Value (l.take 8) i = bc3Value l i := by
  unfold bc3Value byteAt
  rw [field_take (by omega), field_take (by omega), field_take (by omega)]

theorem bc5 {from_ to : List UInt8} (h : HalvesSwapped from_ to) {i : Nat} (hi : i < 16) :
    bc5Texel to i = swapRedGreen (bc5Texel from_ i) := by
  unfold bc5Texel
  rw [swapRedGreen_px (bc3Value_lt _ _) (bc3Value_lt _ _) (by decide) (by decide), h.2,
    bc3Value_take from_ hi, ← bc3Value_take to hi, h.1]

theorem eacrg (signed : Bool) {from_ to : List UInt8} (h : HalvesSwapped from_ to) (i : Nat) :
    Etc.eacrgTexelAsIs signed to i = swapRedGreen (Etc.eacrgTexelAsIs signed from_ i) := by
  unfold Etc.eacrgTexelAsIs
  rw [swapRedGreen_px (eac8_lt _ _ _) (eac8_lt _ _ _) (by decide) (by decide), h.1, h.2]

/-! ## Red and blue -/

/-- A field within a longer field. -/
theorem field_within {l l' : List UInt8} {P N : Nat} (h : field l P N = field l' P N) {p n : Nat}
    (hp : p + n ≤ N) : field l (P + p) n = field l' (P + p) n := by
  have key : ∀ m : List UInt8, field m (P + p) n = field m P N / 2 ^ p % 2 ^ n := fun m => by
    unfold field
    rw [Nat.pow_add, ← Nat.div_div_eq_div_mul]
    exact (mod_div_mod (S := leNat m / 2 ^ P) hp).symm
  rw [key, key, h]

theorem word565 {from_ to : List UInt8} {pos : Nat} (h : Word565Swapped from_ to pos) :
    red565 (field to pos 16) = blue565 (field from_ pos 16) ∧
    green565 (field to pos 16) = green565 (field from_ pos 16) ∧
    blue565 (field to pos 16) = red565 (field from_ pos 16) := by
  have lo : ∀ m : List UInt8, field m pos 16 % 32 = field m pos 5 := fun m => by
    unfold field; omega
  have mid : ∀ m : List UInt8, field m pos 16 / 32 % 64 = field m (pos + 5) 6 := fun m => by
    unfold field; rw [Nat.pow_add, ← Nat.div_div_eq_div_mul]; omega
  have hi : ∀ m : List UInt8, field m pos 16 / 2048 = field m (pos + 11) 5 := fun m => by
    unfold field; rw [Nat.pow_add, ← Nat.div_div_eq_div_mul]; omega
  unfold red565 green565 blue565
  rw [lo, lo, mid, mid, hi, hi, h.1, h.2.1, h.2.2]
  exact ⟨rfl, rfl, rfl⟩

theorem bc1 {from_ to : List UInt8} (h : Bc1Swapped from_ to) (ho : SameOrder from_ to) {i : Nat}
    (hi : i < 16) : bc1Texel false to i = swapRedBlue (bc1Texel false from_ i) := by
  obtain ⟨h0, h1, hx⟩ := h
  have e : field to (32 + 2 * i) 2 = field from_ (32 + 2 * i) 2 := field_within hx (by omega)
  obtain ⟨r0, g0, b0⟩ := word565 h0
  obtain ⟨r1, g1, b1⟩ := word565 h1
  have ho : decide (field to 0 16 > field to 16 16) = decide (field from_ 0 16 > field from_ 16 16) :=
    decide_eq_decide.mpr ho
  have hq0 := field_lt from_ 0 16
  have hq1 := field_lt from_ 16 16
  unfold bc1Texel
  simp only
  rw [swapRedBlue_px (bc1Channel_lt (red565_lt hq0) (red565_lt hq1))
    (bc1Channel_lt (green565_lt _) (green565_lt _)) (bc1Channel_lt (blue565_lt _) (blue565_lt _))
    (by split <;> decide), e, ho, r0, g0, b0, r1, g1, b1]

theorem atc {from_ to : List UInt8} (h : AtcSwapped from_ to) {i : Nat} (hi : i < 16) :
    Atc.rgbTexelAsIs to i = swapRedBlue (Atc.rgbTexelAsIs from_ i) := by
  obtain ⟨a0, a1, a2, am, ⟨c0, c1, c2⟩, hx⟩ := h
  have e : Atc.index to i = Atc.index from_ i := field_within hx (by omega)
  have em : Atc.alternate to = Atc.alternate from_ := by unfold Atc.alternate; rw [am]
  have p0 : Atc.end0 to 0 = Atc.end0 from_ 2 := congrArg expand5 a2
  have p1 : Atc.end0 to 1 = Atc.end0 from_ 1 := congrArg expand5 a1
  have p2 : Atc.end0 to 2 = Atc.end0 from_ 0 := congrArg expand5 a0
  have q0 : Atc.end1 to 0 = Atc.end1 from_ 2 := congrArg expand5 c2
  have q1 : Atc.end1 to 1 = Atc.end1 from_ 1 := congrArg expand6 c1
  have q2 : Atc.end1 to 2 = Atc.end1 from_ 0 := congrArg expand5 c0
  unfold Atc.rgbTexelAsIs Atc.texelWith
  simp only
  rw [swapRedBlue_px (atcEntry_lt (atc_end0_lt _ _) (atc_end1_lt _ _))
    (atcEntry_lt (atc_end0_lt _ _) (atc_end1_lt _ _))
    (atcEntry_lt (atc_end0_lt _ _) (atc_end1_lt _ _)) (by decide), e, em, p0, p1, p2, q0, q1, q2]

/-- Bits within a longer range of bits. -/
theorem bits_within {l l' : List UInt8} {H L H' L' : Nat} (h : Etc.bits l H L = Etc.bits l' H' L')
    (hn : H - L = H' - L') (hH : L ≤ H) (hH' : L' ≤ H') (p q : Nat) (hp : L + p ≤ H) (hq : q ≤ p) :
    Etc.bits l (L + p) (L + q) = Etc.bits l' (L' + p) (L' + q) := by
  have key : ∀ (m : List UInt8) (H L : Nat), L ≤ H → L + p ≤ H →
      Etc.bits m (L + p) (L + q) = Etc.bits m H L / 2 ^ q % 2 ^ (p + 1 - q) := fun m H L h1 h2 => by
    unfold Etc.bits
    rw [show L + p + 1 - (L + q) = p + 1 - q by omega, Nat.pow_add 2 L q, ← Nat.div_div_eq_div_mul]
    exact (mod_div_mod (S := beNat m / 2 ^ L) (by omega)).symm
  rw [key l H L hH hp, key l' H' L' hH' (by omega), h]

theorem rest {from_ to : List UInt8} (h : EtcSwapped from_ to) (hi lo : Nat) (hh : hi ≤ 39) (hl : lo ≤ hi) :
    Etc.bits to hi lo = Etc.bits from_ hi lo := by
  have := bits_within (l := to) (l' := from_) h.2.2.2 rfl (by omega) (by omega) hi lo (by omega) hl
  simpa using this

/-- The channel that comes to the place of `ch`. -/
def other (ch : Nat) : Nat := 2 - ch

theorem chan {from_ to : List UInt8} (h : EtcSwapped from_ to) {ch : Nat} (hc : ch < 3) (hi lo : Nat)
    (hh : hi ≤ 7) (hl : lo ≤ hi) :
    Etc.bits to (56 - 8 * ch + hi) (56 - 8 * ch + lo)
      = Etc.bits from_ (56 - 8 * other ch + hi) (56 - 8 * other ch + lo) := by
  rcases (by omega : ch = 0 ∨ ch = 1 ∨ ch = 2) with rfl | rfl | rfl
  · exact bits_within h.1 rfl (by omega) (by omega) hi lo (by omega) hl
  · exact bits_within h.2.1 rfl (by omega) (by omega) hi lo (by omega) hl
  · exact bits_within h.2.2.1 rfl (by omega) (by omega) hi lo (by omega) hl

theorem etc_index {from_ to : List UInt8} (h : EtcSwapped from_ to) {i : Nat} (hi : i < 16) :
    Etc.index to i = Etc.index from_ i := by
  have ho : Etc.order i < 16 := by unfold Etc.order; omega
  unfold Etc.index
  rw [rest h _ _ (by omega) (Nat.le_refl _), rest h _ _ (by omega) (Nat.le_refl _)]

theorem etc_second {from_ to : List UInt8} (h : EtcSwapped from_ to) (i : Nat) :
    Etc.second to i = Etc.second from_ i := by
  unfold Etc.second; rw [rest h 32 32 (by decide) (by decide)]

theorem etc_codeword {from_ to : List UInt8} (h : EtcSwapped from_ to) (s : Bool) :
    Etc.codeword to s = Etc.codeword from_ s := by
  unfold Etc.codeword; rw [rest h 36 34 (by decide) (by decide), rest h 39 37 (by decide) (by decide)]

theorem etc_diffBit {from_ to : List UInt8} (h : EtcSwapped from_ to) :
    Etc.diffBit to = Etc.diffBit from_ := by
  unfold Etc.diffBit; rw [rest h 33 33 (by decide) (by decide)]

theorem etc_individual {from_ to : List UInt8} (h : EtcSwapped from_ to) (s : Bool) {ch : Nat} (hc : ch < 3) :
    Etc.individual to s ch = Etc.individual from_ s (other ch) := by
  have h1 := chan h hc 3 0 (by decide) (by decide)
  have h2 := chan h hc 7 4 (by decide) (by decide)
  unfold Etc.individual
  rcases (by omega : ch = 0 ∨ ch = 1 ∨ ch = 2) with rfl | rfl | rfl <;>
    (cases s
     · exact congrArg Etc.expand4 h2
     · exact congrArg Etc.expand4 h1)

theorem etc_diffSum {from_ to : List UInt8} (h : EtcSwapped from_ to) {ch : Nat} (hc : ch < 3) :
    Etc.diffSum to ch = Etc.diffSum from_ (other ch) := by
  have h1 := chan h hc 2 0 (by decide) (by decide)
  have h2 := chan h hc 7 3 (by decide) (by decide)
  unfold Etc.diffSum
  rcases (by omega : ch = 0 ∨ ch = 1 ∨ ch = 2) with rfl | rfl | rfl <;>
    exact congr (congrArg _ (congrArg _ h2)) (congrArg _ h1)

theorem etc_differential {from_ to : List UInt8} (h : EtcSwapped from_ to) (s : Bool) {ch : Nat}
    (hc : ch < 3) : Etc.differential to s ch = Etc.differential from_ s (other ch) := by
  have h2 := chan h hc 7 3 (by decide) (by decide)
  have h3 := etc_diffSum h hc
  unfold Etc.differential
  cases s
  · rcases (by omega : ch = 0 ∨ ch = 1 ∨ ch = 2) with rfl | rfl | rfl <;>
      exact congrArg expand5 h2
  · simp only [if_true]; rw [h3]

theorem clamp_lt (v : Int) : Etc.clamp255 v < 256 := by
  unfold Etc.clamp255
  split
  · decide
  · split <;> omega

theorem shade_swap {c c' : Nat → Nat} (h : ∀ ch, ch < 3 → c' ch = c (other ch)) (m : Int) :
    Etc.shade c' m 255 = swapRedBlue (Etc.shade c m 255) := by
  unfold Etc.shade
  rw [swapRedBlue_px (clamp_lt _) (clamp_lt _) (clamp_lt _) (by decide), h 0 (by decide), h 1 (by decide),
    h 2 (by decide)]
  rfl

theorem etc1 {from_ to : List UInt8} (h : EtcSwapped from_ to) {i : Nat} (hi : i < 16) :
    Etc.etc1Texel to i = swapRedBlue (Etc.etc1Texel from_ i) := by
  unfold Etc.etc1Texel
  rw [etc_second h, etc_index h hi, etc_diffBit h]
  simp only
  rw [etc_codeword h]
  refine shade_swap (fun ch hc => ?_) _
  cases Etc.diffBit from_
  · exact etc_individual h _ hc
  · exact etc_differential h _ hc

theorem etc_plain {from_ to : List UInt8} (h : EtcSwapped from_ to) (hp : EtcPlain from_) : EtcPlain to := by
  have ov : ∀ ch, ch < 3 → (Etc.overflows to ch ↔ Etc.overflows from_ (other ch)) := fun ch hc => by
    unfold Etc.overflows; rw [etc_diffSum h hc]
  have o0 : Etc.overflows to 0 ↔ Etc.overflows from_ 2 := ov 0 (by decide)
  have o1 : Etc.overflows to 1 ↔ Etc.overflows from_ 1 := ov 1 (by decide)
  have o2 : Etc.overflows to 2 ↔ Etc.overflows from_ 0 := ov 2 (by decide)
  unfold EtcPlain Etc.mode at hp ⊢
  rw [etc_diffBit h]
  simp only [o0, o1, o2]
  by_cases hd : Etc.diffBit from_ = false
  · simp [hd]
  · by_cases h0 : Etc.overflows from_ 0
    · simp [hd, h0] at hp
    · by_cases h1 : Etc.overflows from_ 1
      · simp [hd, h0, h1] at hp
      · by_cases h2 : Etc.overflows from_ 2
        · simp [hd, h0, h1, h2] at hp
        · simp [hd, h0, h1, h2]

theorem etc2_plain {blk : List UInt8} (hp : EtcPlain blk) (i : Nat) :
    Etc.etc2RgbTexel blk i = Etc.etc1Texel blk i := by
  unfold Etc.etc2RgbTexel
  rcases hp with h | h <;> rw [h]

theorem etc2 {from_ to : List UInt8} (h : EtcSwapped from_ to) (hp : EtcPlain from_) {i : Nat} (hi : i < 16) :
    Etc.etc2RgbTexel to i = swapRedBlue (Etc.etc2RgbTexel from_ i) := by
  rw [etc2_plain hp, etc2_plain (etc_plain h hp), etc1 h hi]

end Verif.Proofs.Recolour
