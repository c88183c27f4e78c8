import Verif.Proofs.StoreEtc
import Verif.Proofs.Pvrtc

/-! # Proofs: PVRTC textures with two colours -/

namespace Verif.Proofs.Store.Pv

open Verif Verif.Spec Verif.Spec.Pvrtc Verif.Proofs.Store

/-! ## Blocks -/

/-- A block with the two colours `c false` (5:5:4 bits) and `c true` (5:5:5 bits) and the given
modulation data. -/
def widths : List Nat := [32, 1, 4, 5, 5, 1, 5, 5, 5, 1]
def fields (c : Bool → Nat → Nat) (m : Nat) : List Nat :=
  [m, 0, c false 2, c false 1, c false 0, 1, c true 2, c true 1, c true 0, 1]
def blk (c : Bool → Nat → Nat) (m : Nat) : List UInt8 := bytesLe 8 (pack widths (fields c m))

theorem blk_length (c : Bool → Nat → Nat) (m : Nat) : (blk c m).length = 8 := bytesLe_length _ _

section
variable {c : Bool → Nat → Nat} {m : Nat}

theorem blk_field (pos n i k : Nat) (hp : (widths.take i).sum = pos) (hn : ((widths.drop i).take k).sum = n) :
    field (blk c m) pos n = pack ((widths.drop i).take k) (((fields c m).drop i).take k) := by
  unfold field blk
  rw [leNat_bytesLe _ _ (pack_lt widths _)]
  exact pack_mid _ _ (by simp [widths, fields]) i k hp hn

theorem blk_mode : mode (blk c m) = 0 := by
  unfold mode
  rw [blk_field 32 1 1 1 (by decide) (by decide)]; rfl

/-- The modulation data is the low half. -/
theorem blk_low (hm : m < 2 ^ 32) {pos n : Nat} (h : pos + n ≤ 32) :
    field (blk c m) pos n = m / 2 ^ pos % 2 ^ n := by
  have e := blk_field (c := c) (m := m) 0 32 0 1 (by decide) (by decide)
  simp only [fields, widths, List.drop, List.take, pack] at e
  rw [Nat.mul_zero, Nat.add_zero, Nat.mod_eq_of_lt hm] at e
  unfold field at *
  rw [Nat.pow_zero, Nat.div_one] at e
  generalize leNat (blk c m) = Y at *
  have d := Nat.div_add_mod Y (2 ^ 32)
  rw [e] at d
  generalize Y / 2 ^ 32 = q at *
  rw [← d, show (2 : Nat) ^ 32 = 2 ^ pos * (2 ^ n * 2 ^ (32 - n - pos)) by
    rw [← Nat.pow_add, ← Nat.pow_add]; congr 1; omega, Nat.mul_assoc,
    Nat.mul_add_div (Nat.two_pow_pos _), Nat.mul_assoc, Nat.mul_add_mod]

/-- The first colour with five bits per channel. -/
def colour (c : Bool → Nat → Nat) (s : Bool) (ch : Nat) : Nat :=
  if s = false ∧ ch = 2 then widen4 (c s ch) else c s ch

theorem blk_first (h0 : c false 0 < 32 ∧ c false 1 < 32 ∧ c false 2 < 16) {ch : Nat} (hch : ch < 3) :
    colourA (blk c m) ch = colour c false ch := by
  obtain ⟨g0, g1, g2⟩ := h0
  unfold colourA colour
  rw [if_pos (by rw [blk_field 47 1 5 1 (by decide) (by decide)]; rfl)]
  rcases (by omega : ch = 0 ∨ ch = 1 ∨ ch = 2) with rfl | rfl | rfl
  · rw [if_neg (by decide)]
    simp only
    rw [blk_field 42 5 4 1 (by decide) (by decide)]
    simp only [fields, widths, List.drop, List.take, pack]; omega
  · rw [if_neg (by decide)]
    simp only
    rw [blk_field 37 5 3 1 (by decide) (by decide)]
    simp only [fields, widths, List.drop, List.take, pack]; omega
  · rw [if_pos ⟨rfl, rfl⟩]
    simp only
    rw [blk_field 33 4 2 1 (by decide) (by decide)]
    simp only [fields, widths, List.drop, List.take, pack]
    congr 1; omega

theorem blk_second (h1 : c true 0 < 32 ∧ c true 1 < 32 ∧ c true 2 < 32) {ch : Nat} (hch : ch < 3) :
    colourB (blk c m) ch = colour c true ch := by
  obtain ⟨g0, g1, g2⟩ := h1
  unfold colourB colour
  rw [if_pos (by rw [blk_field 63 1 9 1 (by decide) (by decide)]; rfl), if_neg (by simp)]
  rcases (by omega : ch = 0 ∨ ch = 1 ∨ ch = 2) with rfl | rfl | rfl
  · simp only
    rw [blk_field 58 5 8 1 (by decide) (by decide)]
    simp only [fields, widths, List.drop, List.take, pack]; omega
  · simp only
    rw [blk_field 53 5 7 1 (by decide) (by decide)]
    simp only [fields, widths, List.drop, List.take, pack]; omega
  · simp only
    rw [blk_field 48 5 6 1 (by decide) (by decide)]
    simp only [fields, widths, List.drop, List.take, pack]; omega

theorem blk_alpha : colourA (blk c m) 3 = 15 ∧ colourB (blk c m) 3 = 15 := by
  unfold colourA colourB
  rw [if_pos (by rw [blk_field 47 1 5 1 (by decide) (by decide)]; rfl),
    if_pos (by rw [blk_field 63 1 9 1 (by decide) (by decide)]; rfl)]
  exact ⟨rfl, rfl⟩

end

/-! ## Modulation data -/

/-- The modulation data of a block that picks colours: texel (`i`, `j`) of the block. -/
def modulation (w2 : Bool) (pick : Nat → Nat → Bool) : Nat :=
  if w2 then digits (2 ^ 1) (fun t => (pick (t % 8) (t / 8)).toNat) 32
  else digits (2 ^ 2) (fun t => 3 * (pick (t % 4) (t / 4)).toNat) 16

theorem modulation_lt (w2 : Bool) (pick : Nat → Nat → Bool) : modulation w2 pick < 2 ^ 32 := by
  unfold modulation
  cases w2
  · exact digits_lt (fun t => by cases pick (t % 4) (t / 4) <;> decide) 16
  · exact digits_lt (fun t => by cases pick (t % 8) (t / 8) <;> decide) 32

theorem blk_weight4 {c : Bool → Nat → Nat} (pick : Nat → Nat → Bool) {i j : Nat} (hi : i < 4) (hj : j < 4) :
    weight4 (blk c (modulation false pick)) (j * 4 + i) = 8 * (pick i j).toNat := by
  unfold weight4
  rw [blk_mode, if_neg (by decide), blk_low (modulation_lt _ _) (by omega)]
  unfold modulation
  rw [if_neg (by decide), Nat.pow_mul,
    digits_get (f := fun t => 3 * (pick (t % 4) (t / 4)).toNat)
      (fun t => by show 3 * (pick (t % 4) (t / 4)).toNat < _; cases pick (t % 4) (t / 4) <;> decide)
      (show j * 4 + i < 16 by omega),
    show (j * 4 + i) % 4 = i by omega, show (j * 4 + i) / 4 = j by omega]
  cases pick i j <;> rfl

theorem blk_stored2 {c : Bool → Nat → Nat} (pick : Nat → Nat → Bool) {i j : Nat} (hi : i < 8) (hj : j < 4) :
    stored2 (blk c (modulation true pick)) i j = 8 * (pick i j).toNat := by
  unfold stored2
  rw [blk_mode, if_neg (by decide), blk_low (modulation_lt _ _) (by omega)]
  unfold modulation
  have h := digits_get (f := fun t => (pick (t % 8) (t / 8)).toNat) (b := 2 ^ 1)
      (fun t => by show (pick (t % 8) (t / 8)).toNat < _; cases pick (t % 8) (t / 8) <;> decide)
      (show 8 * j + i < 32 by omega)
  rw [← Nat.pow_mul, Nat.one_mul] at h
  rw [if_pos rfl, h, show (8 * j + i) % 8 = i by omega, show (8 * j + i) / 8 = j by omega]

/-! ## Textures -/

/-- The blocks can be given by their place. -/
theorem data_exists {nx ny : Nat} (hx : IsPow2 nx) (hy : IsPow2 ny) (g : Nat → Nat → List UInt8)
    (hg : ∀ x y, (g x y).length = 8) :
    ∃ data : List UInt8, data.length = nx * ny * 8 ∧
      ∀ x y, x < nx → y < ny → block data nx ny x y = g x y := by
  obtain ⟨m, a, b, e1, e2, hab, -, hl, hnn⟩ := Pvrtc.grid_exps hx hy
  have sur : ∀ k, ∃ p : Nat × Nat, k < nx * ny → p.1 < nx ∧ p.2 < ny ∧ twiddle m p.1 p.2 = k := by
    intro k
    by_cases hk : k < nx * ny
    · obtain ⟨x, y, h1, h2, h3⟩ := Pvrtc.twiddle_surj m a b k hab (by omega)
      exact ⟨(x, y), fun _ => ⟨by omega, by omega, h3⟩⟩
    · exact ⟨(0, 0), fun h => absurd h hk⟩
  obtain ⟨p, hp⟩ := Classical.axiomOfChoice sur
  refine ⟨(List.range (nx * ny)).flatMap fun k => g (p k).1 (p k).2, blocks_length fun _ => hg _ _, ?_⟩
  intro x y h1 h2
  unfold block
  have hk : twiddle m x y < nx * ny := by
    rw [hnn]; exact Pvrtc.twiddle_lt m x y a b (by omega) (by omega) hab
  rw [hl, blocks_get (fun _ => hg _ _) hk]
  obtain ⟨q1, q2, q3⟩ := hp _ hk
  obtain ⟨r1, r2⟩ := Pvrtc.twiddle_inj m _ _ _ _ a b (by omega) (by omega) (by omega) (by omega) hab q3
  rw [r1, r2]

/-- The same value in all blocks. -/
theorem bilinear_const (w2 : Bool) {f : Nat → Nat → Nat} {nx ny v : Nat} (hx : 0 < nx) (hy : 0 < ny)
    (hf : ∀ x y, x < nx → y < ny → f x y = v) (x y : Nat) :
    bilinear w2 f nx ny x y = v * (bw w2 * 4) := by
  have hb : bw w2 = 4 ∨ bw w2 = 8 := by cases w2 <;> simp [bw]
  unfold bilinear
  have l1 : lower (bw w2) nx x < nx := Nat.mod_lt _ hx
  have l2 : upper (bw w2) nx x < nx := Nat.mod_lt _ hx
  have l3 : lower 4 ny y < ny := Nat.mod_lt _ hy
  have l4 : upper 4 ny y < ny := Nat.mod_lt _ hy
  simp only [hf _ _ l1 l3, hf _ _ l2 l3, hf _ _ l1 l4, hf _ _ l2 l4]
  have hu : dist (bw w2) x < bw w2 := Nat.mod_lt _ (by omega)
  have hv : dist 4 y < 4 := Nat.mod_lt _ (by omega)
  generalize dist (bw w2) x = u at *
  generalize dist 4 y = t at *
  rw [← Nat.mul_add, Nat.sub_add_cancel (by omega), ← Nat.mul_add, Nat.sub_add_cancel (by omega), Nat.mul_assoc]

theorem to8_const (w2 : Bool) {v ch : Nat} (hv : v < 32) (hch : ch < 3) :
    to8 w2 ch (v * (bw w2 * 4)) = expand5 v := by
  unfold to8 expand5
  rcases (by omega : ch = 0 ∨ ch = 1 ∨ ch = 2) with rfl | rfl | rfl <;> cases w2 <;> simp [bw] <;> omega

theorem to8_alpha (w2 : Bool) : to8 w2 3 (15 * (bw w2 * 4)) = 255 := by
  cases w2 <;> rfl

/-- A texture that picks one of two colours for every texel. -/
theorem texture_exists (w2 : Bool) {nx ny : Nat} (hx : IsPow2 nx) (hy : IsPow2 ny)
    {c : Bool → Nat → Nat} (h0 : c false 0 < 32 ∧ c false 1 < 32 ∧ c false 2 < 16)
    (h1 : c true 0 < 32 ∧ c true 1 < 32 ∧ c true 2 < 32) (pick : Nat → Nat → Bool) :
    ∃ data : List UInt8, data.length = nx * ny * 8 ∧ ∀ x y, x < bw w2 * nx → y < 4 * ny →
      texel w2 data nx ny x y = px (expand5 (colour c (pick x y) 0)) (expand5 (colour c (pick x y) 1))
        (expand5 (colour c (pick x y) 2)) 255 := by
  have hb : 0 < bw w2 := by cases w2 <;> decide
  have nx0 : 0 < nx := by obtain ⟨p, rfl⟩ := hx; exact Nat.two_pow_pos p
  have ny0 : 0 < ny := by obtain ⟨p, rfl⟩ := hy; exact Nat.two_pow_pos p
  obtain ⟨data, hd, hblk⟩ := data_exists hx hy
    (fun a b => blk c (modulation w2 fun i j => pick (bw w2 * a + i) (4 * b + j))) (fun _ _ => blk_length _ _)
  refine ⟨data, hd, fun x y hxl hyl => ?_⟩
  have hxb : x / bw w2 < nx := (Nat.div_lt_iff_lt_mul hb).mpr (by rwa [Nat.mul_comm])
  have hyb : y / 4 < ny := by omega
  have c5 : ∀ s ch, ch < 3 → colour c s ch < 32 := by
    intro s ch hch
    unfold colour widen4
    rcases (by omega : ch = 0 ∨ ch = 1 ∨ ch = 2) with rfl | rfl | rfl <;> cases s <;> simp <;> omega
  have hw : weight w2 data nx ny x y = 8 * (pick x y).toNat := by
    unfold weight
    cases w2
    · have hxb' : x / 4 < nx := hxb
      rw [if_neg (by decide), hblk _ _ hxb' hyb, blk_weight4 _ (Nat.mod_lt _ (by decide)) (Nat.mod_lt _ (by decide))]
      show 8 * (pick (4 * (x / 4) + x % 4) (4 * (y / 4) + y % 4)).toNat = _
      rw [Nat.div_add_mod, Nat.div_add_mod]
    · rw [if_pos rfl]
      have hxb' : x / 8 < nx := hxb
      unfold weight2 storedAt
      simp only [hblk _ _ hxb' hyb, blk_mode]
      rw [if_neg (by simp), blk_stored2 _ (Nat.mod_lt _ (by decide)) (Nat.mod_lt _ (by decide))]
      show 8 * (pick (8 * (x / 8) + x % 8) (4 * (y / 4) + y % 4)).toNat = _
      rw [Nat.div_add_mod, Nat.div_add_mod]
  have ht : transparent w2 data nx ny x y = false := by
    unfold transparent
    cases w2
    · have hxb' : x / 4 < nx := hxb
      rw [hblk _ _ hxb' hyb]
      unfold transparent4
      rw [blk_mode]; rfl
    · rfl
  have hf : ∀ ch, ch < 3 → first w2 data nx ny x y ch = expand5 (colour c false ch) := by
    intro ch hch
    unfold first
    rw [bilinear_const w2 nx0 ny0 (v := colour c false ch)
      (fun a b ha hb' => by rw [hblk a b ha hb', blk_first h0 hch]), to8_const w2 (c5 _ _ hch) hch]
  have hs : ∀ ch, ch < 3 → second w2 data nx ny x y ch = expand5 (colour c true ch) := by
    intro ch hch
    unfold second
    rw [bilinear_const w2 nx0 ny0 (v := colour c true ch)
      (fun a b ha hb' => by rw [hblk a b ha hb', blk_second h1 hch]), to8_const w2 (c5 _ _ hch) hch]
  have hfa : first w2 data nx ny x y 3 = 255 := by
    unfold first
    rw [bilinear_const w2 nx0 ny0 (v := 15) (fun a b ha hb' => by rw [hblk a b ha hb', blk_alpha.1]), to8_alpha]
  have hsa : second w2 data nx ny x y 3 = 255 := by
    unfold second
    rw [bilinear_const w2 nx0 ny0 (v := 15) (fun a b ha hb' => by rw [hblk a b ha hb', blk_alpha.2]), to8_alpha]
  unfold texel channel
  rw [ht, hw, hf 0 (by decide), hf 1 (by decide), hf 2 (by decide), hs 0 (by decide), hs 1 (by decide),
    hs 2 (by decide), hfa, hsa]
  cases pick x y <;> simp

end Verif.Proofs.Store.Pv
