import Verif.Spec.Store
import Verif.Spec.Astc
import Verif.Proofs.Formats

/-! # Proofs: blocks that hold given texels -/

namespace Verif.Proofs.Store

open Verif Verif.Spec

/-- The `n` bytes of `v`, lowest byte first. -/
def bytesLe : Nat → Nat → List UInt8
  | 0, _ => []
  | n + 1, v => UInt8.ofNat v :: bytesLe n (v / 256)

theorem bytesLe_length (n v : Nat) : (bytesLe n v).length = n := by
  induction n generalizing v with
  | zero => rfl
  | succ n ih => simp [bytesLe, ih]

theorem leNat_bytesLe (n v : Nat) (h : v < 256 ^ n) : leNat (bytesLe n v) = v := by
  induction n generalizing v with
  | zero => simp at h; subst h; rfl
  | succ n ih =>
    have hlt : v / 256 < 256 ^ n := by rw [Nat.pow_succ] at h; omega
    simp only [bytesLe, leNat, ih _ hlt, UInt8.toNat_ofNat']
    omega

theorem field_bytesLe {n v : Nat} (h : v < 256 ^ n) (pos k : Nat) :
    field (bytesLe n v) pos k = v / 2 ^ pos % 2 ^ k := by
  unfold field; rw [leNat_bytesLe n v h]

/-- The number with the `n` digits `f` to the base `b`, digit 0 lowest. -/
def digits (b : Nat) (f : Nat → Nat) : Nat → Nat
  | 0 => 0
  | n + 1 => digits b f n + b ^ n * f n

theorem digits_lt {b : Nat} {f : Nat → Nat} (hf : ∀ i, f i < b) (n : Nat) : digits b f n < b ^ n := by
  induction n with
  | zero => simp [digits]
  | succ n ih =>
    have h := Nat.mul_le_mul_left (b ^ n) (Nat.le_sub_one_of_lt (hf n))
    have hb : 0 < b := Nat.lt_of_le_of_lt (Nat.zero_le _) (hf n)
    rw [Nat.mul_sub_one] at h
    have : b ^ n ≤ b ^ n * b := Nat.le_mul_of_pos_right _ hb
    simp only [digits, Nat.pow_succ]
    omega

theorem digits_get {b : Nat} {f : Nat → Nat} (hf : ∀ i, f i < b) {n i : Nat} (hi : i < n) :
    digits b f n / b ^ i % b = f i := by
  have hb : 0 < b := Nat.lt_of_le_of_lt (Nat.zero_le _) (hf 0)
  induction n with
  | zero => omega
  | succ n ih =>
    have hp : 0 < b ^ i := Nat.pow_pos hb
    rcases Nat.lt_succ_iff_lt_or_eq.mp hi with h | h
    · simp only [digits]
      have e : b ^ n * f n = b ^ i * (b * (b ^ (n - 1 - i) * f n)) := by
        rw [← Nat.mul_assoc, ← Nat.mul_assoc, ← Nat.pow_succ, ← Nat.pow_add]
        congr 2; omega
      rw [e, Nat.add_mul_div_left _ _ hp, Nat.add_mul_mod_self_left]
      exact ih h
    · subst h
      simp only [digits]
      rw [Nat.add_mul_div_left _ _ hp, Nat.div_eq_of_lt (digits_lt hf i), Nat.zero_add,
        Nat.mod_eq_of_lt (hf i)]

theorem blocks_length {raw n : Nat} {g : Nat → List UInt8} (hg : ∀ k, (g k).length = raw) :
    ((List.range n).flatMap g).length = n * raw := by
  induction n with
  | zero => simp
  | succ n ih =>
    rw [List.range_succ, List.flatMap_append, List.length_append, ih, Nat.succ_mul]
    simp [hg]

theorem blocks_get {raw n k : Nat} {g : Nat → List UInt8} (hg : ∀ k, (g k).length = raw) (hk : k < n) :
    blockBytes raw ((List.range n).flatMap g) k = g k := by
  unfold blockBytes
  have e : List.range n = List.range k ++ k :: (List.range (n - k - 1)).map (k + 1 + ·) := by
    obtain ⟨m, rfl⟩ : ∃ m, n = k + 1 + m := ⟨n - (k + 1), by omega⟩
    rw [show k + 1 + m - k - 1 = m by omega, List.range_add, List.range_succ]
    simp
  rw [e, List.flatMap_append, List.drop_left' (blocks_length hg), List.flatMap_cons,
    List.take_left' (hg k)]

/-- Data made of blocks is decoded to the picture of these blocks. -/
theorem shows_blocks {dec : List UInt8 → Nat → Nat → List UInt32 → Out (Except String Unit × List UInt32)}
    {bw bh raw : Nat} {Legal : List UInt8 → Prop} {texel : List UInt8 → Nat → UInt32}
    (D : DecodesLegal dec bw bh raw Legal texel) (hbw : 0 < bw) (hbh : 0 < bh)
    {w h : Nat} (hfit : bytesNeeded bw bh raw w h < 2 ^ 64) {colour : Nat → Nat → UInt32}
    (blk : Nat → Nat → List UInt8) (hlen : ∀ a b, (blk a b).length = raw)
    (hlegal : ∀ a b, Legal (blk a b))
    (htexel : ∀ x y, texel (blk (x / bw) (y / bh)) (y % bh * bw + x % bw) = colour x y) :
    let data := (List.range (numBlocks bw bh w h)).flatMap fun k => blk (k % ceilDiv w bw) (k / ceilDiv w bw)
    ∀ image : List UInt32, image.length < 2 ^ 61 → w * h ≤ image.length →
      ∃ image', dec data w h image = .ok (.ok (), image') ∧
        ∀ x y, x < w → y < h → image'[y * w + x]? = some (colour x y) := by
  intro data image hi hr
  let nx := ceilDiv w bw
  let g := fun k => blk (k % nx) (k / nx)
  have hg : ∀ k, (g k).length = raw := fun k => hlen _ _
  obtain ⟨image', e, d⟩ := D.success ((List.range (numBlocks bw bh w h)).flatMap g) w h image
    ⟨hi, hfit, by omega⟩ (by rw [blocks_length hg]; exact Nat.le_refl _) hr (fun k hk => by
      rw [blocks_get hg hk]; exact hlegal _ _)
  refine ⟨image', e, fun x y hx hy => ?_⟩
  rw [d.pixel x y hx hy]
  unfold pixelAt
  have hxn : x / bw < nx := by
    have : w ≤ nx * bw := by
      show w ≤ (w + bw - 1) / bw * bw
      have := Nat.div_add_mod (w + bw - 1) bw
      have := Nat.mod_lt (w + bw - 1) hbw
      rw [Nat.mul_comm]; omega
    exact (Nat.div_lt_iff_lt_mul hbw).mpr (by omega)
  have hyn : y / bh < ceilDiv h bh := by
    have : h ≤ ceilDiv h bh * bh := by
      show h ≤ (h + bh - 1) / bh * bh
      have := Nat.div_add_mod (h + bh - 1) bh
      have := Nat.mod_lt (h + bh - 1) hbh
      rw [Nat.mul_comm]; omega
    exact (Nat.div_lt_iff_lt_mul hbh).mpr (by omega)
  have hk : y / bh * nx + x / bw < numBlocks bw bh w h := by
    have h1 := Nat.mul_le_mul_right nx hyn
    rw [Nat.succ_mul] at h1
    show _ < nx * ceilDiv h bh
    rw [Nat.mul_comm nx]; omega
  show some (texel (blockBytes raw _ (y / bh * nx + x / bw)) _) = _
  rw [blocks_get hg hk]
  show some (texel (blk ((y / bh * nx + x / bw) % nx) ((y / bh * nx + x / bw) / nx)) _) = _
  rw [Nat.add_comm (y / bh * nx), Nat.add_mul_mod_self_right, Nat.mod_eq_of_lt hxn,
    Nat.add_mul_div_right _ _ (Nat.lt_of_le_of_lt (Nat.zero_le _) hxn), Nat.div_eq_of_lt hxn, Nat.zero_add, htexel]

/-- A picture is shown if every block of it has data. -/
theorem shows_of {dec : List UInt8 → Nat → Nat → List UInt32 → Out (Except String Unit × List UInt32)}
    {bw bh raw : Nat} {Legal : List UInt8 → Prop} {texel : List UInt8 → Nat → UInt32}
    (D : DecodesLegal dec bw bh raw Legal texel) (hbw : 0 < bw) (hbh : 0 < bh)
    {w h : Nat} (hfit : bytesNeeded bw bh raw w h < 2 ^ 64) {colour : Nat → Nat → UInt32}
    (blk : Nat → Nat → List UInt8) (hlen : ∀ a b, (blk a b).length = raw)
    (hlegal : ∀ a b, Legal (blk a b))
    (htexel : ∀ x y, texel (blk (x / bw) (y / bh)) (y % bh * bw + x % bw) = colour x y) :
    Shows dec (bytesNeeded bw bh raw w h) w h colour :=
  ⟨_, blocks_length fun _ => hlen _ _, shows_blocks D hbw hbh hfit blk hlen hlegal htexel⟩

/-! ## Blocks with two endpoints -/

/-- A half block: `a`, `b` of `e` bits each, and 16 indices of `k` bits. -/
def half (e k a b : Nat) (f : Nat → Nat) : Nat :=
  a + 2 ^ e * (b + 2 ^ e * digits (2 ^ k) f 16)

section
variable {e k a b : Nat} {f : Nat → Nat} (ha : a < 2 ^ e) (hb : b < 2 ^ e) (hf : ∀ i, f i < 2 ^ k)
include ha hb hf

theorem half_lt : half e k a b f < 2 ^ (2 * e + 16 * k) := by
  have h := digits_lt hf 16
  rw [← Nat.pow_mul, Nat.mul_comm k] at h
  unfold half
  have hp : 0 < 2 ^ e := Nat.two_pow_pos e
  have h1 : b + 2 ^ e * digits (2 ^ k) f 16 < 2 ^ e * 2 ^ (16 * k) := by
    have := Nat.mul_le_mul_left (2 ^ e) (Nat.le_sub_one_of_lt h)
    rw [Nat.mul_sub_one] at this
    have : 2 ^ e ≤ 2 ^ e * 2 ^ (16 * k) := Nat.le_mul_of_pos_right _ (Nat.two_pow_pos _)
    omega
  have h2 := Nat.mul_le_mul_left (2 ^ e) (Nat.le_sub_one_of_lt h1)
  rw [Nat.mul_sub_one, ← Nat.mul_assoc, ← Nat.pow_add, ← Nat.pow_add] at h2
  have : 2 ^ e ≤ 2 ^ (e + e + 16 * k) := Nat.pow_le_pow_right (by omega) (by omega)
  rw [show 2 * e + 16 * k = e + e + 16 * k by omega]
  omega

omit hb hf in
theorem half_first : half e k a b f % 2 ^ e = a := by
  unfold half
  rw [Nat.add_mul_mod_self_left, Nat.mod_eq_of_lt ha]

omit hf in
theorem half_second : half e k a b f / 2 ^ e % 2 ^ e = b := by
  unfold half
  rw [Nat.add_mul_div_left _ _ (Nat.two_pow_pos e), Nat.div_eq_of_lt ha, Nat.zero_add,
    Nat.add_mul_mod_self_left, Nat.mod_eq_of_lt hb]

theorem half_index {i : Nat} (hi : i < 16) : half e k a b f / 2 ^ (2 * e + k * i) % 2 ^ k = f i := by
  rw [show 2 * e + k * i = e + (e + k * i) by omega, Nat.pow_add, ← Nat.div_div_eq_div_mul,
    Nat.pow_add, ← Nat.div_div_eq_div_mul]
  unfold half
  rw [Nat.add_mul_div_left _ _ (Nat.two_pow_pos e), Nat.div_eq_of_lt ha, Nat.zero_add,
    Nat.add_mul_div_left _ _ (Nat.two_pow_pos e), Nat.div_eq_of_lt hb, Nat.zero_add, Nat.pow_mul]
  exact digits_get hf hi

end

/-- The index that picks the second endpoint. -/
def pickIndex (pick : Nat → Bool) (i : Nat) : Nat := (pick i).toNat

/-- A BC1 block with two colours. -/
def bc1Block (c : Bool → Nat) (pick : Nat → Bool) : Nat := half 16 2 (c false) (c true) (pickIndex pick)

theorem bc1Block_lt {c : Bool → Nat} (hc : ∀ b, c b < 2 ^ 16) (pick : Nat → Bool) :
    bc1Block c pick < 2 ^ 64 :=
  half_lt (hc _) (hc _) (fun i => by unfold pickIndex; cases pick i <;> decide)

theorem bc1Texel_block {c : Bool → Nat} (hc : ∀ b, c b < 2 ^ 16) {pick : Nat → Bool} {blk : List UInt8}
    (hblk : leNat blk = bc1Block c pick) (pt : Bool) {i : Nat} (hi : i < 16) :
    bc1Texel pt blk i = px (red565 (c (pick i))) (green565 (c (pick i))) (blue565 (c (pick i))) 255 := by
  have hf : ∀ i, pickIndex pick i < 2 ^ 2 := fun i => by unfold pickIndex; cases pick i <;> decide
  have e0 : field blk 0 16 = c false := by
    unfold field; rw [hblk, Nat.pow_zero, Nat.div_one]; exact half_first (hc _)
  have e1 : field blk 16 16 = c true := by
    unfold field; rw [hblk]; exact half_second (hc _) (hc _)
  have e2 : field blk (32 + 2 * i) 2 = (pick i).toNat := by
    unfold field; rw [hblk]; exact half_index (hc _) (hc _) hf hi
  unfold bc1Texel
  rw [e0, e1, e2]
  cases pick i <;> simp [bc1Channel]

/-- A BC1A block with one colour and transparent texels. -/
def cutBlock (c : Nat) (cut : Nat → Bool) : Nat := half 16 2 c c (fun i => 3 * (cut i).toNat)

theorem cutBlock_lt {c : Nat} (hc : c < 2 ^ 16) (cut : Nat → Bool) : cutBlock c cut < 2 ^ 64 :=
  half_lt hc hc (fun i => by cases cut i <;> decide)

theorem bc1aTexel_block {c : Nat} (hc : c < 2 ^ 16) {cut : Nat → Bool} {blk : List UInt8}
    (hblk : leNat blk = cutBlock c cut) {i : Nat} (hi : i < 16) :
    bc1Texel true blk i = if cut i then px 0 0 0 0 else px (red565 c) (green565 c) (blue565 c) 255 := by
  have hf : ∀ i, 3 * (cut i).toNat < 2 ^ 2 := fun i => by cases cut i <;> decide
  have e0 : field blk 0 16 = c := by
    unfold field; rw [hblk, Nat.pow_zero, Nat.div_one]; exact half_first hc
  have e1 : field blk 16 16 = c := by
    unfold field; rw [hblk]; exact half_second hc hc
  have e2 : field blk (32 + 2 * i) 2 = 3 * (cut i).toNat := by
    unfold field; rw [hblk]; exact half_index hc hc hf hi
  unfold bc1Texel
  rw [e0, e1, e2]
  cases cut i <;> simp [bc1Channel]

/-- The alpha half of a BC2 block. -/
def alphaBlock (a : Nat → Nat) : Nat := digits (2 ^ 4) (fun i => a i % 16) 16

theorem alphaBlock_lt (a : Nat → Nat) : alphaBlock a < 2 ^ 64 :=
  digits_lt (fun i => Nat.mod_lt _ (by omega)) 16

theorem alpha_field {a : Nat → Nat} {blk : List UInt8} {rest : Nat}
    (hblk : leNat blk = alphaBlock a + 2 ^ 64 * rest) {i : Nat} (hi : i < 16) :
    field blk (4 * i) 4 = a i % 16 := by
  unfold field
  rw [hblk, show (2 : Nat) ^ 64 = 2 ^ (4 * i) * (2 ^ 4 * 2 ^ (64 - 4 - 4 * i)) by
      rw [← Nat.pow_add, ← Nat.pow_add]; congr 1; omega, Nat.mul_assoc,
      Nat.add_mul_div_left _ _ (Nat.two_pow_pos _), Nat.mul_assoc, Nat.add_mul_mod_self_left, Nat.pow_mul]
  exact digits_get (fun i => Nat.mod_lt _ (by omega)) hi

/-- A block of interpolated values with two values. -/
def valueBlock (v : Bool → Nat) (pick : Nat → Bool) : Nat := half 8 3 (v false) (v true) (pickIndex pick)

theorem valueBlock_lt {v : Bool → Nat} (hv : ∀ b, v b < 2 ^ 8) (pick : Nat → Bool) :
    valueBlock v pick < 2 ^ 64 :=
  half_lt (hv _) (hv _) (fun i => by unfold pickIndex; cases pick i <;> decide)

theorem bc3Value_block {v : Bool → Nat} (hv : ∀ b, v b < 2 ^ 8) {pick : Nat → Bool} {blk : List UInt8}
    {rest : Nat} (hblk : leNat blk = valueBlock v pick + 2 ^ 64 * rest) {i : Nat} (hi : i < 16) :
    bc3Value blk i = v (pick i) := by
  have hf : ∀ i, pickIndex pick i < 2 ^ 3 := fun i => by unfold pickIndex; cases pick i <;> decide
  have low : ∀ pos n, pos + n ≤ 64 → field blk pos n = valueBlock v pick / 2 ^ pos % 2 ^ n := by
    intro pos n h
    unfold field
    rw [hblk, show (2 : Nat) ^ 64 = 2 ^ pos * (2 ^ n * 2 ^ (64 - n - pos)) by
      rw [← Nat.pow_add, ← Nat.pow_add]; congr 1; omega, Nat.mul_assoc,
      Nat.add_mul_div_left _ _ (Nat.two_pow_pos _), Nat.mul_assoc, Nat.add_mul_mod_self_left]
  have e0 : byteAt blk 0 = v false := by
    unfold byteAt; rw [low _ _ (by omega), Nat.mul_zero, Nat.pow_zero, Nat.div_one]
    exact half_first (hv _)
  have e1 : byteAt blk 1 = v true := by
    unfold byteAt; rw [low _ _ (by omega)]; exact half_second (hv _) (hv _)
  have e2 : field blk (16 + 3 * i) 3 = (pick i).toNat := by
    rw [low _ _ (by omega)]; exact half_index (hv _) (hv _) hf hi
  unfold bc3Value
  rw [e0, e1, e2]
  cases pick i <;> simp [bc3Entry]

theorem bc3Value_single {v : Bool → Nat} (hv : ∀ b, v b < 2 ^ 8) {pick : Nat → Bool} {i : Nat}
    (hi : i < 16) : bc3Value (bytesLe 8 (valueBlock v pick)) i = v (pick i) :=
  bc3Value_block hv (rest := 0) (leNat_bytesLe _ _ (valueBlock_lt hv _)) hi

/-- Two halves of 8 bytes. -/
def pair (a b : Nat) : List UInt8 := bytesLe 8 a ++ bytesLe 8 b

theorem pair_length (a b : Nat) : (pair a b).length = 16 := by
  simp [pair, bytesLe_length]

theorem pair_drop (a b : Nat) : (pair a b).drop 8 = bytesLe 8 b :=
  List.drop_left' (bytesLe_length 8 a)

theorem leNat_pair {a b : Nat} (ha : a < 2 ^ 64) (hb : b < 2 ^ 64) :
    leNat (pair a b) = a + 2 ^ 64 * b := by
  unfold pair
  rw [leNat_append, leNat_bytesLe _ _ (by omega), leNat_bytesLe _ _ (by omega), bytesLe_length]

theorem withAlpha_px {r g b a a' : Nat} (hr : r < 256) (hg : g < 256) (hb : b < 256) (ha : a < 256) :
    withAlpha (px r g b a) a' = px r g b a' := by
  unfold withAlpha
  rw [red_px hr hg hb ha, green_px hr hg hb ha, blue_px hr hg hb ha]


/-- The part of a number between two others. -/
theorem mid {X p n lo v hi : Nat} (e : X = lo + 2 ^ p * v + 2 ^ (p + n) * hi) (hlo : lo < 2 ^ p)
    (hv : v < 2 ^ n) : X / 2 ^ p % 2 ^ n = v := by
  rw [e, Nat.pow_add, Nat.mul_assoc, Nat.add_assoc, ← Nat.mul_add,
    Nat.add_mul_div_left _ _ (Nat.two_pow_pos p), Nat.div_eq_of_lt hlo, Nat.zero_add,
    Nat.add_mul_mod_self_left, Nat.mod_eq_of_lt hv]

/-! ## BC7 -/

/-- The two 7-bit endpoints that give the value `v` with weight 21 of 64. -/
def bc7Low (v : Nat) : Nat := v / 2
def bc7High (v : Nat) : Nat := if v < 128 then (v + 1) / 2 else (v - 1) / 2

theorem bc7_value_table : ∀ v : Fin 256,
    bc7Low v < 128 ∧ bc7High v < 128 ∧
    Bptc.interpolate (Bc7.replicateBits 7 (bc7Low v)) (Bc7.replicateBits 7 (bc7High v)) 21 = v ∧
    Bptc.interpolate (Bc7.replicateBits 8 v) (Bc7.replicateBits 8 v) 0 = v := by
  decide +kernel

/-- The first 66 bits of a BC7 block of mode 5 with one colour. -/
def bc7Head (r g b a : Nat) : Nat :=
  32 + 2 ^ 8 * bc7Low r + 2 ^ 15 * bc7High r + 2 ^ 22 * bc7Low g + 2 ^ 29 * bc7High g +
    2 ^ 36 * bc7Low b + 2 ^ 43 * bc7High b + 2 ^ 50 * a + 2 ^ 58 * a

/-- The indices of a BC7 block of mode 5: all colour indices are 1, all alpha indices 0. -/
def bc7Tail : Nat := 0x2aaaaaab

/-- A BC7 block of mode 5 with one colour. -/
def bc7Block (r g b a : Nat) : Nat := bc7Head r g b a + 2 ^ 66 * bc7Tail

section
variable {r g b a : Nat} (hr : r < 256) (hg : g < 256) (hb : b < 256) (ha : a < 256)
include hr hg hb ha

theorem bc7Head_lt : bc7Head r g b a < 2 ^ 66 := by
  have h1 := bc7_value_table ⟨r, hr⟩
  have h2 := bc7_value_table ⟨g, hg⟩
  have h3 := bc7_value_table ⟨b, hb⟩
  simp only at h1 h2 h3
  unfold bc7Head
  omega

theorem bc7Block_lt : bc7Block r g b a < 256 ^ 16 := by
  have := bc7Head_lt hr hg hb ha
  unfold bc7Block bc7Tail
  omega

theorem bc7_head_field {pos n : Nat} (h : pos + n ≤ 66) :
    field (bytesLe 16 (bc7Block r g b a)) pos n = bc7Head r g b a / 2 ^ pos % 2 ^ n := by
  rw [field_bytesLe (bc7Block_lt hr hg hb ha)]
  unfold bc7Block
  rw [show (2 : Nat) ^ 66 = 2 ^ pos * (2 ^ n * 2 ^ (66 - n - pos)) by
      rw [← Nat.pow_add, ← Nat.pow_add]; congr 1; omega, Nat.mul_assoc,
      Nat.add_mul_div_left _ _ (Nat.two_pow_pos _), Nat.mul_assoc, Nat.add_mul_mod_self_left]

theorem bc7_tail_field (pos n : Nat) :
    field (bytesLe 16 (bc7Block r g b a)) (66 + pos) n = bc7Tail / 2 ^ pos % 2 ^ n := by
  rw [field_bytesLe (bc7Block_lt hr hg hb ha)]
  unfold bc7Block
  rw [Nat.pow_add, ← Nat.div_div_eq_div_mul, Nat.add_mul_div_left _ _ (Nat.two_pow_pos _),
    Nat.div_eq_of_lt (bc7Head_lt hr hg hb ha), Nat.zero_add]

theorem bc7_head_parts :
    let H := bc7Head r g b a
    H % 2 ^ 8 = 32 ∧ H / 2 ^ 8 % 2 ^ 7 = bc7Low r ∧ H / 2 ^ 15 % 2 ^ 7 = bc7High r ∧
    H / 2 ^ 22 % 2 ^ 7 = bc7Low g ∧ H / 2 ^ 29 % 2 ^ 7 = bc7High g ∧
    H / 2 ^ 36 % 2 ^ 7 = bc7Low b ∧ H / 2 ^ 43 % 2 ^ 7 = bc7High b ∧
    H / 2 ^ 50 % 2 ^ 8 = a ∧ H / 2 ^ 58 % 2 ^ 8 = a := by
  have h1 := bc7_value_table ⟨r, hr⟩
  have h2 := bc7_value_table ⟨g, hg⟩
  have h3 := bc7_value_table ⟨b, hb⟩
  simp only at h1 h2 h3
  intro H
  have hH : H = 32 + 2 ^ 8 * bc7Low r + 2 ^ 15 * bc7High r + 2 ^ 22 * bc7Low g + 2 ^ 29 * bc7High g +
    2 ^ 36 * bc7Low b + 2 ^ 43 * bc7High b + 2 ^ 50 * a + 2 ^ 58 * a := rfl
  clear_value H
  refine ⟨by omega, by omega, by omega, by omega, by omega, by omega, by omega, ?_, ?_⟩
  · exact mid (lo := 32 + 2 ^ 8 * bc7Low r + 2 ^ 15 * bc7High r + 2 ^ 22 * bc7Low g + 2 ^ 29 * bc7High g +
      2 ^ 36 * bc7Low b + 2 ^ 43 * bc7High b) (hi := a) (by omega) (by omega) (by omega)
  · exact mid (lo := 32 + 2 ^ 8 * bc7Low r + 2 ^ 15 * bc7High r + 2 ^ 22 * bc7Low g + 2 ^ 29 * bc7High g +
      2 ^ 36 * bc7Low b + 2 ^ 43 * bc7High b + 2 ^ 50 * a) (hi := 0) (by omega) (by omega) (by omega)

theorem bc7_mode : Bc7.modeOf (bytesLe 16 (bc7Block r g b a)) = some 5 := by
  have e := (bc7_head_parts hr hg hb ha).1
  have f : ∀ m, m < 8 → field (bytesLe 16 (bc7Block r g b a)) m 1 = 32 / 2 ^ m % 2 := by
    intro m hm
    rw [bc7_head_field hr hg hb ha (by omega)]
    generalize bc7Head r g b a = H at e
    match m, hm with
    | 0, _ | 1, _ | 2, _ | 3, _ | 4, _ | 5, _ | 6, _ | 7, _ => simp; omega
  have e8 : List.range 8 = [0, 1, 2, 3, 4, 5, 6, 7] := by decide
  unfold Bc7.modeOf
  rw [e8]
  simp [f 0 (by omega), f 1 (by omega), f 2 (by omega), f 3 (by omega), f 4 (by omega), f 5 (by omega)]

end

theorem bc7_index_table : ∀ i : Fin 16,
    bc7Tail / 2 ^ (i.val * 2 - Bptc.anchorsBefore 1 0 i) % 2 ^ (2 - (Bptc.isAnchor 1 0 i).toNat) = 1 ∧
    bc7Tail / 2 ^ (31 + (i.val * 2 - Bptc.anchorsBefore 1 0 i)) % 2 ^ (2 - (Bptc.isAnchor 1 0 i).toNat) = 0 ∧
    Bptc.subset 1 0 i = 0 := by
  decide +kernel

/-- Mode 5. -/
def mode5 : Bc7.Mode := ⟨1, 0, 2, 0, 7, 8, 0, 0, 2, 2⟩

theorem mode5_get : Bc7.modes.getD 5 ⟨1, 0, 0, 0, 5, 0, 0, 0, 2, 0⟩ = mode5 := rfl

theorem mode5_positions (blk : List UInt8) :
    Bc7.partition blk 5 mode5 = 0 ∧ Bc7.selection blk 5 mode5 = 0 ∧
    Bc7.rotation blk 5 mode5 = field blk 6 2 ∧
    (∀ ch j, Bc7.colour blk 5 mode5 ch j = Bc7.replicateBits 7 (field blk (8 + ch * 14 + j * 7) 7)) ∧
    (∀ j, Bc7.alpha blk 5 mode5 j = Bc7.replicateBits 8 (field blk (50 + j * 8) 8)) ∧
    (∀ i, Bc7.index blk 5 mode5 0 i =
      field blk (66 + (i * 2 - Bptc.anchorsBefore 1 0 i)) (2 - (Bptc.isAnchor 1 0 i).toNat)) ∧
    (∀ i, Bc7.index2 blk 5 mode5 0 i =
      field blk (66 + (31 + (i * 2 - Bptc.anchorsBefore 1 0 i))) (2 - (Bptc.isAnchor 1 0 i).toNat)) := by
  refine ⟨?_, ?_, ?_, fun ch j => ?_, fun j => ?_, fun i => ?_, fun i => ?_⟩
  · simp [Bc7.partition, mode5, field, Nat.mod_one]
  · simp [Bc7.selection, mode5, field, Nat.mod_one]
  · simp [Bc7.rotation, Bc7.rotationPos, Bc7.partitionPos, mode5]
  · simp [Bc7.colour, Bc7.withPBit, Bc7.colourPos, Bc7.selectionPos, Bc7.rotationPos, Bc7.partitionPos,
      mode5]
  · simp [Bc7.alpha, Bc7.withPBit, Bc7.alphaPos, Bc7.colourPos, Bc7.selectionPos, Bc7.rotationPos,
      Bc7.partitionPos, mode5]
  · simp [Bc7.index, Bc7.indexPos, Bc7.pbitPos, Bc7.alphaPos, Bc7.colourPos, Bc7.selectionPos,
      Bc7.rotationPos, Bc7.partitionPos, mode5]
  · simp [Bc7.index2, Bc7.index2Pos, Bc7.indexPos, Bc7.pbitPos, Bc7.alphaPos, Bc7.colourPos,
      Bc7.selectionPos, Bc7.rotationPos, Bc7.partitionPos, mode5, ← Nat.add_assoc]

theorem mode5_weights {blk : List UInt8} {i : Nat} (h1 : Bc7.index blk 5 mode5 0 i = 1)
    (h2 : Bc7.index2 blk 5 mode5 0 i = 0) : Bc7.weights blk 5 mode5 i = (21, 0) := by
  obtain ⟨hp, hs, -⟩ := mode5_positions blk
  unfold Bc7.weights
  simp only [hp, hs, h1, h2]
  decide

theorem mode5_texel {blk : List UInt8} {i r g b a : Nat}
    (hw : Bc7.weights blk 5 mode5 i = (21, 0)) (hrot : field blk 6 2 = 0) (hs : Bptc.subset 1 0 i = 0)
    (hr : Bptc.interpolate (Bc7.replicateBits 7 (field blk 8 7)) (Bc7.replicateBits 7 (field blk 15 7)) 21 = r)
    (hg : Bptc.interpolate (Bc7.replicateBits 7 (field blk 22 7)) (Bc7.replicateBits 7 (field blk 29 7)) 21 = g)
    (hb : Bptc.interpolate (Bc7.replicateBits 7 (field blk 36 7)) (Bc7.replicateBits 7 (field blk 43 7)) 21 = b)
    (ha : Bptc.interpolate (Bc7.replicateBits 8 (field blk 50 8)) (Bc7.replicateBits 8 (field blk 58 8)) 0 = a) :
    Bc7.modeTexel blk 5 mode5 i = px r g b a := by
  obtain ⟨hp, -, hro, kc, ka, -⟩ := mode5_positions blk
  unfold Bc7.modeTexel
  rw [hp, hw, hro, hrot, show mode5.ns = 1 from rfl, hs]
  simp only [kc, ka, Nat.mul_zero, Nat.zero_mul, Nat.zero_add, Nat.add_zero, Nat.one_mul, Nat.reduceMul,
    Nat.reduceAdd, hr, hg, hb, ha]

theorem bc7_texel_of {blk : List UInt8} {H r g b a : Nat} (hr : r < 256) (hg : g < 256) (hb : b < 256)
    (ha : a < 256) (hm : Bc7.modeOf blk = some 5)
    (F : ∀ pos n, pos + n ≤ 66 → field blk pos n = H / 2 ^ pos % 2 ^ n)
    (T : ∀ pos n, field blk (66 + pos) n = bc7Tail / 2 ^ pos % 2 ^ n)
    (p : H % 2 ^ 8 = 32 ∧ H / 2 ^ 8 % 2 ^ 7 = bc7Low r ∧ H / 2 ^ 15 % 2 ^ 7 = bc7High r ∧
      H / 2 ^ 22 % 2 ^ 7 = bc7Low g ∧ H / 2 ^ 29 % 2 ^ 7 = bc7High g ∧
      H / 2 ^ 36 % 2 ^ 7 = bc7Low b ∧ H / 2 ^ 43 % 2 ^ 7 = bc7High b ∧
      H / 2 ^ 50 % 2 ^ 8 = a ∧ H / 2 ^ 58 % 2 ^ 8 = a)
    {i : Nat} (hi : i < 16) : Bc7.texel blk i = px r g b a := by
  obtain ⟨p0, p1, p2, p3, p4, p5, p6, p7, p8⟩ := p
  obtain ⟨t1, t2, t3⟩ := bc7_index_table ⟨i, hi⟩
  obtain ⟨-, -, -, -, -, k1, k2⟩ := mode5_positions blk
  have e : Bc7.texel blk i = Bc7.modeTexel blk 5 mode5 i := by
    unfold Bc7.texel
    rw [hm]
    simp only [mode5_get]
  rw [e]
  refine mode5_texel (mode5_weights ?_ ?_) ?_ t3 ?_ ?_ ?_ ?_
  · rw [k1, T]; exact t1
  · rw [k2, T]; exact t2
  · rw [F _ _ (by omega)]; omega
  · rw [F _ _ (by omega), F _ _ (by omega), p1, p2]; exact (bc7_value_table ⟨r, hr⟩).2.2.1
  · rw [F _ _ (by omega), F _ _ (by omega), p3, p4]; exact (bc7_value_table ⟨g, hg⟩).2.2.1
  · rw [F _ _ (by omega), F _ _ (by omega), p5, p6]; exact (bc7_value_table ⟨b, hb⟩).2.2.1
  · rw [F _ _ (by omega), F _ _ (by omega), p7, p8]; exact (bc7_value_table ⟨a, ha⟩).2.2.2

theorem bc7_texel {r g b a : Nat} (hr : r < 256) (hg : g < 256) (hb : b < 256) (ha : a < 256)
    {i : Nat} (hi : i < 16) : Bc7.texel (bytesLe 16 (bc7Block r g b a)) i = px r g b a :=
  bc7_texel_of hr hg hb ha (bc7_mode hr hg hb ha) (fun _ _ h => bc7_head_field hr hg hb ha h)
    (bc7_tail_field hr hg hb ha) (bc7_head_parts hr hg hb ha) hi

/-! ## ASTC -/

/-- An ASTC void-extent block with one colour, without an extent. -/
def astcBlock (r g b a : Nat) : Nat :=
  (2 ^ 64 - 1 - 2 ^ 9 - 3) + 2 ^ 64 * (257 * r) + 2 ^ 80 * (257 * g) + 2 ^ 96 * (257 * b) +
    2 ^ 112 * (257 * a)

theorem astc_block {r g b a : Nat} (hr : r < 256) (hg : g < 256) (hb : b < 256) (ha : a < 256) :
    let blk := bytesLe 16 (astcBlock r g b a)
    Astc.Fits blk ∧ ∀ asIs bw bh i, Astc.texel asIs bw bh blk i = px r g b a := by
  have hlt : astcBlock r g b a < 256 ^ 16 := by unfold astcBlock; omega
  have F := fun pos n => field_bytesLe hlt pos n
  have e : astcBlock r g b a = (2 ^ 64 - 1 - 2 ^ 9 - 3) + 2 ^ 64 * (257 * r) + 2 ^ 80 * (257 * g) +
    2 ^ 96 * (257 * b) + 2 ^ 112 * (257 * a) := rfl
  intro blk
  have hv : Astc.isVoid blk := by
    unfold Astc.isVoid
    rw [F]; omega
  have h9 : Astc.bit blk 9 = 0 := by
    show field blk 9 1 = 0
    rw [F]; omega
  refine ⟨?_, fun asIs bw bh i => ?_⟩
  · unfold Astc.Fits
    rw [if_pos hv]
    intro h; omega
  · unfold Astc.texel
    rw [if_pos hv]
    unfold Astc.voidColour
    simp only [h9, Nat.zero_ne_one, if_false]
    have c0 : field blk 64 16 = 257 * r := by
      rw [F]
      exact mid (lo := 2 ^ 64 - 1 - 2 ^ 9 - 3) (hi := 257 * g + 2 ^ 16 * (257 * b) + 2 ^ 32 * (257 * a))
        (by omega) (by omega) (by omega)
    have c1 : field blk 80 16 = 257 * g := by
      rw [F]
      exact mid (lo := 2 ^ 64 - 1 - 2 ^ 9 - 3 + 2 ^ 64 * (257 * r))
        (hi := 257 * b + 2 ^ 16 * (257 * a)) (by omega) (by omega) (by omega)
    have c2 : field blk 96 16 = 257 * b := by
      rw [F]
      exact mid (lo := 2 ^ 64 - 1 - 2 ^ 9 - 3 + 2 ^ 64 * (257 * r) + 2 ^ 80 * (257 * g))
        (hi := 257 * a) (by omega) (by omega) (by omega)
    have c3 : field blk 112 16 = 257 * a := by
      rw [F]
      exact mid (lo := 2 ^ 64 - 1 - 2 ^ 9 - 3 + 2 ^ 64 * (257 * r) + 2 ^ 80 * (257 * g) +
        2 ^ 96 * (257 * b)) (hi := 0) (by omega) (by omega) (by omega)
    simp only [Nat.mul_zero, Nat.add_zero, Nat.reduceMul, Nat.reduceAdd, c0, c1, c2, c3]
    congr 1 <;> omega

end Verif.Proofs.Store
