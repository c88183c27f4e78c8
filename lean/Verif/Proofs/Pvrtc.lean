import Verif.Proofs.PvrtcPaint
import Verif.Proofs.PvrtcOrder

/-! # Whole PVRTC images -/

namespace Verif.Proofs.Pvrtc

open Verif Verif.Model Verif.Proofs
open Verif.Spec.Pvrtc (twiddle IsPow2 block lower upper dist bw stored2 storedAt mode colourA colourB
  to8 bilinear)

/-! ## Neighbours -/

/-- The neighbour of block `b` (0 before, 1 itself, 2 after) among `n`, wrapping around. -/
def nbPos (n b c : Nat) : Nat :=
  match c with
  | 0 => (b + n - 1) % n
  | 1 => b
  | _ => (b + 1) % n

theorem nbPos_lt {n b : Nat} (hb : b < n) (c : Nat) : nbPos n b c < n := by
  unfold nbPos
  split
  · exact Nat.mod_lt _ (by omega)
  · exact hb
  · exact Nat.mod_lt _ (by omega)

theorem nbPos_prev {n b : Nat} (hb : b < n) : nbPos n b 0 = if b = 0 then n - 1 else b - 1 := by
  simp only [nbPos]
  split
  · next h => subst h; rw [Nat.zero_add, Nat.mod_eq_of_lt (by omega)]
  · next h => rw [show b + n - 1 = b - 1 + n by omega, Nat.add_mod_right, Nat.mod_eq_of_lt (by omega)]

theorem nbPos_next {n b : Nat} (hb : b < n) : nbPos n b 2 = if b = n - 1 then 0 else b + 1 := by
  simp only [nbPos]
  split
  · next h => rw [show b + 1 = n by omega, Nat.mod_self]
  · next h => rw [Nat.mod_eq_of_lt (by omega)]

theorem lower_eq {n nb x : Nat} (hn : n = 4 ∨ n = 8) (h : x / n < nb) :
    lower n nb x = if 2 * (x % n) < n then nbPos nb (x / n) 0 else nbPos nb (x / n) 1 := by
  unfold lower
  have key : (x + n * nb - n / 2) / n = if 2 * (x % n) < n then x / n + nb - 1 else x / n + nb := by
    rcases hn with rfl | rfl <;> split <;> omega
  rw [key]
  split
  · rfl
  · rw [Nat.add_mod_right, Nat.mod_eq_of_lt h]; rfl

theorem upper_eq {n nb x : Nat} (hn : n = 4 ∨ n = 8) (h : x / n < nb) :
    upper n nb x = if 2 * (x % n) < n then nbPos nb (x / n) 1 else nbPos nb (x / n) 2 := by
  unfold upper
  rw [lower_eq hn h]
  split
  · simp only [nbPos]
    rw [Nat.mod_add_mod, Nat.sub_add_cancel (show 1 ≤ x / n + nb from Nat.le_trans (Nat.lt_of_le_of_lt (Nat.zero_le _) h) (Nat.le_add_left _ _)), Nat.add_mod_right,
      Nat.mod_eq_of_lt h]
  · rfl

theorem dist_mod {n x : Nat} (hn : n = 4 ∨ n = 8) : dist n (x % n) = dist n x := by
  unfold dist
  rcases hn with rfl | rfl <;> omega

theorem wrapPrev {n nb x : Nat} (hn : n = 4 ∨ n = 8) (h : x / n < nb) :
    (x + n * nb - 1) % (n * nb) / n = (if x % n = 0 then nbPos nb (x / n) 0 else x / n) ∧
      (x + n * nb - 1) % (n * nb) % n = (x % n + (n - 1)) % n := by
  rw [nbPos_prev h]
  have hx : x < n * nb := by
    rw [Nat.div_lt_iff_lt_mul (by omega)] at h; rw [Nat.mul_comm]; exact h
  have e : (x + n * nb - 1) % (n * nb) = if x = 0 then n * nb - 1 else x - 1 := by
    split
    · next h0 => subst h0; rw [Nat.zero_add, Nat.mod_eq_of_lt (by omega)]
    · next h0 =>
      rw [show x + n * nb - 1 = x - 1 + n * nb by omega, Nat.add_mod_right,
        Nat.mod_eq_of_lt (by omega)]
  rw [e]
  rcases hn with rfl | rfl <;> (constructor <;> split <;> (try split) <;> (try split) <;> omega)

theorem wrapNext {n nb x : Nat} (hn : n = 4 ∨ n = 8) (h : x / n < nb) :
    (x + 1) % (n * nb) / n = (if x % n = n - 1 then nbPos nb (x / n) 2 else x / n) ∧
      (x + 1) % (n * nb) % n = (x % n + 1) % n := by
  rw [nbPos_next h]
  have hx : x < n * nb := by
    rw [Nat.div_lt_iff_lt_mul (by omega)] at h; rw [Nat.mul_comm]; exact h
  have e : (x + 1) % (n * nb) = if x = n * nb - 1 then 0 else x + 1 := by
    split
    · next h0 => rw [show x + 1 = n * nb by omega, Nat.mod_self]
    · next h0 => rw [Nat.mod_eq_of_lt (by omega)]
  rw [e]
  rcases hn with rfl | rfl <;> (constructor <;> split <;> (try split) <;> (try split) <;> omega)

/-- The blocks around block (`bx`, `by'`). -/
def around (data : List UInt8) (nx ny bx by' : Nat) (cx cy : Nat) : List UInt8 :=
  block data nx ny (nbPos nx bx cx) (nbPos ny by' cy)

section
variable {is2 : Bool} {data : List UInt8} {nx ny x y : Nat}

theorem bilinear_eq (hx : x / bw is2 < nx) (hy : y / 4 < ny) (c : Nat → Nat → Nat) :
    bilinear is2 c nx ny x y =
      blend (fun i j => c (nbPos nx (x / bw is2) i) (nbPos ny (y / 4) j)) (bw is2) (x % bw is2)
        (y % 4) := by
  unfold bilinear
  rw [blend_eq]
  simp only
  rw [lower_eq (bw_cases is2) hx, upper_eq (bw_cases is2) hx, lower_eq (Or.inl rfl) hy,
    upper_eq (Or.inl rfl) hy, dist_mod (bw_cases is2), dist_mod (Or.inl rfl)]
  by_cases h1 : 2 * (x % bw is2) < bw is2 <;> by_cases h2 : 2 * (y % 4) < 4 <;>
    simp only [h1, h2, if_true, if_false]

theorem first_eq (hx : x / bw is2 < nx) (hy : y / 4 < ny) (ch : Nat) :
    Spec.Pvrtc.first is2 data nx ny x y ch =
      firstOf is2 (around data nx ny (x / bw is2) (y / 4)) (x % bw is2) (y % 4) ch := by
  unfold Spec.Pvrtc.first firstOf around
  rw [bilinear_eq hx hy]

theorem second_eq (hx : x / bw is2 < nx) (hy : y / 4 < ny) (ch : Nat) :
    Spec.Pvrtc.second is2 data nx ny x y ch =
      secondOf' is2 (around data nx ny (x / bw is2) (y / 4)) (x % bw is2) (y % 4) ch := by
  unfold Spec.Pvrtc.second secondOf' around
  rw [bilinear_eq hx hy]

theorem weight2_eq (hx : x / 8 < nx) (hy : y / 4 < ny) :
    Spec.Pvrtc.weight2 data nx ny x y =
      weight2Of (around data nx ny (x / 8) (y / 4)) (x % 8) (y % 4) := by
  unfold Spec.Pvrtc.weight2 weight2Of storedAt
  simp only
  obtain ⟨l1, l2⟩ := wrapPrev (n := 8) (Or.inr rfl) hx
  obtain ⟨r1, r2⟩ := wrapNext (n := 8) (Or.inr rfl) hx
  obtain ⟨a1, a2⟩ := wrapPrev (n := 4) (Or.inl rfl) hy
  obtain ⟨b1, b2⟩ := wrapNext (n := 4) (Or.inl rfl) hy
  rw [l1, l2, r1, r2, a1, a2, b1, b2, show (x % 8 + y % 4) % 2 = (x + y) % 2 by omega]
  have eL : around data nx ny (x / 8) (y / 4) (if x % 8 = 0 then 0 else 1) 1 =
      block data nx ny (if x % 8 = 0 then nbPos nx (x / 8) 0 else x / 8) (y / 4) := by
    unfold around; split <;> rfl
  have eR : around data nx ny (x / 8) (y / 4) (if x % 8 = 7 then 2 else 1) 1 =
      block data nx ny (if x % 8 = 8 - 1 then nbPos nx (x / 8) 2 else x / 8) (y / 4) := by
    unfold around; split <;> rfl
  have eA : around data nx ny (x / 8) (y / 4) 1 (if y % 4 = 0 then 0 else 1) =
      block data nx ny (x / 8) (if y % 4 = 0 then nbPos ny (y / 4) 0 else y / 4) := by
    unfold around; split <;> rfl
  have eB : around data nx ny (x / 8) (y / 4) 1 (if y % 4 = 3 then 2 else 1) =
      block data nx ny (x / 8) (if y % 4 = 4 - 1 then nbPos ny (y / 4) 2 else y / 4) := by
    unfold around; split <;> rfl
  rw [eL, eR, eA, eB]
  rfl

/-- The pixel the decoder stores at position `t` of block (`bx`, `by'`). -/
def paint (is2 : Bool) (data : List UInt8) (nx ny bx by' t : Nat) : UInt32 :=
  if is2 then paint2 (around data nx ny bx by') t else paint4 (around data nx ny bx by') t

theorem weight_eq (hx : x / bw is2 < nx) (hy : y / 4 < ny) :
    Spec.Pvrtc.weight is2 data nx ny x y =
      if is2 then weight2Of (around data nx ny (x / 8) (y / 4)) (x % 8) (y % 4)
      else Spec.Pvrtc.weight4 (around data nx ny (x / 4) (y / 4) 1 1) (y % 4 * 4 + x % 4) := by
  unfold Spec.Pvrtc.weight
  cases is2
  · rfl
  · exact weight2_eq hx hy

theorem pvWeight_le (hx : x / bw is2 < nx) (hy : y / 4 < ny) :
    Spec.Pvrtc.weight is2 data nx ny x y ≤ 8 := by
  rw [weight_eq hx hy]
  split
  · exact weight2Of_le _ _ _
  · exact weight4_le _ _

theorem texel_eq (hx : x / bw is2 < nx) (hy : y / 4 < ny) :
    Spec.Pvrtc.texel is2 data nx ny x y =
      paint is2 data nx ny (x / bw is2) (y / 4) (y % 4 * bw is2 + x % bw is2) := by
  unfold Spec.Pvrtc.texel Spec.Pvrtc.channel
  simp only [first_eq hx hy, second_eq hx hy, weight_eq hx hy]
  cases is2
  · simp only [paint, paint4, mix, bw, Bool.false_eq_true, if_false, Spec.Pvrtc.transparent,
      Bool.not_false, Bool.true_and]
    rw [show (y % 4 * 4 + x % 4) % 4 = x % 4 by omega, show (y % 4 * 4 + x % 4) / 4 = y % 4 by omega]
    rfl
  · simp only [paint, paint2, mix, bw, if_true, Spec.Pvrtc.transparent, Bool.not_true,
      Bool.false_and, Bool.false_eq_true, if_false]
    rw [show (y % 4 * 8 + x % 8) % 8 = x % 8 by omega, show (y % 4 * 8 + x % 8) / 8 = y % 4 by omega]

end

/-- A blend in eighths lies between the blended values. -/
theorem blend_between {a b w : Nat} (ha : a ≤ 255) (hb : b ≤ 255) (hw : w ≤ 8) :
    min a b ≤ (a * (8 - w) + b * w) / 8 ∧ (a * (8 - w) + b * w) / 8 ≤ max a b ∧
      (a * (8 - w) + b * w) / 8 < 256 := by
  have h : w = 0 ∨ w = 1 ∨ w = 2 ∨ w = 3 ∨ w = 4 ∨ w = 5 ∨ w = 6 ∨ w = 7 ∨ w = 8 := by omega
  rcases h with rfl | rfl | rfl | rfl | rfl | rfl | rfl | rfl | rfl <;> omega

/-- The channels of an assembled pixel. -/
theorem px_parts {r g b a : Nat} (hr : r < 256) (hg : g < 256) (hb : b < 256) (ha : a < 256) :
    Spec.red (Spec.px r g b a) = r ∧ Spec.green (Spec.px r g b a) = g ∧
      Spec.blue (Spec.px r g b a) = b ∧ Spec.alpha (Spec.px r g b a) = a := by
  unfold Spec.red Spec.green Spec.blue Spec.alpha Spec.px
  rw [UInt32.toNat_ofNat_of_lt' (by simp only [UInt32.size]; omega)]
  omega

/-! ## Power-of-two grids -/

/-- The exponents of a power-of-two grid. -/
theorem grid_exps {nx ny : Nat} (hx : IsPow2 nx) (hy : IsPow2 ny) :
    ∃ m a b, nx = 2 ^ (m + a) ∧ ny = 2 ^ (m + b) ∧ (a = 0 ∨ b = 0) ∧ min nx ny = 2 ^ m ∧
      Nat.log2 (min nx ny) = m ∧ nx * ny = 2 ^ (2 * m + a + b) := by
  obtain ⟨p, rfl⟩ := hx
  obtain ⟨q, rfl⟩ := hy
  rcases Nat.le_total p q with h | h
  · have hm : min (2 ^ p) (2 ^ q) = 2 ^ p := Nat.min_eq_left (Nat.pow_le_pow_right (by omega) h)
    refine ⟨p, 0, q - p, rfl, by congr 1; omega, Or.inl rfl, hm, by rw [hm, Nat.log2_two_pow], ?_⟩
    rw [← Nat.pow_add]; congr 1; omega
  · have hm : min (2 ^ p) (2 ^ q) = 2 ^ q := Nat.min_eq_right (Nat.pow_le_pow_right (by omega) h)
    refine ⟨q, p - q, 0, by congr 1; omega, rfl, Or.inr rfl, hm, by rw [hm, Nat.log2_two_pow], ?_⟩
    rw [← Nat.pow_add]; congr 1; omega

variable [Build]

theorem morton_grid {nx ny bx by' : Nat} (hx : IsPow2 nx) (hy : IsPow2 ny) (hn : nx * ny < 2 ^ 61)
    (hbx : bx < nx) (hby : by' < ny) :
    mortonIndex bx by' (min nx ny) = .ok (twiddle (Nat.log2 (min nx ny)) bx by') ∧
      twiddle (Nat.log2 (min nx ny)) bx by' < nx * ny := by
  obtain ⟨m, a, b, e1, e2, hab, hm, hl, hnn⟩ := grid_exps hx hy
  have hlt : twiddle m bx by' < nx * ny := by
    rw [hnn]; exact twiddle_lt m bx by' a b (by omega) (by omega) hab
  have hm30 : m ≤ 30 := by
    rw [hnn] at hn
    have := (Nat.pow_lt_pow_iff_right (a := 2) (by omega)).mp hn
    omega
  rw [hm] at hl
  rw [hm, hl]
  refine ⟨mortonIndex_eq hm30 ?_ (by omega), hlt⟩
  rcases hab with rfl | rfl
  · left; simpa [e1] using hbx
  · right; simpa [e2] using hby

theorem pvPos_eq {b n : Nat} (hb : b < n) (hn : n < 2 ^ 63) :
    pvPos b n = .ok [nbPos n b 0, nbPos n b 1, nbPos n b 2] := by
  unfold pvPos
  have e1 : (if b = 0 then subU 64 n 1 else subU 64 b 1) = .ok (nbPos n b 0) := by
    rw [nbPos_prev hb]
    split
    · exact subU_ok (by omega)
    · exact subU_ok (by omega)
  rw [e1, Out.ok_bind, subU_ok (by omega), Out.ok_bind]
  have e2 : (if b = n - 1 then pure 0 else addU 64 b 1) = Out.ok (nbPos n b 2) := by
    rw [nbPos_next hb]
    split
    · rfl
    · exact addU_ok (by omega)
  rw [e2, Out.ok_bind]
  rfl

/-- All infos of the data. -/
def InfosOk (is2 : Bool) (data : List UInt8) (n : Nat) (infos : List PvInfo) : Prop :=
  ∀ k, k < n → ∃ info, infos[k]? = some info ∧ Good is2 (Spec.blockBytes 8 data k) info

theorem pvLocal_spec {is2 : Bool} {data : List UInt8} {nx ny bx by' : Nat} {infos loc : List PvInfo}
    (hx : IsPow2 nx) (hy : IsPow2 ny) (hn : nx * ny < 2 ^ 61) (hbx : bx < nx) (hby : by' < ny)
    (hinfos : InfosOk is2 data (nx * ny) infos) (hloc : loc.length = 9) :
    ∃ loc', pvLocal infos [nbPos nx bx 0, nbPos nx bx 1, nbPos nx bx 2]
        [nbPos ny by' 0, nbPos ny by' 1, nbPos ny by' 2] (min nx ny) loc = .ok loc' ∧
      LocalOk is2 (around data nx ny bx by') loc' := by
  have hget : ∀ n b c, c < 3 → [nbPos n b 0, nbPos n b 1, nbPos n b 2][c]? = some (nbPos n b c) := by
    intro n b c hc
    match c, hc with
    | 0, _ => rfl
    | 1, _ => rfl
    | 2, _ => rfl
  unfold pvLocal
  generalize hpx : [nbPos nx bx 0, nbPos nx bx 1, nbPos nx bx 2] = px
  generalize hpy : [nbPos ny by' 0, nbPos ny by' 1, nbPos ny by' 2] = py
  have hcongr : ∀ s, forRange 3 (fun cy s =>
    forRange 3 (fun cx (s : Nat × List PvInfo) => do
      let (c, loc) := s
      let qx ← idx px cx
      let qy ← idx py cy
      let m ← mortonIndex qx qy (min nx ny)
      let info ← idx infos m
      let loc ← setIdx loc c info
      let c ← addU 64 c 1
      pure (c, loc)) s) s = forRange (3 * 3) (fun k (s : Nat × List PvInfo) => do
      let (c, loc) := s
      let qx ← idx px (k % 3)
      let qy ← idx py (k / 3)
      let m ← mortonIndex qx qy (min nx ny)
      let info ← idx infos m
      let loc ← setIdx loc c info
      let c ← addU 64 c 1
      pure (c, loc)) s := by
    intro s
    rw [← forRange_nested]
    refine forRange_congr (fun i hi s => forRange_congr (fun j hj s => ?_))
    rw [show (i * 3 + j) % 3 = j by omega, show (i * 3 + j) / 3 = i by omega]
  rw [hcongr]
  have hblk : ∀ k, k < 3 * 3 → ∃ info,
      infos[twiddle (Nat.log2 (min nx ny)) (nbPos nx bx (k % 3)) (nbPos ny by' (k / 3))]? = some info ∧
      Good is2 (around data nx ny bx by' (k % 3) (k / 3)) info := by
    intro k hk
    exact hinfos _ (morton_grid hx hy hn (nbPos_lt hbx _) (nbPos_lt hby _)).2
  obtain ⟨l, e, h1, h2, -⟩ := setLoop (n := 3 * 3)
    (f := fun k (s : Nat × List PvInfo) => do
      let (c, loc) := s
      let qx ← idx px (k % 3)
      let qy ← idx py (k / 3)
      let m ← mortonIndex qx qy (min nx ny)
      let info ← idx infos m
      let loc ← setIdx loc c info
      let c ← addU 64 c 1
      pure (c, loc))
    (fun c l => (c, l)) id
    (fun k => (infos[twiddle (Nat.log2 (min nx ny)) (nbPos nx bx (k % 3)) (nbPos ny by' (k / 3))]?).getD
      PvInfo.zero) loc
    (fun i hi => by simp only [id]; omega) (fun i j _ _ h => h)
    (fun k hk l hl => by
      simp only [id]
      obtain ⟨info, hi, -⟩ := hblk k hk
      have g1 := hget nx bx (k % 3) (Nat.mod_lt _ (by omega))
      have g2 := hget ny by' (k / 3) (by omega)
      rw [hpx] at g1
      rw [hpy] at g2
      rw [idx_of_some g1, Out.ok_bind, idx_of_some g2, Out.ok_bind,
        (morton_grid hx hy hn (nbPos_lt hbx _) (nbPos_lt hby _)).1, Out.ok_bind, idx_of_some hi,
        Out.ok_bind, setIdx_ok (by omega), Out.ok_bind, addU_ok (by omega), Out.ok_bind, hi]
      rfl)
  rw [e, Out.ok_bind]
  refine ⟨_, rfl, by rw [h1, hloc], ?_⟩
  intro k hk
  obtain ⟨info, hi, g⟩ := hblk k hk
  refine ⟨info, ?_, g⟩
  have := h2 k hk
  simp only [id, hi, Option.getD_some] at this
  exact this

/-! ## The decoder -/

theorem pvNotPow2_eq {n : Nat} (hn : 0 < n) : ∃ b, pvNotPow2 n = .ok b ∧ (b = false ↔ IsPow2 n) := by
  unfold pvNotPow2
  rw [subU_ok (by omega), Out.ok_bind]
  refine ⟨_, rfl, ?_⟩
  rw [← and_pred_iff hn]
  simp

/-- The part of `decode_pvrtc` after the checks. -/
theorem pv_main {is2 : Bool} {data : List UInt8} {w h nx ny : Nat} {image : List UInt32}
    {infos : List PvInfo}
    (hnx : nx = Spec.ceilDiv w (bw is2)) (hny : ny = Spec.ceilDiv h 4)
    (hx : IsPow2 nx) (hy : IsPow2 ny) (hn : nx * ny * 8 ≤ data.length) (hn64 : nx * ny * 8 < 2 ^ 64)
    (hinfos : InfosOk is2 data (nx * ny) infos)
    (hwh : w * h ≤ image.length) (himl : image.length < 2 ^ 61) :
    ∃ s, forRange ny (fun by' s => do
          let posY ← pvPos by' ny
          forRange nx (fun bx (s : List PvInfo × List UInt32 × List UInt32) => do
            let (loc, buffer, image) := s
            let posX ← pvPos bx nx
            let loc ← pvLocal infos posX posY (min nx ny) loc
            let m ← mortonIndex bx by' (min nx ny)
            let m8 ← mulU 64 m 8
            let _ ← sliceFrom data m8
            let buffer ← (if is2 then applicateColor2 loc buffer else applicateColor4 loc buffer)
            let image ← copyBlockBuffer bx by' w h (bw is2) 4 buffer image
            pure (loc, buffer, image)) s)
          (List.replicate 9 PvInfo.zero, List.replicate 32 0, image) = .ok s ∧
      Spec.Pvrtc.IsDecoded is2 data w h image s.2.2 := by
  have hbw := bw_cases is2
  have hnxp : 0 < nx := by obtain ⟨p, rfl⟩ := hx; exact Nat.two_pow_pos p
  have hnyp : 0 < ny := by obtain ⟨p, rfl⟩ := hy; exact Nat.two_pow_pos p
  have hn61 : nx * ny < 2 ^ 61 := by omega
  have hnx63 : nx < 2 ^ 63 := by have := Nat.le_mul_of_pos_right nx hnyp; omega
  have hny63 : ny < 2 ^ 63 := by have := Nat.le_mul_of_pos_left ny hnxp; omega
  have hcongr : ∀ s, forRange ny (fun by' s => do
          let posY ← pvPos by' ny
          forRange nx (fun bx (s : List PvInfo × List UInt32 × List UInt32) => do
            let (loc, buffer, image) := s
            let posX ← pvPos bx nx
            let loc ← pvLocal infos posX posY (min nx ny) loc
            let m ← mortonIndex bx by' (min nx ny)
            let m8 ← mulU 64 m 8
            let _ ← sliceFrom data m8
            let buffer ← (if is2 then applicateColor2 loc buffer else applicateColor4 loc buffer)
            let image ← copyBlockBuffer bx by' w h (bw is2) 4 buffer image
            pure (loc, buffer, image)) s) s =
      forRange ny (fun by' s =>
          forRange nx (fun bx (s : List PvInfo × List UInt32 × List UInt32) => (do
            let (loc, buffer, image) := s
            let posX ← pvPos bx nx
            let loc ← pvLocal infos posX [nbPos ny by' 0, nbPos ny by' 1, nbPos ny by' 2]
              (min nx ny) loc
            let m ← mortonIndex bx by' (min nx ny)
            let m8 ← mulU 64 m 8
            let _ ← sliceFrom data m8
            let buffer ← (if is2 then applicateColor2 loc buffer else applicateColor4 loc buffer)
            let image ← copyBlockBuffer bx by' w h (bw is2) 4 buffer image
            pure (loc, buffer, image))) s) s := by
    intro s
    refine forRange_congr (fun by' hby s => ?_)
    rw [pvPos_eq hby hny63, Out.ok_bind]
  rw [hcongr]
  obtain ⟨s, e, -, hlen, hpix, hrest⟩ := tileLoop
    (S := List PvInfo × List UInt32 × List UInt32) (fun s => s.2.2)
    (fun _ s => s.1.length = 9 ∧ s.2.1.length = 32) (w := w) (h := h) (bw := bw is2) (bh := 4)
    (nx := nx) (ny := ny)
    (fun by' bx s => (do
            let (loc, buffer, image) := s
            let posX ← pvPos bx nx
            let loc ← pvLocal infos posX [nbPos ny by' 0, nbPos ny by' 1, nbPos ny by' 2]
              (min nx ny) loc
            let m ← mortonIndex bx by' (min nx ny)
            let m8 ← mulU 64 m 8
            let _ ← sliceFrom data m8
            let buffer ← (if is2 then applicateColor2 loc buffer else applicateColor4 loc buffer)
            let image ← copyBlockBuffer bx by' w h (bw is2) 4 buffer image
            pure (loc, buffer, image)))
    (fun bx by' t => paint is2 data nx ny bx by' t)
    (List.replicate 9 PvInfo.zero, List.replicate 32 0, image) (by omega) (by omega) (by omega)
    hnx hny hwh himl ⟨List.length_replicate, List.length_replicate⟩
    (by
      rintro by' bx hby hbx ⟨loc, buf, img⟩ ⟨hl, hb⟩
      simp only at hl hb ⊢
      obtain ⟨loc', el, hlok⟩ := pvLocal_spec hx hy hn61 hbx hby hinfos hl
      obtain ⟨em, hm⟩ := morton_grid hx hy hn61 hbx hby
      have hap : ∃ buf', (if is2 = true then applicateColor2 loc' buf else applicateColor4 loc' buf) =
          .ok buf' ∧ buf'.length = buf.length ∧
          ∀ t, t < bw is2 * 4 → buf'[t]? = some (paint is2 data nx ny bx by' t) := by
        cases is2
        · exact applicateColor4_spec hlok (by omega)
        · exact applicateColor2_spec hlok (by omega)
      obtain ⟨buf', ea, hbl, hbt⟩ := hap
      refine ⟨buf', by omega, hbt, ?_⟩
      intro im hc
      rw [pvPos_eq hbx hnx63, Out.ok_bind, el, Out.ok_bind, em, Out.ok_bind, mulU_ok (by omega),
        Out.ok_bind, sliceFrom_ok (by omega), Out.ok_bind, ea, Out.ok_bind, hc, Out.ok_bind]
      exact ⟨_, rfl, rfl, hlok.1, by simp only; omega⟩)
  refine ⟨s, e, hlen, ?_, hrest⟩
  intro x y hxw hyh
  rw [hpix x y hxw hyh, ← hnx, ← hny, texel_eq]
  · rw [hnx]; exact div_lt_ceilDiv (by omega) hxw
  · rw [hny]; exact div_lt_ceilDiv (by omega) hyh

/-- `decode_pvrtc` up to the checks. -/
theorem pv_checks {is2 : Bool} {data : List UInt8} {w h : Nat} {image : List UInt32}
    (hs : Spec.SizesOk (bw is2) 4 8 w h image) (hw : 0 < w) (hh : 0 < h) :
    (data.length < Spec.numBlocks (bw is2) 4 w h * bw is2 →
      decodePvrtc data w h image is2 = .ok (.error "The data buffer is too small!", image)) ∧
    (Spec.numBlocks (bw is2) 4 w h * bw is2 ≤ data.length → image.length < w * h →
      decodePvrtc data w h image is2 = .ok (.error "The image buffer is too small!", image)) ∧
    (Spec.numBlocks (bw is2) 4 w h * bw is2 ≤ data.length → w * h ≤ image.length →
      ¬ (IsPow2 (Spec.ceilDiv w (bw is2)) ∧ IsPow2 (Spec.ceilDiv h 4)) →
      decodePvrtc data w h image is2 =
        .ok (.error "The number of blocks of each side must be a power of 2!", image)) ∧
    (Spec.numBlocks (bw is2) 4 w h * bw is2 ≤ data.length → w * h ≤ image.length →
      IsPow2 (Spec.ceilDiv w (bw is2)) ∧ IsPow2 (Spec.ceilDiv h 4) →
      decodePvrtc data w h image is2 = (do
        let nbx := Spec.ceilDiv w (bw is2)
        let nby := Spec.ceilDiv h 4
        let minDim := min nbx nby
        let infos ← pvInfos is2 data (nbx * nby)
        let (_, _, image) ← forRange nby (fun by' s => do
          let posY ← pvPos by' nby
          forRange nbx (fun bx (s : List PvInfo × List UInt32 × List UInt32) => do
            let (loc, buffer, image) := s
            let posX ← pvPos bx nbx
            let loc ← pvLocal infos posX posY minDim loc
            let m ← mortonIndex bx by' minDim
            let m8 ← mulU 64 m 8
            let _ ← sliceFrom data m8
            let buffer ← (if is2 then applicateColor2 loc buffer else applicateColor4 loc buffer)
            let image ← copyBlockBuffer bx by' w h (bw is2) 4 buffer image
            pure (loc, buffer, image)) s)
          (List.replicate 9 PvInfo.zero, List.replicate 32 0, image)
        pure (.ok (), image))) := by
  have hbw := bw_cases is2
  have hb := hs.bytes_fit
  unfold Spec.bytesNeeded at hb
  have hle : Spec.numBlocks (bw is2) 4 w h * bw is2 ≤ Spec.numBlocks (bw is2) 4 w h * 8 :=
    Nat.mul_le_mul_left _ (by omega)
  have hnx0 : 0 < Spec.ceilDiv w (bw is2) := Nat.lt_of_le_of_lt (Nat.zero_le _) (div_lt_ceilDiv (by omega) hw)
  have hny0 : 0 < Spec.ceilDiv h 4 := Nat.lt_of_le_of_lt (Nat.zero_le _) (div_lt_ceilDiv (by omega) hh)
  obtain ⟨b1, e1, hb1⟩ := pvNotPow2_eq hnx0
  obtain ⟨b2, e2, hb2⟩ := pvNotPow2_eq hny0
  have hpre : ∀ (k : Nat → Nat → Nat → Nat → Out (Except String Unit × List UInt32)),
      (do
        let nbx ← divCeil w (if is2 = true then 8 else 4)
        let nby ← divCeil h 4
        let n ← mulU 64 nbx nby
        let need ← mulU 64 n (if is2 = true then 8 else 4)
        k nbx nby n need) =
      k (Spec.ceilDiv w (bw is2)) (Spec.ceilDiv h 4) (Spec.numBlocks (bw is2) 4 w h)
        (Spec.numBlocks (bw is2) 4 w h * bw is2) := by
    intro k
    have hf : (if is2 = true then 8 else 4) = bw is2 := rfl
    rw [hf, divCeil_ok (by omega), Out.ok_bind, divCeil_ok (by omega), Out.ok_bind]
    unfold Spec.numBlocks at hle hb ⊢
    unfold Spec.ceilDiv at *
    rw [mulU_ok (by omega), Out.ok_bind, mulU_ok (by omega), Out.ok_bind]
  refine ⟨?_, ?_, ?_, ?_⟩
  · intro hd
    unfold decodePvrtc
    simp only
    rw [hpre, if_pos hd]; rfl
  · intro hd hi
    unfold decodePvrtc
    simp only
    rw [hpre, if_neg (by omega), mulU_ok hs.pixels_fit, Out.ok_bind, if_pos hi]; rfl
  · intro hd hi hp
    unfold decodePvrtc
    simp only
    rw [hpre, if_neg (by omega), mulU_ok hs.pixels_fit, Out.ok_bind, if_neg (by omega), e1,
      Out.ok_bind, e2]
    cases b1
    · cases b2
      · exact absurd ⟨hb1.mp rfl, hb2.mp rfl⟩ hp
      · rfl
    · rfl
  · intro hd hi hp
    obtain rfl := hb1.mpr hp.1
    obtain rfl := hb2.mpr hp.2
    unfold decodePvrtc
    simp only
    rw [hpre, if_neg (by omega), mulU_ok hs.pixels_fit, Out.ok_bind, if_neg (by omega), e1,
      Out.ok_bind, e2]
    rfl

theorem pv_success {is2 : Bool} {data : List UInt8} {w h : Nat} {image : List UInt32}
    (hs : Spec.SizesOk (bw is2) 4 8 w h image) (hw : 0 < w) (hh : 0 < h)
    (hd : Spec.bytesNeeded (bw is2) 4 8 w h ≤ data.length) (hi : w * h ≤ image.length)
    (hp : IsPow2 (Spec.ceilDiv w (bw is2)) ∧ IsPow2 (Spec.ceilDiv h 4)) :
    ∃ out, decodePvrtc data w h image is2 = .ok (.ok (), out) ∧
      Spec.Pvrtc.IsDecoded is2 data w h image out := by
  have hbw := bw_cases is2
  have hb := hs.bytes_fit
  unfold Spec.bytesNeeded at hb hd
  have hle : Spec.numBlocks (bw is2) 4 w h * bw is2 ≤ Spec.numBlocks (bw is2) 4 w h * 8 :=
    Nat.mul_le_mul_left _ (by omega)
  rw [(pv_checks hs hw hh).2.2.2 (by omega) hi hp]
  unfold Spec.numBlocks at hb hd
  obtain ⟨infos, ei, -, hinf⟩ := pvInfos_spec (is2 := is2) hd hb
  obtain ⟨s, e, hdec⟩ := pv_main rfl rfl hp.1 hp.2 hd hb hinf hi hs.image_len
  simp only
  rw [ei, Out.ok_bind, e, Out.ok_bind]
  exact ⟨_, rfl, hdec⟩

/-- A truncated block makes the extraction of the block data panic. -/
theorem pvInfos_panic {is2 : Bool} {data : List UInt8} {n : Nat} (hd : data.length < n * 8)
    (hn : n * 8 < 2 ^ 64) : pvInfos is2 data n = .panic := by
  cases e : pvInfos is2 data n with
  | panic => rfl
  | ok r =>
    exfalso
    unfold pvInfos at e
    obtain ⟨s, es, -⟩ := Out.bind_eq_ok.mp e
    have := forRange_ok_inv' es (P := fun k s => s.1 = k * 8 ∧ k * 8 ≤ data.length) ⟨rfl, by omega⟩
      (by
        rintro k hk ⟨off, infos⟩ s' ⟨ho, hl⟩ h
        simp only at ho h
        subst ho
        rw [sliceFrom_ok hl, Out.ok_bind] at h
        obtain ⟨i1, h1, h⟩ := Out.bind_eq_ok.mp h
        rw [Out.ok_bind] at h
        obtain ⟨i2, -, h⟩ := Out.bind_eq_ok.mp h
        rw [addU_ok (by omega), Out.ok_bind] at h
        have h := Out.ok.inj h
        rw [← h]
        refine ⟨by simp only; omega, ?_⟩
        unfold getTexelColors at h1
        obtain ⟨b1, -, h1⟩ := Out.bind_eq_ok.mp h1
        obtain ⟨b2, h2, -⟩ := Out.bind_eq_ok.mp h1
        unfold slice at h2
        split at h2
        · next hc => have := hc.2; simp at this; omega
        · cases h2)
    omega

end Verif.Proofs.Pvrtc
