import Verif.Proofs.PvrtcInfo

/-! # Painting a PVRTC block from its neighbourhood -/

namespace Verif.Proofs.Pvrtc

open Verif Verif.Model Verif.Proofs
open Verif.Spec.Pvrtc (colourA colourB widen4 widen3 mode weight4 transparent4 stored2 standard punch
  dist bw to8)

/-! ## Bounds -/

theorem colourA_le (blk : List UInt8) (ch : Nat) : colourA blk ch ≤ 31 := by
  unfold colourA widen4 widen3
  have := field_lt blk 42 5
  have := field_lt blk 37 5
  have := field_lt blk 33 4
  have := field_lt blk 40 4
  have := field_lt blk 36 4
  have := field_lt blk 33 3
  have := field_lt blk 44 3
  split <;> split <;> omega

theorem colourA_alpha (blk : List UInt8) : colourA blk 3 ≤ 15 := by
  unfold colourA
  have := field_lt blk 44 3
  simp only
  split <;> omega

theorem colourB_le (blk : List UInt8) (ch : Nat) : colourB blk ch ≤ 31 := by
  unfold colourB widen4
  have := field_lt blk 58 5
  have := field_lt blk 53 5
  have := field_lt blk 48 5
  have := field_lt blk 56 4
  have := field_lt blk 52 4
  have := field_lt blk 48 4
  have := field_lt blk 60 3
  split <;> split <;> omega

theorem colourB_alpha (blk : List UInt8) : colourB blk 3 ≤ 15 := by
  unfold colourB
  have := field_lt blk 60 3
  simp only
  split <;> omega

/-! ## Interpolation weights -/

/-- Weight of neighbour `c` (0 before, 1 own, 2 after) for texel `x` of a block of `n` texels. -/
def iw (n x c : Nat) : Nat :=
  match c with
  | 0 => if 2 * x < n then n - dist n x else 0
  | 1 => if 2 * x < n then dist n x else n - dist n x
  | _ => if 2 * x < n then 0 else dist n x

theorem interp_row (is2 : Bool) {x : Nat} (hx : x < bw is2) :
    ∃ row, (if is2 then pvInterp8 else pvInterp4)[x]? = some row ∧
      ∀ c, c < 3 → row[c]? = some (iw (bw is2) x c : Int) := by
  have k4 : ∀ x, x < 4 → (pvInterp4[x]?).isSome = true ∧ ∀ c, c < 3 →
      (pvInterp4[x]?.bind (·[c]?)) = some (iw 4 x c : Int) := by decide
  have k8 : ∀ x, x < 8 → (pvInterp8[x]?).isSome = true ∧ ∀ c, c < 3 →
      (pvInterp8[x]?.bind (·[c]?)) = some (iw 8 x c : Int) := by decide
  cases is2
  · obtain ⟨h1, h2⟩ := k4 x hx
    obtain ⟨row, e⟩ := Option.isSome_iff_exists.mp h1
    refine ⟨row, e, fun c hc => ?_⟩
    have := h2 c hc
    rw [e] at this; exact this
  · obtain ⟨h1, h2⟩ := k8 x hx
    obtain ⟨row, e⟩ := Option.isSome_iff_exists.mp h1
    refine ⟨row, e, fun c hc => ?_⟩
    have := h2 c hc
    rw [e] at this; exact this

theorem iw_le {n x c : Nat} (hn : n = 4 ∨ n = 8) : iw n x c ≤ n := by
  unfold iw dist
  rcases hn with rfl | rfl <;> split <;> split <;> omega

/-- Contribution of neighbour `k` (in raster order) to a blended channel. -/
def term (c : Nat → Nat → Nat) (n x y k : Nat) : Nat :=
  c (k % 3) (k / 3) * (iw n x (k % 3) * iw 4 y (k / 3))

def psum (f : Nat → Nat) : Nat → Nat
  | 0 => 0
  | k + 1 => psum f k + f k

/-- The blended channel, times `4 n`. -/
def blend (c : Nat → Nat → Nat) (n x y : Nat) : Nat := psum (term c n x y) 9

theorem psum_le {f : Nat → Nat} {b : Nat} (h : ∀ k, f k ≤ b) : ∀ k, psum f k ≤ b * k := by
  intro k
  induction k with
  | zero => simp [psum]
  | succ k ih => have := h k; unfold psum; rw [Nat.mul_succ]; omega

theorem term_le {c : Nat → Nat → Nat} {n x y : Nat} (hn : n = 4 ∨ n = 8)
    (hc : ∀ i j, c i j ≤ 31) (k : Nat) : term c n x y k ≤ 992 := by
  unfold term
  have h1 := iw_le (x := x) (c := k % 3) hn
  have h2 := iw_le (n := 4) (x := y) (c := k / 3) (Or.inl rfl)
  have h3 : iw n x (k % 3) ≤ 8 := by omega
  exact Nat.mul_le_mul (hc _ _) (Nat.mul_le_mul h3 h2)

/-- The three values along a row, blended. -/
theorem row_blend (a : Nat → Nat) (n x : Nat) :
    a 0 * iw n x 0 + a 1 * iw n x 1 + a 2 * iw n x 2 =
      (if 2 * x < n then a 0 else a 1) * (n - dist n x) +
      (if 2 * x < n then a 1 else a 2) * dist n x := by
  simp only [iw]
  split <;> simp

theorem blend_eq (c : Nat → Nat → Nat) (n x y : Nat) :
    blend c n x y =
      (let r := fun j => (if 2 * x < n then c 0 j else c 1 j) * (n - dist n x) +
        (if 2 * x < n then c 1 j else c 2 j) * dist n x
      (if 2 * y < 4 then r 0 else r 1) * (4 - dist 4 y) +
        (if 2 * y < 4 then r 1 else r 2) * dist 4 y) := by
  simp only
  have hr := fun j => row_blend (fun i => c i j) n x
  have hcol := row_blend (fun j => (if 2 * x < n then c 0 j else c 1 j) * (n - dist n x) +
        (if 2 * x < n then c 1 j else c 2 j) * dist n x) 4 y
  rw [← hcol, ← hr 0, ← hr 1, ← hr 2]
  unfold blend
  simp only [psum, term, Nat.reduceMod, Nat.reduceDiv, Nat.zero_add, Nat.add_mul, Nat.mul_assoc,
    Nat.add_assoc]

theorem blend_le {c : Nat → Nat → Nat} {n x y b : Nat} (hn : n = 4 ∨ n = 8)
    (hc : ∀ i j, c i j ≤ b) : blend c n x y ≤ b * n * 4 := by
  rw [blend_eq]
  have hd : dist n x < n := Nat.mod_lt _ (by omega)
  have hd4 : dist 4 y < 4 := Nat.mod_lt _ (by omega)
  have row : ∀ p q d n, p ≤ b → q ≤ b → d < n → p * (n - d) + q * d ≤ b * n := by
    intro p q d n hp hq hd
    have h1 := Nat.mul_le_mul_right (n - d) hp
    have h2 := Nat.mul_le_mul_right d hq
    have h3 : b * (n - d) + b * d = b * n := by rw [← Nat.mul_add]; congr 1; omega
    omega
  have col : ∀ p q d, p ≤ b * n → q ≤ b * n → d < 4 → p * (4 - d) + q * d ≤ b * n * 4 := by
    intro p q d hp hq hd
    have h1 := Nat.mul_le_mul_right (4 - d) hp
    have h2 := Nat.mul_le_mul_right d hq
    have h3 : b * n * (4 - d) + b * n * d = b * n * 4 := by rw [← Nat.mul_add]; congr 1; omega
    omega
  simp only
  refine col _ _ _ ?_ ?_ hd4
  · split
    · exact row _ _ _ _ (by split <;> apply hc) (by split <;> apply hc) hd
    · exact row _ _ _ _ (by split <;> apply hc) (by split <;> apply hc) hd
  · split
    · exact row _ _ _ _ (by split <;> apply hc) (by split <;> apply hc) hd
    · exact row _ _ _ _ (by split <;> apply hc) (by split <;> apply hc) hd

theorem bw_cases (is2 : Bool) : bw is2 = 4 ∨ bw is2 = 8 := by cases is2 <;> simp [bw]

theorem to8_le {is2 : Bool} {ch s : Nat} (h : s ≤ (if ch = 3 then 15 else 31) * bw is2 * 4) :
    to8 is2 ch s ≤ 255 := by
  by_cases hch : ch = 3
  · subst hch
    rw [if_pos rfl] at h
    cases is2 <;> simp only [bw, to8, Bool.false_eq_true, if_false, if_true] at h ⊢ <;> omega
  · rw [if_neg hch] at h
    have e : to8 is2 ch s = if is2 then s / 4 + s / 128 else s / 2 + s / 64 := by
      unfold to8
      cases is2 <;> split <;> first | rfl | contradiction
    rw [e]
    cases is2 <;> simp only [bw, Bool.false_eq_true, if_false, if_true] at h ⊢ <;> omega

variable [Build]

/-! ## The neighbourhood -/

/-- The nine infos hold what the nine blocks `B cx cy` say. -/
def LocalOk (is2 : Bool) (B : Nat → Nat → List UInt8) (loc : List PvInfo) : Prop :=
  loc.length = 9 ∧ ∀ k, k < 9 → ∃ info, loc[k]? = some info ∧ Good is2 (B (k % 3) (k / 3)) info

theorem pvAccumulate_eq {s0 s1 s2 s3 c0 c1 c2 c3 w : Nat} (h0 : s0 ≤ 10000) (h1 : s1 ≤ 10000)
    (h2 : s2 ≤ 10000) (h3 : s3 ≤ 10000) (k0 : c0 * w ≤ 992) (k1 : c1 * w ≤ 992) (k2 : c2 * w ≤ 992)
    (k3 : c3 * w ≤ 992) :
    pvAccumulate ⟨s0, s1, s2, s3⟩ ⟨c0, c1, c2, c3⟩ w =
      .ok ⟨(s0 + c0 * w : Nat), (s1 + c1 * w : Nat), (s2 + c2 * w : Nat), (s3 + c3 * w : Nat)⟩ := by
  unfold pvAccumulate
  simp only
  have e : ∀ c : Nat, c * w ≤ 992 → mulI 32 (c : Int) (w : Int) = .ok ((c * w : Nat) : Int) := by
    intro c hc
    rw [mulI32_ok] <;> rw [← Int.natCast_mul] <;> omega
  rw [e _ k0, e _ k1, e _ k2, e _ k3, Out.ok_bind, addI32_ok (by omega) (by omega), Out.ok_bind,
    Out.ok_bind, addI32_ok (by omega) (by omega), Out.ok_bind, Out.ok_bind,
    addI32_ok (by omega) (by omega), Out.ok_bind, Out.ok_bind, addI32_ok (by omega) (by omega),
    Out.ok_bind]
  simp only [Int.natCast_add, Out.pure_eq]

/-- A colour record from four channels. -/
def recInt (f : Nat → Nat) : PvColorInt := ⟨f 0, f 1, f 2, f 3⟩

theorem pvNeighbours_eq {is2 : Bool} {B : Nat → Nat → List UInt8} {loc : List PvInfo}
    {wx wy : List Int} {n x y : Nat} (hn : n = 4 ∨ n = 8) (hloc : LocalOk is2 B loc)
    (hwx : ∀ c, c < 3 → wx[c]? = some (iw n x c : Int))
    (hwy : ∀ c, c < 3 → wy[c]? = some (iw 4 y c : Int)) :
    pvNeighbours loc wx wy =
      .ok (recInt (fun ch => blend (fun i j => colourA (B i j) ch) n x y),
        recInt (fun ch => blend (fun i j => colourB (B i j) ch) n x y)) := by
  unfold pvNeighbours
  have hcongr : ∀ s, forRange 3 (fun acy s =>
      forRange 3 (fun acx (s : Nat × PvColorInt × PvColorInt) => do
        let (ac, a, b) := s
        let p ← idx wx acx
        let q ← idx wy acy
        let w ← mulI 32 p q
        let t ← idx loc ac
        let a ← pvAccumulate a t.a w
        let b ← pvAccumulate b t.b w
        let ac ← addU 64 ac 1
        pure (ac, a, b)) s) s = forRange (3 * 3) (fun k (s : Nat × PvColorInt × PvColorInt) => do
        let (ac, a, b) := s
        let p ← idx wx (k % 3)
        let q ← idx wy (k / 3)
        let w ← mulI 32 p q
        let t ← idx loc ac
        let a ← pvAccumulate a t.a w
        let b ← pvAccumulate b t.b w
        let ac ← addU 64 ac 1
        pure (ac, a, b)) s := by
    intro s
    rw [← forRange_nested]
    refine forRange_congr (fun i hi s => forRange_congr (fun j hj s => ?_))
    rw [show (i * 3 + j) % 3 = j by omega, show (i * 3 + j) / 3 = i by omega]
  rw [hcongr]
  obtain ⟨s, e, hs⟩ := forRange_inv (n := 3 * 3)
    (f := fun k (s : Nat × PvColorInt × PvColorInt) => do
        let (ac, a, b) := s
        let p ← idx wx (k % 3)
        let q ← idx wy (k / 3)
        let w ← mulI 32 p q
        let t ← idx loc ac
        let a ← pvAccumulate a t.a w
        let b ← pvAccumulate b t.b w
        let ac ← addU 64 ac 1
        pure (ac, a, b)) (s := (0, PvColorInt.zero, PvColorInt.zero))
    (fun k s => s = (k, recInt (fun ch => psum (term (fun i j => colourA (B i j) ch) n x y) k),
      recInt (fun ch => psum (term (fun i j => colourB (B i j) ch) n x y) k))) rfl
    (by
      rintro k hk s rfl
      simp only
      obtain ⟨info, hi, g⟩ := hloc.2 k (by omega)
      have hmod : k % 3 < 3 := Nat.mod_lt _ (by omega)
      have w1 := iw_le (x := x) (c := k % 3) hn
      have w2 := iw_le (n := 4) (x := y) (c := k / 3) (Or.inl rfl)
      have w3 : iw n x (k % 3) * iw 4 y (k / 3) ≤ 8 * 4 := Nat.mul_le_mul (by omega) w2
      rw [idx_of_some (hwx _ hmod), Out.ok_bind, idx_of_some (hwy _ (by omega)), Out.ok_bind,
        mulI32_ok (by rw [← Int.natCast_mul]; omega) (by rw [← Int.natCast_mul]; omega), Out.ok_bind,
        idx_of_some hi, Out.ok_bind, g.a, g.b, ← Int.natCast_mul]
      unfold recA recB recInt
      have bA : ∀ ch, psum (term (fun i j => colourA (B i j) ch) n x y) k ≤ 10000 := fun ch => by
        have := psum_le (term_le (x := x) (y := y) hn
          (fun i j => colourA_le (B i j) ch)) k
        omega
      have bB : ∀ ch, psum (term (fun i j => colourB (B i j) ch) n x y) k ≤ 10000 := fun ch => by
        have := psum_le (term_le (x := x) (y := y) hn
          (fun i j => colourB_le (B i j) ch)) k
        omega
      have tA := fun ch => term_le (x := x) (y := y) hn (fun i j => colourA_le (B i j) ch) k
      have tB := fun ch => term_le (x := x) (y := y) hn (fun i j => colourB_le (B i j) ch) k
      unfold term at tA tB
      rw [pvAccumulate_eq (bA 0) (bA 1) (bA 2) (bA 3) (tA 0) (tA 1) (tA 2) (tA 3), Out.ok_bind,
        pvAccumulate_eq (bB 0) (bB 1) (bB 2) (bB 3) (tB 0) (tB 1) (tB 2) (tB 3), Out.ok_bind,
        addU_ok (by omega), Out.ok_bind]
      exact ⟨_, rfl, rfl⟩)
  rw [e, hs]
  rfl

theorem pvScale_eq {s t v : Nat} (hs : s < 32) (ht : t < 32) (hv : v ≤ 10000) :
    pvScale s t v = .ok ((v / 2 ^ s + v / 2 ^ t : Nat) : Int) := by
  unfold pvScale shrI
  rw [if_pos hs, Out.ok_bind, if_pos ht, Out.ok_bind]
  have h1 : v / 2 ^ s ≤ v := Nat.div_le_self _ _
  have h2 : v / 2 ^ t ≤ v := Nat.div_le_self _ _
  have e1 : (v : Int) / 2 ^ s = ((v / 2 ^ s : Nat) : Int) := by
    rw [Int.natCast_ediv, Int.natCast_pow]; rfl
  have e2 : (v : Int) / 2 ^ t = ((v / 2 ^ t : Nat) : Int) := by
    rw [Int.natCast_ediv, Int.natCast_pow]; rfl
  rw [e1, e2]
  generalize v / 2 ^ s = p at *
  generalize v / 2 ^ t = q at *
  rw [addI32_ok (by omega) (by omega), Int.natCast_add]

theorem pvScaleColor_eq {is2 : Bool} {f : Nat → Nat} (hf : ∀ ch, f ch ≤ 10000) :
    pvScaleColor is2 (recInt f) = .ok (recInt (fun ch => to8 is2 ch (f ch))) := by
  unfold pvScaleColor recInt
  cases is2
  · simp only [Bool.false_eq_true, if_false]
    rw [pvScale_eq (by omega) (by omega) (hf 0), Out.ok_bind,
      pvScale_eq (by omega) (by omega) (hf 1), Out.ok_bind,
      pvScale_eq (by omega) (by omega) (hf 2), Out.ok_bind,
      pvScale_eq (by omega) (by omega) (hf 3), Out.ok_bind]
    simp only [to8, Nat.reducePow, Nat.div_one, Out.pure_eq]
  · simp only [if_true]
    rw [pvScale_eq (by omega) (by omega) (hf 0), Out.ok_bind,
      pvScale_eq (by omega) (by omega) (hf 1), Out.ok_bind,
      pvScale_eq (by omega) (by omega) (hf 2), Out.ok_bind,
      pvScale_eq (by omega) (by omega) (hf 3), Out.ok_bind]
    simp only [to8, Nat.reducePow, Out.pure_eq]

/-- The two 8-bit colours at texel (`x`, `y`) of the middle block. -/
def firstOf (is2 : Bool) (B : Nat → Nat → List UInt8) (x y ch : Nat) : Nat :=
  to8 is2 ch (blend (fun i j => colourA (B i j) ch) (bw is2) x y)
def secondOf' (is2 : Bool) (B : Nat → Nat → List UInt8) (x y ch : Nat) : Nat :=
  to8 is2 ch (blend (fun i j => colourB (B i j) ch) (bw is2) x y)

omit [Build] in
theorem firstOf_le (is2 : Bool) (B : Nat → Nat → List UInt8) (x y ch : Nat) :
    firstOf is2 B x y ch ≤ 255 := by
  refine to8_le (blend_le (bw_cases is2) (fun i j => ?_))
  by_cases h : ch = 3
  · rw [if_pos h, h]; exact colourA_alpha _
  · rw [if_neg h]; exact colourA_le _ _

omit [Build] in
theorem secondOf'_le (is2 : Bool) (B : Nat → Nat → List UInt8) (x y ch : Nat) :
    secondOf' is2 B x y ch ≤ 255 := by
  refine to8_le (blend_le (bw_cases is2) (fun i j => ?_))
  by_cases h : ch = 3
  · rw [if_pos h, h]; exact colourB_alpha _
  · rw [if_neg h]; exact colourB_le _ _

theorem pvColors_spec {is2 : Bool} {B : Nat → Nat → List UInt8} {loc : List PvInfo}
    (hloc : LocalOk is2 B loc) :
    ∃ ca cb, pvColors is2 loc = .ok (ca, cb) ∧ ∀ k, k < 4 * bw is2 →
      ca[k]? = some (recInt (firstOf is2 B (k % bw is2) (k / bw is2))) ∧
      cb[k]? = some (recInt (secondOf' is2 B (k % bw is2) (k / bw is2))) := by
  unfold pvColors
  have hnx : (if is2 = true then 8 else 4) = bw is2 := rfl
  have hn : (if is2 = true then 32 else 16) = 4 * bw is2 := by cases is2 <;> rfl
  simp only [hnx, hn]
  have hbw := bw_cases is2
  have hcongr : ∀ s, forRange 4 (fun y s =>
    forRange (bw is2) (fun x (s : Nat × List PvColorInt × List PvColorInt) => do
      let (i, ca, cb) := s
      let wx ← idx (if is2 then pvInterp8 else pvInterp4) x
      let wy ← idx pvInterp4 y
      let (a, b) ← pvNeighbours loc wx wy
      let a ← pvScaleColor is2 a
      let b ← pvScaleColor is2 b
      let ca ← setIdx ca i a
      let cb ← setIdx cb i b
      let i ← addU 64 i 1
      pure (i, ca, cb)) s) s = forRange (4 * bw is2)
        (fun k (s : Nat × List PvColorInt × List PvColorInt) => do
      let (i, ca, cb) := s
      let wx ← idx (if is2 then pvInterp8 else pvInterp4) (k % bw is2)
      let wy ← idx pvInterp4 (k / bw is2)
      let (a, b) ← pvNeighbours loc wx wy
      let a ← pvScaleColor is2 a
      let b ← pvScaleColor is2 b
      let ca ← setIdx ca i a
      let cb ← setIdx cb i b
      let i ← addU 64 i 1
      pure (i, ca, cb)) s := by
    intro s
    rw [← forRange_nested]
    refine forRange_congr (fun i hi s => forRange_congr (fun j hj s => ?_))
    have h1 : (i * bw is2 + j) % bw is2 = j := by
      rw [Nat.mul_add_mod_self_right, Nat.mod_eq_of_lt hj]
    have h2 : (i * bw is2 + j) / bw is2 = i := by
      rw [Nat.mul_comm, Nat.mul_add_div (by omega), Nat.div_eq_of_lt hj, Nat.add_zero]
    rw [h1, h2]
  rw [hcongr]
  obtain ⟨s, e, hs⟩ := forRange_inv (n := 4 * bw is2)
    (f := fun k (s : Nat × List PvColorInt × List PvColorInt) => do
      let (i, ca, cb) := s
      let wx ← idx (if is2 then pvInterp8 else pvInterp4) (k % bw is2)
      let wy ← idx pvInterp4 (k / bw is2)
      let (a, b) ← pvNeighbours loc wx wy
      let a ← pvScaleColor is2 a
      let b ← pvScaleColor is2 b
      let ca ← setIdx ca i a
      let cb ← setIdx cb i b
      let i ← addU 64 i 1
      pure (i, ca, cb))
    (s := (0, List.replicate (4 * bw is2) PvColorInt.zero, List.replicate (4 * bw is2) PvColorInt.zero))
    (fun k s => s.1 = k ∧ s.2.1.length = 4 * bw is2 ∧ s.2.2.length = 4 * bw is2 ∧ ∀ j, j < k →
      s.2.1[j]? = some (recInt (firstOf is2 B (j % bw is2) (j / bw is2))) ∧
      s.2.2[j]? = some (recInt (secondOf' is2 B (j % bw is2) (j / bw is2))))
    ⟨rfl, List.length_replicate, List.length_replicate, fun _ h => absurd h (Nat.not_lt_zero _)⟩
    (by
      rintro k hk ⟨i, ca, cb⟩ ⟨hi, h1, h2, h3⟩
      simp only at hi h1 h2 h3 ⊢
      subst hi
      have hm : i % bw is2 < bw is2 := Nat.mod_lt _ (by omega)
      have hdv : i / bw is2 < 4 := by rw [Nat.div_lt_iff_lt_mul (by omega)]; exact hk
      obtain ⟨wx, ex, hwx⟩ := interp_row is2 hm
      obtain ⟨wy, ey, hwy⟩ := interp_row false (x := i / bw is2) hdv
      have ey : pvInterp4[i / bw is2]? = some wy := ey
      rw [idx_of_some ex, Out.ok_bind, idx_of_some ey, Out.ok_bind,
        pvNeighbours_eq hbw hloc hwx hwy, Out.ok_bind]
      simp only
      rw [pvScaleColor_eq (fun ch => by
          have := psum_le (term_le (x := i % bw is2) (y := i / bw is2) hbw
            (fun a b => colourA_le (B a b) ch)) 9
          unfold blend; omega), Out.ok_bind,
        pvScaleColor_eq (fun ch => by
          have := psum_le (term_le (x := i % bw is2) (y := i / bw is2) hbw
            (fun a b => colourB_le (B a b) ch)) 9
          unfold blend; omega), Out.ok_bind,
        setIdx_ok (by omega), Out.ok_bind, setIdx_ok (by omega), Out.ok_bind, addU_ok (by omega),
        Out.ok_bind]
      refine ⟨_, rfl, rfl, by simp only [List.length_set]; exact h1,
        by simp only [List.length_set]; exact h2, ?_⟩
      intro j hj
      simp only [List.getElem?_set]
      by_cases hij : i = j
      · subst hij
        rw [if_pos rfl, if_pos rfl, if_pos (by omega), if_pos (by omega)]
        exact ⟨rfl, rfl⟩
      · rw [if_neg hij, if_neg hij]
        exact h3 j (by omega))
  rw [e, Out.ok_bind]
  exact ⟨_, _, rfl, hs.2.2.2⟩

/-! ## Pixels -/

theorem interpolateColor_eq {a b w : Nat} (ha : a ≤ 255) (hb : b ≤ 255) (hw : w ≤ 8) :
    interpolateColor a b w = .ok ((a * (8 - w) + b * w) / 8) := by
  unfold interpolateColor
  have e1 : (8 : Int) - (w : Int) = ((8 - w : Nat) : Int) := by omega
  have h1 : a * (8 - w) ≤ 255 * (8 - w) := Nat.mul_le_mul_right _ ha
  have h2 : b * w ≤ 255 * w := Nat.mul_le_mul_right _ hb
  rw [subI32_ok (by omega) (by omega), Out.ok_bind, e1,
    mulI32_ok (by rw [← Int.natCast_mul]; omega) (by rw [← Int.natCast_mul]; omega), Out.ok_bind,
    mulI32_ok (by rw [← Int.natCast_mul]; omega) (by rw [← Int.natCast_mul]; omega), Out.ok_bind,
    ← Int.natCast_mul, ← Int.natCast_mul, addI32_ok (by omega) (by omega), Out.ok_bind,
    ← Int.natCast_add]
  have : ((a * (8 - w) + b * w : Nat) : Int).tdiv 8 = (((a * (8 - w) + b * w) / 8 : Nat) : Int) := by
    rw [Int.tdiv_eq_ediv_of_nonneg (by omega)]; rfl
  rw [this, Out.pure_eq]
  congr 1
  unfold asUI
  omega

/-- Channel `ch` of texel (`x`, `y`) of the middle block, mixed with weight `w`. -/
def mix (is2 : Bool) (B : Nat → Nat → List UInt8) (x y w ch : Nat) : Nat :=
  (firstOf is2 B x y ch * (8 - w) + secondOf' is2 B x y ch * w) / 8

theorem pvPixel_eq {is2 : Bool} {B : Nat → Nat → List UInt8} {ca cb : List PvColorInt}
    {flag i x y w : Nat} (hw : w ≤ 8)
    (hca : ca[i]? = some (recInt (firstOf is2 B x y)))
    (hcb : cb[i]? = some (recInt (secondOf' is2 B x y))) :
    pvPixel ca cb flag i w = .ok (Spec.px (mix is2 B x y w 0) (mix is2 B x y w 1)
      (mix is2 B x y w 2) (if flag % 2 = 1 then 0 else mix is2 B x y w 3)) := by
  have k := fun ch => interpolateColor_eq (firstOf_le is2 B x y ch) (secondOf'_le is2 B x y ch) hw
  unfold pvPixel
  rw [idx_of_some hca, Out.ok_bind, idx_of_some hcb, Out.ok_bind]
  simp only [recInt]
  rw [k 0, Out.ok_bind, k 1, Out.ok_bind, k 2, Out.ok_bind, and_1, k 3]
  by_cases h : flag % 2 = 1
  · rw [if_pos (by omega), if_pos h, Out.pure_eq, Out.ok_bind, color_eq]; rfl
  · rw [if_neg (by omega), if_neg h, Out.ok_bind, color_eq]; rfl

omit [Build] in
theorem weight4_le (blk : List UInt8) (t : Nat) : weight4 blk t ≤ 8 := by
  unfold weight4 punch standard
  split <;> split <;> omega

omit [Build] in
theorem stored2_le (blk : List UInt8) (i j : Nat) : stored2 blk i j ≤ 8 := by
  unfold stored2 standard
  have h1 := field_lt blk (2 * (j * 4 + i / 2)) 2
  have h2 := field_lt blk (8 * j + i) 1
  split
  · simp only
    split
    · omega
    · split <;> omega
  · omega

/-- The pixel the 4 bits per pixel decoder stores at position `t` of the middle block. -/
def paint4 (B : Nat → Nat → List UInt8) (t : Nat) : UInt32 :=
  let w := weight4 (B 1 1) t
  Spec.px (mix false B (t % 4) (t / 4) w 0) (mix false B (t % 4) (t / 4) w 1)
    (mix false B (t % 4) (t / 4) w 2)
    (if transparent4 (B 1 1) t then 0 else mix false B (t % 4) (t / 4) w 3)

theorem applicateColor4_spec {B : Nat → Nat → List UInt8} {loc : List PvInfo} {buf : List UInt32}
    (hloc : LocalOk false B loc) (hb : 16 ≤ buf.length) :
    ∃ buf', applicateColor4 loc buf = .ok buf' ∧ buf'.length = buf.length ∧
      ∀ t, t < 16 → buf'[t]? = some (paint4 B t) := by
  unfold applicateColor4
  obtain ⟨ca, cb, e, hc⟩ := pvColors_spec hloc
  obtain ⟨self, hs, g⟩ := hloc.2 4 (by omega)
  rw [e, Out.ok_bind]
  simp only
  rw [idx_of_some hs, Out.ok_bind]
  obtain ⟨l, e, h1, h2, -⟩ := setLoop (n := 16)
    (f := fun i (s : Nat × List UInt32) => do
      let (flag, buf) := s
      let w ← idx self.weight i
      let p ← pvPixel ca cb flag i w
      let buf ← setIdx buf i p
      pure (flag >>> 1, buf))
    (fun i l => (self.punchThrough / 2 ^ i, l)) id (fun i => paint4 B i) buf
    (fun i hi => by simp only [id]; omega) (fun i j _ _ h => h)
    (fun i hi l hl => by
      simp only [id]
      obtain ⟨c1, c2⟩ := hc i hi
      have hw : self.weight[i]? = some (weight4 (B 1 1) i : Int) := g.w4 rfl i hi
      rw [idx_of_some hw, Out.ok_bind, pvPixel_eq (weight4_le _ _) c1 c2, Out.ok_bind,
        setIdx_ok (by omega), Out.ok_bind, div_pow_succ]
      have hp : self.punchThrough / 2 ^ i % 2 = if transparent4 (B 1 1) i then 1 else 0 :=
        g.p4 rfl i hi
      unfold paint4
      rw [hp]
      cases transparent4 (B 1 1) i <;> rfl)
  simp only [Nat.pow_zero, Nat.div_one] at e
  rw [e, Out.ok_bind]
  exact ⟨_, rfl, h1, h2⟩

/-! ## 2 bits per pixel: neighbours -/

theorem neighbour_spec {B : Nat → Nat → List UInt8} {loc : List PvInfo}
    (hloc : LocalOk true B loc) {pos : List (Int × Int)} {k i : Nat} {n d : Int} {cx cy x y : Nat}
    (hp : pos[k]? = some (n, d)) (hn : n = (3 * cy + cx : Nat)) (hcx : cx < 3) (hcy : cy < 3)
    (hd : (i : Int) + d = (8 * y + x : Nat)) (hx : x < 8) (hy : y < 4) (hpar : (x + y) % 2 = 0) :
    pvNeighbourWeight loc pos k i = .ok (stored2 (B cx cy) x y : Int) := by
  unfold pvNeighbourWeight
  rw [idx_of_some hp, Out.ok_bind]
  simp only
  obtain ⟨info, e, g⟩ := hloc.2 (3 * cy + cx) (by omega)
  rw [show (3 * cy + cx) % 3 = cx by omega, show (3 * cy + cx) / 3 = cy by omega] at g
  have en : asUI 64 n = 3 * cy + cx := by rw [hn]; unfold asUI; omega
  have ed : asUI 64 ((8 * y + x : Nat) : Int) = 8 * y + x := by unfold asUI; omega
  rw [en, idx_of_some e, Out.ok_bind, addI32_ok (by omega) (by omega), Out.ok_bind, hd, ed]
  refine idx_of_some ?_
  rw [g.w2 rfl (8 * y + x) (by omega)]
  unfold code2
  rw [show (8 * y + x) % 8 = x by omega, show (8 * y + x) / 8 = y by omega, if_neg (by omega)]

/-- Modulation of texel (`x`, `y`) of the middle block. -/
def weight2Of (B : Nat → Nat → List UInt8) (x y : Nat) : Nat :=
  let left := stored2 (B (if x = 0 then 0 else 1) 1) ((x + 7) % 8) y
  let right := stored2 (B (if x = 7 then 2 else 1) 1) ((x + 1) % 8) y
  let above := stored2 (B 1 (if y = 0 then 0 else 1)) x ((y + 3) % 4)
  let below := stored2 (B 1 (if y = 3 then 2 else 1)) x ((y + 1) % 4)
  if mode (B 1 1) = 1 ∧ (x + y) % 2 = 1 then
    if Spec.field (B 1 1) 0 1 = 0 then (above + below + left + right + 2) / 4
    else if Spec.field (B 1 1) 20 1 = 1 then (above + below + 1) / 2
    else (left + right + 1) / 2
  else stored2 (B 1 1) x y

omit [Build] in
theorem weight2Of_le (B : Nat → Nat → List UInt8) (x y : Nat) : weight2Of B x y ≤ 8 := by
  unfold weight2Of
  simp only
  have h1 := stored2_le (B (if x = 0 then 0 else 1) 1) ((x + 7) % 8) y
  have h2 := stored2_le (B (if x = 7 then 2 else 1) 1) ((x + 1) % 8) y
  have h3 := stored2_le (B 1 (if y = 0 then 0 else 1)) x ((y + 3) % 4)
  have h4 := stored2_le (B 1 (if y = 3 then 2 else 1)) x ((y + 1) % 4)
  have h5 := stored2_le (B 1 1) x y
  generalize stored2 (B (if x = 0 then 0 else 1) 1) ((x + 7) % 8) y = l at *
  generalize stored2 (B (if x = 7 then 2 else 1) 1) ((x + 1) % 8) y = r at *
  generalize stored2 (B 1 (if y = 0 then 0 else 1)) x ((y + 3) % 4) = a at *
  generalize stored2 (B 1 (if y = 3 then 2 else 1)) x ((y + 1) % 4) = b at *
  split
  · split
    · omega
    · split <;> omega
  · exact h5

omit [Build] in
theorem as_small {v : Nat} (h : v ≤ 8) : asI 8 (asUI 8 (v : Int)) = (v : Int) := by
  have key : ∀ v : Nat, v < 9 → asI 8 (asUI 8 (v : Int)) = (v : Int) := by decide
  exact key v (by omega)

theorem avg2 {a b : Nat} (ha : a ≤ 8) (hb : b ≤ 8) :
    (do
      let s ← addI 32 (a : Int) b
      let s ← addI 32 s 1
      pure (asI 8 (asUI 8 (s.tdiv 2)))) = Out.ok (((a + b + 1) / 2 : Nat) : Int) := by
  rw [addI32_ok (by omega) (by omega), Out.ok_bind, addI32_ok (by omega) (by omega), Out.ok_bind,
    Int.tdiv_eq_ediv_of_nonneg (by omega),
    show ((a : Int) + b + 1) / 2 = (((a + b + 1) / 2 : Nat) : Int) by omega, as_small (by omega)]
  rfl

theorem pvResolve_eq {B : Nat → Nat → List UInt8} {loc : List PvInfo}
    (hloc : LocalOk true B loc) {x y : Nat} (hx : x < 8) (hy : y < 4) :
    pvResolve loc x y (8 * y + x) (code2 (B 1 1) (8 * y + x)) = .ok (weight2Of B x y : Int) := by
  unfold code2 weight2Of
  rw [show (8 * y + x) % 8 = x by omega, show (8 * y + x) / 8 = y by omega]
  simp only
  by_cases hc : mode (B 1 1) = 1 ∧ (x + y) % 2 = 1
  · rw [if_pos hc, if_pos hc]
    have hYA : pvPosYA[y]? = some (if y = 0 then (1, 24) else (4, -8)) := by
      have key : ∀ y, y < 4 → pvPosYA[y]? = some (if y = 0 then (1, 24) else (4, -8)) := by decide
      exact key y hy
    have hYB : pvPosYB[y]? = some (if y = 3 then (7, -24) else (4, 8)) := by
      have key : ∀ y, y < 4 → pvPosYB[y]? = some (if y = 3 then (7, -24) else (4, 8)) := by decide
      exact key y hy
    have hXL : pvPosXL[x]? = some (if x = 0 then (3, 7) else (4, -1)) := by
      have key : ∀ x, x < 8 → pvPosXL[x]? = some (if x = 0 then (3, 7) else (4, -1)) := by decide
      exact key x hx
    have hXR : pvPosXR[x]? = some (if x = 7 then (5, -7) else (4, 1)) := by
      have key : ∀ x, x < 8 → pvPosXR[x]? = some (if x = 7 then (5, -7) else (4, 1)) := by decide
      exact key x hx
    have eYA : pvNeighbourWeight loc pvPosYA y (8 * y + x) =
        .ok (stored2 (B 1 (if y = 0 then 0 else 1)) x ((y + 3) % 4) : Int) := by
      by_cases h : y = 0
      · rw [if_pos h] at hYA ⊢
        exact neighbour_spec hloc hYA (by omega) (by omega) (by omega) (by omega) hx (by omega)
          (by omega)
      · rw [if_neg h] at hYA ⊢
        exact neighbour_spec hloc hYA (by omega) (by omega) (by omega) (by omega) hx (by omega)
          (by omega)
    have eYB : pvNeighbourWeight loc pvPosYB y (8 * y + x) =
        .ok (stored2 (B 1 (if y = 3 then 2 else 1)) x ((y + 1) % 4) : Int) := by
      by_cases h : y = 3
      · rw [if_pos h] at hYB ⊢
        exact neighbour_spec hloc hYB (by omega) (by omega) (by omega) (by omega) hx (by omega)
          (by omega)
      · rw [if_neg h] at hYB ⊢
        exact neighbour_spec hloc hYB (by omega) (by omega) (by omega) (by omega) hx (by omega)
          (by omega)
    have eXL : pvNeighbourWeight loc pvPosXL x (8 * y + x) =
        .ok (stored2 (B (if x = 0 then 0 else 1) 1) ((x + 7) % 8) y : Int) := by
      by_cases h : x = 0
      · rw [if_pos h] at hXL ⊢
        exact neighbour_spec hloc hXL (by omega) (by omega) (by omega) (by omega) (by omega) hy
          (by omega)
      · rw [if_neg h] at hXL ⊢
        exact neighbour_spec hloc hXL (by omega) (by omega) (by omega) (by omega) (by omega) hy
          (by omega)
    have eXR : pvNeighbourWeight loc pvPosXR x (8 * y + x) =
        .ok (stored2 (B (if x = 7 then 2 else 1) 1) ((x + 1) % 8) y : Int) := by
      by_cases h : x = 7
      · rw [if_pos h] at hXR ⊢
        exact neighbour_spec hloc hXR (by omega) (by omega) (by omega) (by omega) (by omega) hy
          (by omega)
      · rw [if_neg h] at hXR ⊢
        exact neighbour_spec hloc hXR (by omega) (by omega) (by omega) (by omega) (by omega) hy
          (by omega)
    have h1 := stored2_le (B (if x = 0 then 0 else 1) 1) ((x + 7) % 8) y
    have h2 := stored2_le (B (if x = 7 then 2 else 1) 1) ((x + 1) % 8) y
    have h3 := stored2_le (B 1 (if y = 0 then 0 else 1)) x ((y + 3) % 4)
    have h4 := stored2_le (B 1 (if y = 3 then 2 else 1)) x ((y + 1) % 4)
    generalize stored2 (B (if x = 0 then 0 else 1) 1) ((x + 7) % 8) y = l at *
    generalize stored2 (B (if x = 7 then 2 else 1) 1) ((x + 1) % 8) y = r at *
    generalize stored2 (B 1 (if y = 0 then 0 else 1)) x ((y + 3) % 4) = a at *
    generalize stored2 (B 1 (if y = 3 then 2 else 1)) x ((y + 1) % 4) = b at *
    unfold fillCode pvResolve
    rw [eYA, eYB, eXL, eXR]
    by_cases f0 : Spec.field (B 1 1) 0 1 = 0
    · rw [if_pos f0, if_pos f0, if_neg (by decide), if_neg (by decide), if_pos rfl, Out.ok_bind,
        Out.ok_bind, addI32_ok (by omega) (by omega), Out.ok_bind, Out.ok_bind,
        addI32_ok (by omega) (by omega), Out.ok_bind, Out.ok_bind,
        addI32_ok (by omega) (by omega), Out.ok_bind,
        addI32_ok (by omega) (by omega), Out.ok_bind, Int.tdiv_eq_ediv_of_nonneg (by omega),
        show ((a : Int) + b + l + r + 2) / 4 = (((a + b + l + r + 2) / 4 : Nat) : Int) by omega,
        as_small (by omega)]
      rfl
    · rw [if_neg f0, if_neg f0]
      by_cases f20 : Spec.field (B 1 1) 20 1 = 1
      · rw [if_pos f20, if_pos f20, if_pos rfl, Out.ok_bind, Out.ok_bind]
        exact avg2 h3 h4
      · rw [if_neg f20, if_neg f20, if_neg (by decide), if_pos rfl, Out.ok_bind, Out.ok_bind]
        exact avg2 h1 h2
  · rw [if_neg hc, if_neg hc]
    unfold pvResolve
    rw [if_neg (by omega), if_neg (by omega), if_neg (by omega)]; rfl

/-- The pixel the 2 bits per pixel decoder stores at position `t` of the middle block. -/
def paint2 (B : Nat → Nat → List UInt8) (t : Nat) : UInt32 :=
  let w := weight2Of B (t % 8) (t / 8)
  Spec.px (mix true B (t % 8) (t / 8) w 0) (mix true B (t % 8) (t / 8) w 1)
    (mix true B (t % 8) (t / 8) w 2) (mix true B (t % 8) (t / 8) w 3)

theorem applicateColor2_spec {B : Nat → Nat → List UInt8} {loc : List PvInfo} {buf : List UInt32}
    (hloc : LocalOk true B loc) (hb : 32 ≤ buf.length) :
    ∃ buf', applicateColor2 loc buf = .ok buf' ∧ buf'.length = buf.length ∧
      ∀ t, t < 32 → buf'[t]? = some (paint2 B t) := by
  unfold applicateColor2
  obtain ⟨ca, cb, e, hc⟩ := pvColors_spec hloc
  obtain ⟨self, hs, g⟩ := hloc.2 4 (by omega)
  rw [e, Out.ok_bind]
  simp only
  rw [idx_of_some hs, Out.ok_bind]
  have hcongr : ∀ s, forRange 4 (fun y s =>
    forRange 8 (fun x (s : Nat × Nat × List UInt32) => do
      let (i, flag, buf) := s
      let w ← idx self.weight i
      let w ← pvResolve loc x y i w
      let p ← pvPixel ca cb flag i w
      let buf ← setIdx buf i p
      let i ← addU 64 i 1
      pure (i, flag >>> 1, buf)) s) s = forRange (4 * 8) (fun k (s : Nat × Nat × List UInt32) => do
      let (i, flag, buf) := s
      let w ← idx self.weight i
      let w ← pvResolve loc (k % 8) (k / 8) i w
      let p ← pvPixel ca cb flag i w
      let buf ← setIdx buf i p
      let i ← addU 64 i 1
      pure (i, flag >>> 1, buf)) s := by
    intro s
    rw [← forRange_nested]
    refine forRange_congr (fun i hi s => forRange_congr (fun j hj s => ?_))
    rw [show (i * 8 + j) % 8 = j by omega, show (i * 8 + j) / 8 = i by omega]
  rw [hcongr]
  have hp0 : self.punchThrough = 0 := g.p2 rfl
  obtain ⟨l, e, h1, h2, -⟩ := setLoop (n := 4 * 8)
    (f := fun k (s : Nat × Nat × List UInt32) => do
      let (i, flag, buf) := s
      let w ← idx self.weight i
      let w ← pvResolve loc (k % 8) (k / 8) i w
      let p ← pvPixel ca cb flag i w
      let buf ← setIdx buf i p
      let i ← addU 64 i 1
      pure (i, flag >>> 1, buf))
    (fun i l => (i, 0, l)) id (fun i => paint2 B i) buf
    (fun i hi => by simp only [id]; omega) (fun i j _ _ h => h)
    (fun i hi l hl => by
      simp only [id]
      obtain ⟨c1, c2⟩ := hc i hi
      have hw : self.weight[i]? = some (code2 (B 1 1) i) := g.w2 rfl i hi
      have hr := pvResolve_eq hloc (x := i % 8) (y := i / 8) (by omega) (by omega)
      rw [show 8 * (i / 8) + i % 8 = i by omega] at hr
      rw [idx_of_some hw, Out.ok_bind, hr, Out.ok_bind, pvPixel_eq (weight2Of_le _ _ _) c1 c2,
        Out.ok_bind, setIdx_ok (by omega), Out.ok_bind, addU_ok (by omega), Out.ok_bind]
      rfl)
  rw [hp0, e, Out.ok_bind]
  exact ⟨_, rfl, h1, h2⟩

end Verif.Proofs.Pvrtc
