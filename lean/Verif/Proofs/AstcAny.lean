import Verif.Proofs.AstcGrow
/-!
Proofs: ASTC images of arbitrary blocks. A successful decode puts together the colours of the blocks, and
the colours of a block do not depend on the buffer they are written to.
-/
namespace Verif.Proofs.Astc
open Verif Verif.Model Verif.Proofs
variable [Build]

/-- The block at the start of `bytes` decodes to the colours `c`, into any large enough buffer. -/
def BlockIs (bytes : List UInt8) (bw bh : Nat) (c : Nat → UInt32) : Prop :=
  ∀ out : List UInt32, bw * bh ≤ out.length →
    ∃ o, decodeAstcBlock bytes bw bh out = .ok o ∧ o.length = out.length ∧
      (∀ i, i < bw * bh → o[i]? = some (c i)) ∧ ∀ i, bw * bh ≤ i → o[i]? = out[i]?

theorem BlockIs.unique {bytes : List UInt8} {bw bh : Nat} {c c' : Nat → UInt32}
    (h : BlockIs bytes bw bh c) (h' : BlockIs bytes bw bh c') {i : Nat} (hi : i < bw * bh) :
    c i = c' i := by
  obtain ⟨o, e, -, h1, -⟩ := h (List.replicate (bw * bh) 0) (by simp)
  obtain ⟨o', e', -, h1', -⟩ := h' (List.replicate (bw * bh) 0) (by simp)
  rw [e] at e'
  cases e'
  have := (h1 i hi).symm.trans (h1' i hi)
  injection this

theorem BlockIs.grow {bytes more : List UInt8} {bw bh : Nat} {c : Nat → UInt32}
    (hp : bytes <+: more) (h : BlockIs bytes bw bh c) : BlockIs more bw bh c := by
  intro out ho
  obtain ⟨o, e, h⟩ := h out ho
  exact ⟨o, (keeps_block hp bw bh out).value o e, h⟩

/-- A loop that sets one element after the other to values that do not depend on the list. -/
theorem setAll_any {n : Nat} {g : Nat → Out UInt32} {out o : List UInt32}
    (h : forRange n (fun i out => (g i >>= fun v => setIdx out i v)) out = .ok o) :
    ∃ c : Nat → UInt32, ∀ out : List UInt32, n ≤ out.length →
      ∃ o, forRange n (fun i out => (g i >>= fun v => setIdx out i v)) out = .ok o ∧
        o.length = out.length ∧ (∀ i, i < n → o[i]? = some (c i)) ∧ ∀ i, n ≤ i → o[i]? = out[i]? := by
  have hg : ∀ i, i < n → ∃ v, g i = .ok v := by
    have := forRange_ok_inv' h (P := fun k _ => ∀ i, i < k → ∃ v, g i = .ok v)
      (fun _ h => absurd h (Nat.not_lt_zero _)) (by
        intro k hk s s' hP hs i hi
        obtain ⟨v, ev, -⟩ := Out.bind_eq_ok.mp hs
        rcases Nat.lt_or_ge i k with h1 | h1
        · exact hP i h1
        · have : i = k := by omega
          exact ⟨v, this ▸ ev⟩)
    exact this
  have hch : ∃ c : Nat → UInt32, ∀ i, i < n → g i = .ok (c i) :=
    ⟨fun i => if hi : i < n then Classical.choose (hg i hi) else 0, fun i hi => by
      dsimp only; rw [dif_pos hi]; exact Classical.choose_spec (hg i hi)⟩
  obtain ⟨c, hc⟩ := hch
  refine ⟨c, fun out ho => ?_⟩
  obtain ⟨l, e, hl, h1, h2⟩ := setLoop (n := n) (f := fun i out => (g i >>= fun v => setIdx out i v))
    (fun _ l => l) (fun i => i) c out (fun i hi => by omega) (fun i j _ _ h => h)
    (by
      intro i hi l hl
      rw [hc i hi, Out.ok_bind, setIdx_ok (by omega)])
  exact ⟨l, e, hl, h1, fun i hi => h2 i (fun j hj => by omega)⟩

theorem applicate_any {q : AstcParams} {bw bh : Nat} (hb : bw * bh < 2 ^ 64)
    {es ws : List (List Int)} {part : List Nat} {out o : List UInt32}
    (h : astcApplicateColor q bw bh es ws part out = .ok o) :
    ∃ c : Nat → UInt32, ∀ out : List UInt32, bw * bh ≤ out.length →
      ∃ o, astcApplicateColor q bw bh es ws part out = .ok o ∧
        o.length = out.length ∧ (∀ i, i < bw * bh → o[i]? = some (c i)) ∧
        ∀ i, bw * bh ≤ i → o[i]? = out[i]? := by
  have key : ∀ out, astcApplicateColor q bw bh es ws part out = (do
      let ps ← (if q.dualPlane then setIdx [0, 0, 0, 0] q.planeSelector 1 else pure [0, 0, 0, 0])
      forRange (bw * bh) (fun i out => ((do
        let p ← (if q.partNum > 1 then idx part i else pure 0)
        let cem ← idx q.cem p
        let e ← idx es p
        let row ← idx ws i
        let p0 ← idx ps 0
        let p1 ← idx ps 1
        let p2 ← idx ps 2
        let p3 ← idx ps 3
        let r ← texelChannel funcTableC cem e row p0 0
        let g ← texelChannel funcTableC cem e row p1 1
        let b ← texelChannel funcTableC cem e row p2 2
        let a ← texelChannel funcTableA cem e row p3 3
        pure (color r g b a)) >>= fun v => setIdx out i v)) out) := by
    intro out
    unfold astcApplicateColor
    rw [mulU_ok hb]
    simp only [Out.ok_bind, Out.bind_assoc]
    rfl
  rw [key] at h
  obtain ⟨ps, eps, h⟩ := Out.bind_eq_ok.mp h
  obtain ⟨c, hc⟩ := setAll_any h
  refine ⟨c, fun out ho => ?_⟩
  rw [key, eps, Out.ok_bind]
  exact hc out ho

/-- A block that decodes into some buffer decodes to the same colours into any other. -/
theorem blockIs_of_ok {bytes : List UInt8} {bw bh : Nat} (hb : bw * bh < 2 ^ 64) {out o : List UInt32}
    (h : decodeAstcBlock bytes bw bh out = .ok o) : ∃ c, BlockIs bytes bw bh c := by
  unfold decodeAstcBlock at h
  obtain ⟨b0, e0, h⟩ := Out.bind_eq_ok.mp h
  obtain ⟨b1, e1, h⟩ := Out.bind_eq_ok.mp h
  have red : ∀ out, decodeAstcBlock bytes bw bh out = (
      if b0 = 0xfc ∧ b1 &&& 1 = 1 then do
        let c ← voidColour bytes
        let size ← mulU 64 bw bh
        fillRange out 0 size c
      else if (b0 &&& 0xc3 = 0xc0 ∧ b1 &&& 1 = 1) ∨ b0 &&& 0xf = 0 then do
        let size ← mulU 64 bw bh
        fillRange out 0 size (color 255 0 255 255)
      else decodeAstcTexels bytes bw bh out) := by
    intro out
    unfold decodeAstcBlock
    rw [e0, Out.ok_bind, e1, Out.ok_bind]
  by_cases h1 : b0 = 0xfc ∧ b1 &&& 1 = 1
  · rw [if_pos h1] at h
    obtain ⟨c, ec, -⟩ := Out.bind_eq_ok.mp h
    refine ⟨fun _ => c, fun out ho => ?_⟩
    rw [red, if_pos h1, ec, Out.ok_bind, mulU_ok hb, Out.ok_bind]
    exact fillRange_ok ho c
  rw [if_neg h1] at h
  by_cases h2 : (b0 &&& 0xc3 = 0xc0 ∧ b1 &&& 1 = 1) ∨ b0 &&& 0xf = 0
  · refine ⟨fun _ => color 255 0 255 255, fun out ho => ?_⟩
    rw [red, if_neg h1, if_pos h2, mulU_ok hb, Out.ok_bind]
    exact fillRange_ok ho _
  rw [if_neg h2] at h
  unfold decodeAstcTexels at h
  obtain ⟨q, eq, h⟩ := Out.bind_eq_ok.mp h
  obtain ⟨es, ees, h⟩ := Out.bind_eq_ok.mp h
  obtain ⟨ws, ews, h⟩ := Out.bind_eq_ok.mp h
  obtain ⟨part, epart, h⟩ := Out.bind_eq_ok.mp h
  obtain ⟨c, hc⟩ := applicate_any hb h
  refine ⟨c, fun out ho => ?_⟩
  rw [red, if_neg h1, if_neg h2]
  unfold decodeAstcTexels
  rw [eq, Out.ok_bind, ees, Out.ok_bind, ews, Out.ok_bind, epart, Out.ok_bind]
  exact hc out ho

/-- If every block decodes, so does the image, and it consists of their colours. -/
theorem image_of_blocks {data : List UInt8} {w h bw bh : Nat} {image : List UInt32}
    (hbw : 0 < bw) (hbh : 0 < bh) (hb : bw * bh ≤ 144) (hs : Spec.SizesOk bw bh 16 w h image)
    (hdata : Spec.bytesNeeded bw bh 16 w h ≤ data.length) (himg : w * h ≤ image.length)
    {C : Nat → Nat → UInt32}
    (hC : ∀ k, k < Spec.numBlocks bw bh w h → BlockIs (data.drop (16 * k)) bw bh (C k)) :
    ∃ image', decodeAstc data w h bw bh image = .ok (.ok (), image') ∧ image'.length = image.length ∧
      (∀ x y, x < w → y < h → image'[y * w + x]? =
        some (C (y / bh * Spec.ceilDiv w bw + x / bw) (y % bh * bw + x % bw))) ∧
      ∀ i, w * h ≤ i → image'[i]? = image[i]? := by
  rw [(astc_checks hs (by omega) (by omega)).2.2.2 hdata himg hb]
  have hbf := hs.bytes_fit
  unfold Spec.bytesNeeded at hbf hdata
  unfold Spec.numBlocks at hbf hdata hC
  generalize hnx : Spec.ceilDiv w bw = nx at *
  generalize hny : Spec.ceilDiv h bh = ny at *
  obtain ⟨s, e, -, hlen, hpix, hrest⟩ := tileLoop
    (S := List UInt32 × Nat × List UInt32) (fun s => s.2.2)
    (fun k s => s.1.length = 144 ∧ s.2.1 = 16 * k) (w := w) (h := h) (bw := bw) (bh := bh)
    (nx := nx) (ny := ny)
    (fun by' bx s => (do
            let (buffer, dataOffset, image) := s
            let block ← sliceFrom data dataOffset
            let buffer ← decodeAstcBlock block bw bh buffer
            let image ← copyBlockBuffer bx by' w h bw bh buffer image
            let dataOffset ← addU 64 dataOffset 16
            pure (buffer, dataOffset, image)))
    (fun bx by' t => C (by' * nx + bx) t)
    (List.replicate 144 0, 0, image) (by omega) (by omega) (by omega)
    hnx.symm hny.symm himg hs.image_len ⟨List.length_replicate, rfl⟩
    (by
      rintro by' bx hby hbx ⟨buf, off, img⟩ ⟨hl, ho⟩
      simp only at hl ho ⊢
      have hk : by' * nx + bx < nx * ny := by
        have h1 := Nat.mul_le_mul_right nx (show by' + 1 ≤ ny from hby)
        rw [Nat.add_mul, Nat.mul_comm ny nx] at h1
        omega
      have hblk := hC _ hk
      generalize hkk : by' * nx + bx = k at *
      rw [← ho] at hblk
      obtain ⟨o, e, hol, h1, h2⟩ := hblk buf (by omega)
      refine ⟨o, by omega, h1, ?_⟩
      intro im hc
      rw [sliceFrom_ok (by omega), Out.ok_bind, e, Out.ok_bind, hc, Out.ok_bind, addU_ok (by omega),
        Out.ok_bind]
      exact ⟨_, rfl, rfl, by simp only; omega, by simp only; omega⟩)
  refine ⟨s.2.2, ?_, hlen, hpix, hrest⟩
  rw [e, Out.ok_bind]; rfl

/-- What a successful decode says about the sizes and the blocks. -/
theorem blocks_of_image {data : List UInt8} {w h bw bh : Nat} {image image' : List UInt32}
    (hbw : 0 < bw) (hbh : 0 < bh) (hb : bw * bh ≤ 144) (hs : Spec.SizesOk bw bh 16 w h image)
    (hok : decodeAstc data w h bw bh image = .ok (.ok (), image')) :
    Spec.bytesNeeded bw bh 16 w h ≤ data.length ∧ w * h ≤ image.length ∧
      ∃ C : Nat → Nat → UInt32,
        ∀ k, k < Spec.numBlocks bw bh w h → BlockIs (data.drop (16 * k)) bw bh (C k) := by
  obtain ⟨c1, c2, -, c4⟩ := astc_checks (data := data) hs hbw hbh
  rcases Nat.lt_or_ge data.length (Spec.bytesNeeded bw bh 16 w h) with hd | hd
  · rw [c1 hd] at hok; cases hok
  rcases Nat.lt_or_ge image.length (w * h) with hi | hi
  · rw [c2 hd hi] at hok; cases hok
  refine ⟨hd, hi, ?_⟩
  rw [c4 hd hi hb] at hok
  have hbf := hs.bytes_fit
  unfold Spec.bytesNeeded at hbf hd
  unfold Spec.numBlocks at hbf hd ⊢
  generalize hnx : Spec.ceilDiv w bw = nx at *
  generalize hny : Spec.ceilDiv h bh = ny at *
  obtain ⟨s, es, -⟩ := Out.bind_eq_ok.mp hok
  have hall := forRange_ok_inv' es
    (P := fun by' s => s.1.length = 144 ∧ s.2.1 = 16 * (by' * nx) ∧
      ∀ k, k < by' * nx → ∃ c, BlockIs (data.drop (16 * k)) bw bh c)
    ⟨List.length_replicate, by simp, fun k hk => by omega⟩ (by
      intro by' hby s s' ⟨hl, ho, hP⟩ h1
      have := forRange_ok_inv' h1
        (P := fun bx s => s.1.length = 144 ∧ s.2.1 = 16 * (by' * nx + bx) ∧
          ∀ k, k < by' * nx + bx → ∃ c, BlockIs (data.drop (16 * k)) bw bh c)
        ⟨hl, ho, hP⟩ (by
          rintro bx hbx ⟨buf, off, img⟩ ⟨buf', off', img'⟩ ⟨hl, ho, hP⟩ h2
          simp only at hl ho h2 ⊢
          have hk : by' * nx + bx < nx * ny := by
            have h1 := Nat.mul_le_mul_right nx (show by' + 1 ≤ ny from hby)
            rw [Nat.add_mul, Nat.mul_comm ny nx] at h1
            omega
          obtain ⟨blk, e1, h2⟩ := Out.bind_eq_ok.mp h2
          obtain ⟨b2, e2, h2⟩ := Out.bind_eq_ok.mp h2
          obtain ⟨i2, e3, h2⟩ := Out.bind_eq_ok.mp h2
          obtain ⟨o2, e4, h2⟩ := Out.bind_eq_ok.mp h2
          cases h2
          rw [sliceFrom_ok (by omega)] at e1
          cases e1
          rw [addU_ok (by omega)] at e4
          cases e4
          obtain ⟨c, hc⟩ := blockIs_of_ok (by omega) e2
          obtain ⟨o', e5, h5, -⟩ := hc buf (by omega)
          rw [e2] at e5
          cases e5
          refine ⟨by omega, by omega, fun k hk => ?_⟩
          rcases Nat.lt_or_ge k (by' * nx + bx) with hk | hk
          · exact hP k hk
          · have : off = 16 * k := by omega
            exact ⟨c, this ▸ hc⟩)
      rw [Nat.add_mul, Nat.one_mul]
      exact this)
  have hall := hall.2.2
  rw [Nat.mul_comm ny nx] at hall
  exact ⟨fun k => if hk : k < nx * ny then Classical.choose (hall k hk) else fun _ => 0, fun k hk => by
    dsimp only; rw [dif_pos hk]; exact Classical.choose_spec (hall k hk)⟩

end Verif.Proofs.Astc
