import Verif.Proofs.ImageLaws

/-!
# Properties C12 – C18: BC1 – BC5

The theorems say that the public whole-image functions satisfy the complete whole-image contract
(`Spec.Decodes`: outcome by sizes, every pixel, nothing else touched) for the texel colours of
`Verif/Spec/Bcn.lean`.
-/

namespace Verif.Props

open Verif Verif.Proofs

variable [Build]

/-- **C12** `decode_bc1` decodes exactly the S3TC colours. -/
theorem C12_bc1 : Spec.Decodes Model.decodeBc1 4 4 8 (Spec.bc1Texel false) :=
  decoder_spec .bc1

/-- A block with endpoints red and blue (four-colour mode) and indices 0,1,2,3: red, blue, and the
two mixtures. -/
def bc1Demo : List UInt8 := [0x00, 0xf8, 0x1f, 0x00, 0xe4, 0, 0, 0]

example : (List.range 4).map (Spec.bc1Texel false bc1Demo) =
    [Spec.px 255 0 0 255, Spec.px 0 0 255 255, Spec.px 170 0 85 255, Spec.px 85 0 170 255] := by
  decide

example : ∃ o, Model.decodeBc1 bc1Demo 4 1 [0, 0, 0, 0] = .ok (.ok (), o) ∧
    o[2]? = some (Spec.px 170 0 85 255) := by
  obtain ⟨o, e, d⟩ := C12_bc1.success bc1Demo 4 1 [0, 0, 0, 0] ⟨by decide, by decide, by decide⟩
    (by decide) (by decide) (fun _ _ => trivial)
  exact ⟨o, e, (d.pixel 2 0 (by decide) (by decide)).trans (by decide)⟩

/-- **C13** `decode_bc1a` decodes the S3TC colours with punch-through alpha. -/
theorem C13_bc1a : Spec.Decodes Model.decodeBc1a 4 4 8 (Spec.bc1Texel true) :=
  decoder_spec .bc1a

/-- **C13** `decode_bc1a` and `decode_bc1` give the same red, green and blue; BC1 is opaque; BC1A is
transparent exactly for index 3 in blocks whose first endpoint is not larger than the second. -/
theorem C13_bc1a_vs_bc1 (data : List UInt8) (w h : Nat) (image out outA : List UInt32)
    (hs : Spec.SizesOk 4 4 8 w h image)
    (hok : Model.decodeBc1 data w h image = .ok (.ok (), out))
    (hokA : Model.decodeBc1a data w h image = .ok (.ok (), outA))
    (x y : Nat) (hx : x < w) (hy : y < h) :
    let blk := (data.drop ((y / 4 * ((w + 3) / 4) + x / 4) * 8)).take 8
    ∃ p pA, out[y * w + x]? = some p ∧ outA[y * w + x]? = some pA ∧
      Spec.red p = Spec.red pA ∧ Spec.green p = Spec.green pA ∧ Spec.blue p = Spec.blue pA ∧
      Spec.alpha p = 255 ∧
      Spec.alpha pA =
        (if Spec.field blk 0 16 ≤ Spec.field blk 16 16 ∧
            Spec.field blk (32 + 2 * (y % 4 * 4 + x % 4)) 2 = 3 then 0 else 255) := by
  intro blk
  obtain ⟨_, _, d⟩ := ok_inv (fmt := .bc1) hs (fun _ _ => trivial) hok
  obtain ⟨_, _, dA⟩ := ok_inv (fmt := .bc1a) hs (fun _ _ => trivial) hokA
  refine ⟨_, _, d.pixel x y hx hy, dA.pixel x y hx hy, ?_⟩
  show _ ∧ _
  change Spec.red (Spec.bc1Texel false blk _) = Spec.red (Spec.bc1Texel true blk _) ∧
    Spec.green (Spec.bc1Texel false blk _) = Spec.green (Spec.bc1Texel true blk _) ∧
    Spec.blue (Spec.bc1Texel false blk _) = Spec.blue (Spec.bc1Texel true blk _) ∧
    Spec.alpha (Spec.bc1Texel false blk _) = 255 ∧ Spec.alpha (Spec.bc1Texel true blk _) = _
  have hq0 := field_lt blk 0 16
  have hq1 := field_lt blk 16 16
  generalize hi : y % 4 * 4 + x % 4 = i
  unfold Spec.bc1Texel
  simp only
  generalize Spec.field blk 0 16 = q0 at *
  generalize Spec.field blk 16 16 = q1 at *
  generalize Spec.field blk (32 + 2 * i) 2 = k
  have hr := bc1Channel_lt (four := decide (q0 > q1)) (k := k) (red565_lt hq0) (red565_lt hq1)
  have hg := bc1Channel_lt (four := decide (q0 > q1)) (k := k) (green565_lt q0) (green565_lt q1)
  have hb := bc1Channel_lt (four := decide (q0 > q1)) (k := k) (blue565_lt q0) (blue565_lt q1)
  have hA : ∀ p : Prop, [Decidable p] → (if p then 0 else 255) < 256 := by
    intro p _; split <;> decide
  rw [red_px hr hg hb (hA _), red_px hr hg hb (hA _), green_px hr hg hb (hA _),
    green_px hr hg hb (hA _), blue_px hr hg hb (hA _), blue_px hr hg hb (hA _),
    alpha_px hr hg hb (hA _), alpha_px hr hg hb (hA _)]
  simp

example : Spec.SizesOk 4 4 8 4 4 (List.replicate 16 0) ∧
    Spec.numBlocks 4 4 4 4 * 8 ≤ bc1Demo.length := ⟨⟨by decide, by decide, by decide⟩, by decide⟩

/-- A three-colour block (equal endpoints) with index 3: opaque black in BC1, transparent in BC1A. -/
example : Spec.bc1Texel false [0, 0, 0, 0, 0xff, 0, 0, 0] 1 = Spec.px 0 0 0 255 ∧
    Spec.bc1Texel true [0, 0, 0, 0, 0xff, 0, 0, 0] 1 = Spec.px 0 0 0 0 := by decide

/-- **C14** `decode_bc2`: BC1 colour of bytes 8..16 with explicit 4-bit alpha. -/
theorem C14_bc2 : Spec.Decodes Model.decodeBc2 4 4 16 Spec.bc2Texel :=
  decoder_spec .bc2

example : Spec.bc2Texel ([0x30, 0, 0, 0, 0, 0, 0, 0] ++ bc1Demo) 1 = Spec.px 0 0 255 51 := by decide

/-- **C15** `decode_bc3`: BC1 colour of bytes 8..16 with interpolated alpha. -/
theorem C15_bc3 : Spec.Decodes Model.decodeBc3 4 4 16 Spec.bc3Texel :=
  decoder_spec .bc3

example : Spec.bc3Texel ([255, 0, 0x10, 0, 0, 0, 0, 0] ++ bc1Demo) 1 = Spec.px 0 0 255 218 := by
  decide

/-- **C16** `decode_bc4`: one interpolated channel in red, green and blue 0, opaque. -/
theorem C16_bc4 : Spec.Decodes Model.decodeBc4 4 4 8 Spec.bc4Texel :=
  decoder_spec .bc4

example : Spec.bc4Texel [10, 250, 0x37, 0, 0, 0, 0, 0] 0 = Spec.px 255 0 0 255 ∧
    Spec.bc4Texel [10, 250, 0x37, 0, 0, 0, 0, 0] 1 = Spec.px 0 0 0 255 ∧
    Spec.bc4Texel [10, 250, 0x17, 0, 0, 0, 0, 0] 1 = Spec.px 58 0 0 255 := by decide

/-- **C17** `decode_bc5`: two interpolated channels in red and green, blue 0, opaque. -/
theorem C17_bc5 : Spec.Decodes Model.decodeBc5 4 4 16 Spec.bc5Texel :=
  decoder_spec .bc5

example : Spec.bc5Texel [9, 3, 0, 0, 0, 0, 0, 0, 77, 3, 0, 0, 0, 0, 0, 0] 5 = Spec.px 9 77 0 255 := by
  decide

omit [Build] in
/-- `v` lies between `a` and `b`, in either order. -/
def Between (a b v : Nat) : Prop := min a b ≤ v ∧ v ≤ max a b

omit [Build] in
theorem between_bc1Channel {four : Bool} {c0 c1 k : Nat} (hk : four = true ∨ k < 3) :
    Between c0 c1 (Spec.bc1Channel four c0 c1 k) := by
  unfold Between
  match k, hk with
  | 0, _ => simp only [Spec.bc1Channel]; omega
  | 1, _ => simp only [Spec.bc1Channel]; omega
  | 2, _ => simp only [Spec.bc1Channel]; split <;> omega
  | k + 3, hk =>
    have : four = true := hk.elim id (fun h => absurd h (by omega))
    simp only [Spec.bc1Channel, this, if_true]; omega

omit [Build] in
theorem between_bc3Entry {a0 a1 k : Nat} (hk : k < 8) (h : a0 > a1 ∨ k < 6) :
    Between a0 a1 (Spec.bc3Entry a0 a1 k) := by
  unfold Spec.bc3Entry Between
  have : k = 0 ∨ k = 1 ∨ k = 2 ∨ k = 3 ∨ k = 4 ∨ k = 5 ∨ k = 6 ∨ k = 7 := by omega
  rcases this with rfl | rfl | rfl | rfl | rfl | rfl | rfl | rfl <;> simp <;> (try split) <;> omega

omit [Build] in
theorem between_bc3Value (blk : List UInt8) (i : Nat) :
    Between (Spec.byteAt blk 0) (Spec.byteAt blk 1) (Spec.bc3Value blk i) ∨
      Spec.byteAt blk 0 ≤ Spec.byteAt blk 1 ∧
        (Spec.bc3Value blk i = 0 ∨ Spec.bc3Value blk i = 255) := by
  unfold Spec.bc3Value
  have hk : Spec.field blk (16 + 3 * i) 3 < 8 := field_lt _ _ 3
  generalize Spec.field blk (16 + 3 * i) 3 = k at *
  generalize Spec.byteAt blk 0 = a0
  generalize Spec.byteAt blk 1 = a1
  by_cases hc : a0 > a1 ∨ k < 6
  · exact Or.inl (between_bc3Entry hk hc)
  · right
    refine ⟨by omega, ?_⟩
    have h67 : k = 6 ∨ k = 7 := by omega
    have hn : ¬ a0 > a1 := by omega
    rcases h67 with rfl | rfl <;> simp [Spec.bc3Entry, hn]

/-- **C18** Every pixel of a decoded BC1 image has its channels between the two endpoint colours of
its block, unless it is the black entry (index 3) of a three-colour block. -/
theorem C18_bc1_between (data : List UInt8) (w h : Nat) (image out : List UInt32)
    (hs : Spec.SizesOk 4 4 8 w h image)
    (hok : Model.decodeBc1 data w h image = .ok (.ok (), out))
    (x y : Nat) (hx : x < w) (hy : y < h) :
    let blk := (data.drop ((y / 4 * ((w + 3) / 4) + x / 4) * 8)).take 8
    let q0 := Spec.field blk 0 16
    let q1 := Spec.field blk 16 16
    ∃ p, out[y * w + x]? = some p ∧
      (p = Spec.px 0 0 0 255 ∧ q0 ≤ q1 ∨
        Between (Spec.red565 q0) (Spec.red565 q1) (Spec.red p) ∧
        Between (Spec.green565 q0) (Spec.green565 q1) (Spec.green p) ∧
        Between (Spec.blue565 q0) (Spec.blue565 q1) (Spec.blue p)) := by
  intro blk q0 q1
  obtain ⟨_, _, d⟩ := ok_inv (fmt := .bc1) hs (fun _ _ => trivial) hok
  refine ⟨_, d.pixel x y hx hy, ?_⟩
  change Spec.bc1Texel false blk (y % 4 * 4 + x % 4) = _ ∧ _ ∨
    Between _ _ (Spec.red (Spec.bc1Texel false blk (y % 4 * 4 + x % 4))) ∧
    Between _ _ (Spec.green (Spec.bc1Texel false blk (y % 4 * 4 + x % 4))) ∧
    Between _ _ (Spec.blue (Spec.bc1Texel false blk (y % 4 * 4 + x % 4)))
  have hq0 : q0 < 2 ^ 16 := field_lt blk 0 16
  have hq1 : q1 < 2 ^ 16 := field_lt blk 16 16
  have hk : Spec.field blk (32 + 2 * (y % 4 * 4 + x % 4)) 2 < 4 := field_lt _ _ 2
  have ht : Spec.bc1Texel false blk (y % 4 * 4 + x % 4) =
      Spec.px
        (Spec.bc1Channel (decide (q0 > q1)) (Spec.red565 q0) (Spec.red565 q1)
          (Spec.field blk (32 + 2 * (y % 4 * 4 + x % 4)) 2))
        (Spec.bc1Channel (decide (q0 > q1)) (Spec.green565 q0) (Spec.green565 q1)
          (Spec.field blk (32 + 2 * (y % 4 * 4 + x % 4)) 2))
        (Spec.bc1Channel (decide (q0 > q1)) (Spec.blue565 q0) (Spec.blue565 q1)
          (Spec.field blk (32 + 2 * (y % 4 * 4 + x % 4)) 2)) 255 := by
    simp [Spec.bc1Texel, q0, q1]
  rw [ht]
  generalize Spec.field blk (32 + 2 * (y % 4 * 4 + x % 4)) 2 = k at *
  have hr := bc1Channel_lt (four := decide (q0 > q1)) (k := k) (red565_lt hq0) (red565_lt hq1)
  have hg := bc1Channel_lt (four := decide (q0 > q1)) (k := k) (green565_lt q0) (green565_lt q1)
  have hb := bc1Channel_lt (four := decide (q0 > q1)) (k := k) (blue565_lt q0) (blue565_lt q1)
  by_cases hc : q0 > q1 ∨ k < 3
  · right
    have hc' : decide (q0 > q1) = true ∨ k < 3 := by simpa using hc
    rw [red_px hr hg hb (by decide), green_px hr hg hb (by decide), blue_px hr hg hb (by decide)]
    exact ⟨between_bc1Channel hc', between_bc1Channel hc', between_bc1Channel hc'⟩
  · left
    have hk3 : k = 3 := by omega
    have hle : q0 ≤ q1 := by omega
    refine ⟨?_, hle⟩
    subst hk3
    have : decide (q0 > q1) = false := by simpa using hle
    rw [this]; rfl

/-- **C18** Every interpolated value of a BC4 image lies between the two endpoint bytes of its block,
unless it is one of the constants 0 and 255 of a block whose first endpoint is not larger. -/
theorem C18_bc4_between (data : List UInt8) (w h : Nat) (image out : List UInt32)
    (hs : Spec.SizesOk 4 4 8 w h image)
    (hok : Model.decodeBc4 data w h image = .ok (.ok (), out))
    (x y : Nat) (hx : x < w) (hy : y < h) :
    let blk := (data.drop ((y / 4 * ((w + 3) / 4) + x / 4) * 8)).take 8
    ∃ p, out[y * w + x]? = some p ∧
      (Between (Spec.byteAt blk 0) (Spec.byteAt blk 1) (Spec.red p) ∨
        Spec.byteAt blk 0 ≤ Spec.byteAt blk 1 ∧ (Spec.red p = 0 ∨ Spec.red p = 255)) := by
  intro blk
  obtain ⟨_, _, d⟩ := ok_inv (fmt := .bc4) hs (fun _ _ => trivial) hok
  refine ⟨_, d.pixel x y hx hy, ?_⟩
  change Between _ _ (Spec.red (Spec.px (Spec.bc3Value blk (y % 4 * 4 + x % 4)) 0 0 255)) ∨ _ ∧
    (Spec.red (Spec.px (Spec.bc3Value blk (y % 4 * 4 + x % 4)) 0 0 255) = _ ∨
     Spec.red (Spec.px (Spec.bc3Value blk (y % 4 * 4 + x % 4)) 0 0 255) = _)
  rw [red_px (bc3Value_lt _ _) (by decide) (by decide) (by decide)]
  exact between_bc3Value blk _

/-- **C18** The same for the alpha of a BC3 image. -/
theorem C18_bc3_alpha_between (data : List UInt8) (w h : Nat) (image out : List UInt32)
    (hs : Spec.SizesOk 4 4 16 w h image)
    (hok : Model.decodeBc3 data w h image = .ok (.ok (), out))
    (x y : Nat) (hx : x < w) (hy : y < h) :
    let blk := (data.drop ((y / 4 * ((w + 3) / 4) + x / 4) * 16)).take 16
    ∃ p, out[y * w + x]? = some p ∧
      (Between (Spec.byteAt blk 0) (Spec.byteAt blk 1) (Spec.alpha p) ∨
        Spec.byteAt blk 0 ≤ Spec.byteAt blk 1 ∧ (Spec.alpha p = 0 ∨ Spec.alpha p = 255)) := by
  intro blk
  obtain ⟨_, _, d⟩ := ok_inv (fmt := .bc3) hs (fun _ _ => trivial) hok
  refine ⟨_, d.pixel x y hx hy, ?_⟩
  have ha : ∀ q v, v < 256 → Spec.alpha (Spec.withAlpha q v) = v := fun q v hv =>
    alpha_px (red_lt q) (green_lt q) (blue_lt q) hv
  show Between _ _ (Spec.alpha (Spec.withAlpha _ (Spec.bc3Value blk (y % 4 * 4 + x % 4)))) ∨ _ ∧
    (Spec.alpha (Spec.withAlpha _ (Spec.bc3Value blk (y % 4 * 4 + x % 4))) = _ ∨
     Spec.alpha (Spec.withAlpha _ (Spec.bc3Value blk (y % 4 * 4 + x % 4))) = _)
  rw [ha _ _ (bc3Value_lt _ _)]
  exact between_bc3Value blk _

/-- **C18** The same for red and green of a BC5 image. -/
theorem C18_bc5_between (data : List UInt8) (w h : Nat) (image out : List UInt32)
    (hs : Spec.SizesOk 4 4 16 w h image)
    (hok : Model.decodeBc5 data w h image = .ok (.ok (), out))
    (x y : Nat) (hx : x < w) (hy : y < h) :
    let blk := (data.drop ((y / 4 * ((w + 3) / 4) + x / 4) * 16)).take 16
    ∃ p, out[y * w + x]? = some p ∧
      (Between (Spec.byteAt blk 0) (Spec.byteAt blk 1) (Spec.red p) ∨
        Spec.byteAt blk 0 ≤ Spec.byteAt blk 1 ∧ (Spec.red p = 0 ∨ Spec.red p = 255)) ∧
      (Between (Spec.byteAt blk 8) (Spec.byteAt blk 9) (Spec.green p) ∨
        Spec.byteAt blk 8 ≤ Spec.byteAt blk 9 ∧ (Spec.green p = 0 ∨ Spec.green p = 255)) := by
  intro blk
  obtain ⟨_, _, d⟩ := ok_inv (fmt := .bc5) hs (fun _ _ => trivial) hok
  refine ⟨_, d.pixel x y hx hy, ?_⟩
  have hv := bc3Value_lt blk (y % 4 * 4 + x % 4)
  have hv2 := bc3Value_lt (blk.drop 8) (y % 4 * 4 + x % 4)
  have e1 : Spec.red (Spec.bc5Texel blk (y % 4 * 4 + x % 4)) = _ :=
    red_px hv hv2 (by decide) (by decide)
  have e2 : Spec.green (Spec.bc5Texel blk (y % 4 * 4 + x % 4)) = _ :=
    green_px hv hv2 (by decide) (by decide)
  show (Between _ _ (Spec.red (Spec.bc5Texel blk (y % 4 * 4 + x % 4))) ∨ _ ∧
      (Spec.red (Spec.bc5Texel blk (y % 4 * 4 + x % 4)) = _ ∨
       Spec.red (Spec.bc5Texel blk (y % 4 * 4 + x % 4)) = _)) ∧
    (Between _ _ (Spec.green (Spec.bc5Texel blk (y % 4 * 4 + x % 4))) ∨ _ ∧
      (Spec.green (Spec.bc5Texel blk (y % 4 * 4 + x % 4)) = _ ∨
       Spec.green (Spec.bc5Texel blk (y % 4 * 4 + x % 4)) = _))
  rw [e1, e2]
  refine ⟨between_bc3Value blk _, ?_⟩
  have := between_bc3Value (blk.drop 8) (y % 4 * 4 + x % 4)
  unfold Spec.byteAt at this ⊢
  rw [field_drop, field_drop] at this
  exact this

example : ∃ o, Model.decodeBc4 [10, 250, 0x17, 0, 0, 0, 0, 0] 2 2 [0, 0, 0, 0] = .ok (.ok (), o) := by
  obtain ⟨o, e, _⟩ := C16_bc4.success [10, 250, 0x17, 0, 0, 0, 0, 0] 2 2 [0, 0, 0, 0]
    ⟨by decide, by decide, by decide⟩ (by decide) (by decide) (fun _ _ => trivial)
  exact ⟨o, e⟩

end Verif.Props
