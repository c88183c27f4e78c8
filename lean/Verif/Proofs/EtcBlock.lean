import Verif.Proofs.EtcColours

set_option linter.unusedSimpArgs false
set_option linter.unusedSectionVars false

/-! # ETC1, ETC2 and EAC blocks refine their specification -/

namespace Verif.Proofs

open Verif Verif.Model

/-- What a block decoder that writes 16 texels does. -/
def Paints (r : Out (List UInt32)) (out : List UInt32) (v : Nat → UInt32) : Prop :=
  ∃ o, r = .ok o ∧ o.length = out.length ∧ (∀ q, q < 16 → o[q]? = some (v q)) ∧
    ∀ q, 16 ≤ q → o[q]? = out[q]?

theorem Paints.congr {r : Out (List UInt32)} {out : List UInt32} {v w : Nat → UInt32}
    (h : Paints r out v) (e : ∀ q, q < 16 → v q = w q) : Paints r out w := by
  obtain ⟨o, e1, hl, h1, h2⟩ := h
  exact ⟨o, e1, hl, fun q hq => by rw [h1 q hq, e q hq], h2⟩

theorem shade_mask (c : Nat → Nat) (m : Int) :
    Spec.Etc.shade c m 255 &&& transparentMask = Spec.Etc.shade c m 0 := by
  unfold Spec.Etc.shade
  apply UInt32.toNat_inj.mp
  rw [UInt32.toNat_and, px_toNat (clamp255_lt _) (clamp255_lt _) (clamp255_lt _) (by omega),
    px_toNat (clamp255_lt _) (clamp255_lt _) (clamp255_lt _) (by omega),
    show transparentMask.toNat = 2 ^ 24 - 1 from rfl, and_mask]
  have := clamp255_lt ((c 0 : Int) + m)
  have := clamp255_lt ((c 1 : Int) + m)
  have := clamp255_lt ((c 2 : Int) + m)
  omega

variable [Build] {d : Bytes8} {blk : List UInt8}

omit [Build] in
theorem tBase_lt (blk : List UInt8) : (∀ ch, ch < 3 → Spec.Etc.tBase1 blk ch < 256) ∧
    ∀ ch, ch < 3 → Spec.Etc.tBase2 blk ch < 256 := by
  have h1 := bits_lt blk 60 59
  have h2 := bits_lt blk 57 56
  have h3 := bits_lt blk 55 52
  have h4 := bits_lt blk 51 48
  have h5 := bits_lt blk 47 44
  have h6 := bits_lt blk 43 40
  have h7 := bits_lt blk 39 36
  simp only [Nat.reduceSub, Nat.reduceAdd, Nat.reducePow] at h1 h2 h3 h4 h5 h6 h7
  exact ⟨rgb4_lt (by omega) h3 h4, rgb4_lt h5 h6 h7⟩

theorem etc2TSet_ok (h : IsBytes d blk) : ∃ set, etc2TSet d.d3 (etc2T d) = .ok set ∧
    ∀ x, x < 4 → set[x]? = some (Spec.Etc.tPaint blk x 255) := by
  obtain ⟨e1, e2⟩ := tBase_eq h
  obtain ⟨l1, l2⟩ := tBase_lt blk
  have h1 := bits_lt blk 35 34
  have h2 := bits_lt blk 32 32
  simp only [Nat.reduceSub, Nat.reduceAdd, Nat.reducePow] at h1 h2
  obtain ⟨hd, hd0, hd1⟩ := distance_some (2 * Spec.Etc.bits blk 35 34 + Spec.Etc.bits blk 32 32)
    (by omega)
  unfold etc2TSet
  rw [tDistance_eq h, idx_of_some hd, Out.ok_bind]
  rw [applicateColor_ok (rgbOk_of e2 l2) (by omega) (by omega), Out.ok_bind,
    negI16_ok (by omega) (by omega), Out.ok_bind,
    applicateColor_ok (rgbOk_of e2 l2) (by omega) (by omega), Out.ok_bind,
    applicateColorRaw_eq (rgbOk_of e1 l1), applicateColorRaw_eq (rgbOk_of e2 l2)]
  refine ⟨_, rfl, ?_⟩
  intro x hx
  have : x = 0 ∨ x = 1 ∨ x = 2 ∨ x = 3 := by omega
  rw [shade_congr _ _ e1]
  simp only [shade_congr _ _ e2]
  rcases this with rfl | rfl | rfl | rfl <;> rfl

omit [Build] in
theorem hBase_lt (blk : List UInt8) : Spec.Etc.hRed1 blk < 16 ∧ Spec.Etc.hGreen1 blk < 16 ∧
    Spec.Etc.hBlue1 blk < 16 ∧ Spec.Etc.hRed2 blk < 16 ∧ Spec.Etc.hGreen2 blk < 16 ∧
    Spec.Etc.hBlue2 blk < 16 := by
  have h1 := bits_lt blk 62 59
  have h2 := bits_lt blk 58 56
  have h3 := bits_lt blk 52 52
  have h4 := bits_lt blk 51 51
  have h5 := bits_lt blk 49 47
  have h6 := bits_lt blk 46 43
  have h7 := bits_lt blk 42 39
  have h8 := bits_lt blk 38 35
  simp only [Nat.reduceSub, Nat.reduceAdd, Nat.reducePow] at h1 h2 h3 h4 h5 h6 h7 h8
  unfold Spec.Etc.hRed1 Spec.Etc.hGreen1 Spec.Etc.hBlue1 Spec.Etc.hRed2 Spec.Etc.hGreen2
    Spec.Etc.hBlue2
  omega

omit [Build] in
theorem etc2Ordered_eq {r1 g1 b1 r2 g2 b2 : Nat} (h1 : g1 < 16) (h2 : b1 < 16) (h3 : g2 < 16)
    (h4 : b2 < 16) : etc2Ordered (Spec.Etc.expand4 r1, Spec.Etc.expand4 g1, Spec.Etc.expand4 b1)
      (Spec.Etc.expand4 r2, Spec.Etc.expand4 g2, Spec.Etc.expand4 b2) =
      decide (256 * r2 + 16 * g2 + b2 ≤ 256 * r1 + 16 * g1 + b1) := by
  unfold etc2Ordered Spec.Etc.expand4
  rw [Bool.eq_iff_iff]
  simp only [Bool.or_eq_true, Bool.and_eq_true, decide_eq_true_eq, beq_iff_eq]
  omega

theorem etc2HSet_ok (h : IsBytes d blk) : ∃ set, etc2HSet d.d3 (etc2H d) = .ok set ∧
    ∀ x, x < 4 → set[x]? = some (Spec.Etc.hPaint blk x 255) := by
  obtain ⟨e1, e2⟩ := hBase_eq h
  obtain ⟨l1, l2, l3, l4, l5, l6⟩ := hBase_lt blk
  have hlt := h.lt
  have h1 := bits_lt blk 34 34
  have h2 := bits_lt blk 32 32
  simp only [Nat.reduceSub, Nat.reduceAdd, Nat.reducePow] at h1 h2
  have f1 : ∀ ch, ch < 3 → fn (etc2H d).1 ch =
      Spec.Etc.rgb4 (Spec.Etc.hRed1 blk) (Spec.Etc.hGreen1 blk) (Spec.Etc.hBlue1 blk) ch := by
    rw [e1]; exact fn_ext rfl rfl rfl
  have f2 : ∀ ch, ch < 3 → fn (etc2H d).2 ch =
      Spec.Etc.rgb4 (Spec.Etc.hRed2 blk) (Spec.Etc.hGreen2 blk) (Spec.Etc.hBlue2 blk) ch := by
    rw [e2]; exact fn_ext rfl rfl rfl
  have ok1 := rgbOk_of f1 (rgb4_lt l1 l2 l3)
  have ok2 := rgbOk_of f2 (rgb4_lt l4 l5 l6)
  have hord : etc2Ordered (etc2H d).1 (etc2H d).2 =
      decide (256 * Spec.Etc.hRed2 blk + 16 * Spec.Etc.hGreen2 blk + Spec.Etc.hBlue2 blk ≤
        256 * Spec.Etc.hRed1 blk + 16 * Spec.Etc.hGreen1 blk + Spec.Etc.hBlue1 blk) := by
    rw [e1, e2]; exact etc2Ordered_eq l2 l3 l5 l6
  have hlt8 : Spec.Etc.hDistance blk < 8 := by
    unfold Spec.Etc.hDistance; split <;> omega
  obtain ⟨hd, hd0, hd1⟩ := distance_some (Spec.Etc.hDistance blk) hlt8
  unfold etc2HSet
  simp only
  rw [hord]
  have hdist : (if decide (256 * Spec.Etc.hRed2 blk + 16 * Spec.Etc.hGreen2 blk +
        Spec.Etc.hBlue2 blk ≤
        256 * Spec.Etc.hRed1 blk + 16 * Spec.Etc.hGreen1 blk + Spec.Etc.hBlue1 blk) = true
      then addU 8 ((d.d3 &&& 4) ||| (shl8 d.d3 1 &&& 2)) 1
      else pure ((d.d3 &&& 4) ||| (shl8 d.d3 1 &&& 2))) = Out.ok (Spec.Etc.hDistance blk) := by
    have eb : 4 * (d.d3 / 4 % 2) + 2 * (d.d3 % 2) =
        4 * Spec.Etc.bits blk 34 34 + 2 * Spec.Etc.bits blk 32 32 := by
      rw [bits_eq h, bits_eq h]
      simp only [Nat.reduceSub, Nat.reduceAdd]; omega
    rw [hDist _ h.h3, eb]
    unfold Spec.Etc.hDistance
    split
    · next hc =>
      rw [decide_eq_true_eq] at hc
      rw [if_pos hc, addU_ok (by omega)]
    · next hc =>
      rw [decide_eq_true_eq] at hc
      rw [if_neg hc]; rfl
  rw [hdist, Out.ok_bind, idx_of_some hd, Out.ok_bind,
    applicateColor_ok ok1 (by omega) (by omega), Out.ok_bind,
    negI16_ok (by omega) (by omega), Out.ok_bind,
    applicateColor_ok ok1 (by omega) (by omega), Out.ok_bind,
    applicateColor_ok ok2 (by omega) (by omega), Out.ok_bind,
    applicateColor_ok ok2 (by omega) (by omega), Out.ok_bind]
  refine ⟨_, rfl, ?_⟩
  intro x hx
  have : x = 0 ∨ x = 1 ∨ x = 2 ∨ x = 3 := by omega
  simp only [shade_congr _ _ f1, shade_congr _ _ f2]
  rcases this with rfl | rfl | rfl | rfl <;> rfl

/-! ## Planar mode -/

theorem planarChannel_ok {x y co ch cv : Nat} (hx : x < 4) (hy : y < 4) (h1 : co < 256)
    (h2 : ch < 256) (h3 : cv < 256) : planarChannel x y co ch cv =
      .ok (Spec.Etc.clamp255 (((x : Int) * ((ch : Int) - co) + (y : Int) * ((cv : Int) - co) +
        4 * co + 2) / 4)) := by
  unfold planarChannel
  rw [subI32_ok (by omega) (by omega), Out.ok_bind]
  have ha : -1000 ≤ (x : Int) * ((ch : Int) - co) ∧ (x : Int) * ((ch : Int) - co) ≤ 1000 := by
    have : x = 0 ∨ x = 1 ∨ x = 2 ∨ x = 3 := by omega
    rcases this with rfl | rfl | rfl | rfl <;> omega
  have hb : -1000 ≤ (y : Int) * ((cv : Int) - co) ∧ (y : Int) * ((cv : Int) - co) ≤ 1000 := by
    have : y = 0 ∨ y = 1 ∨ y = 2 ∨ y = 3 := by omega
    rcases this with rfl | rfl | rfl | rfl <;> omega
  rw [mulI32_ok (by omega) (by omega), Out.ok_bind, subI32_ok (by omega) (by omega), Out.ok_bind,
    mulI32_ok (by omega) (by omega), Out.ok_bind]
  generalize (x : Int) * ((ch : Int) - co) = A at *
  generalize (y : Int) * ((cv : Int) - co) = B at *
  rw [addI32_ok (by omega) (by omega), Out.ok_bind, mulI32_ok (by omega) (by omega), Out.ok_bind,
    addI32_ok (by omega) (by omega), Out.ok_bind, addI32_ok (by omega) (by omega), Out.ok_bind]
  show (Out.ok _ >>= _) = _
  rw [Out.ok_bind, etcClamp_eq]
  rfl

theorem etc2PlanarPaint_spec (h : IsBytes d blk) {out : List UInt32} (ho : 16 ≤ out.length) :
    Paints (etc2PlanarPaint (etc2Planar d) out) out (Spec.Etc.planarTexel blk) := by
  obtain ⟨eO, eH, eV⟩ := planar_eq h
  have hpl := planar_lt blk
  generalize etc2Planar d = c at *
  have e00 : c.1.1 = _ := eO 0 (by omega)
  have e01 : c.1.2.1 = _ := eO 1 (by omega)
  have e02 : c.1.2.2 = _ := eO 2 (by omega)
  have e10 : c.2.1.1 = _ := eH 0 (by omega)
  have e11 : c.2.1.2.1 = _ := eH 1 (by omega)
  have e12 : c.2.1.2.2 = _ := eH 2 (by omega)
  have e20 : c.2.2.1 = _ := eV 0 (by omega)
  have e21 : c.2.2.2.1 = _ := eV 1 (by omega)
  have e22 : c.2.2.2.2 = _ := eV 2 (by omega)
  unfold etc2PlanarPaint
  rw [e00, e01, e02, e10, e11, e12, e20, e21, e22]
  let g : Nat → Nat × List UInt32 → Out (Nat × List UInt32) := fun t s => do
      let (i, outbuf) := s
      let r ← planarChannel (t % 4) (t / 4) (Spec.Etc.planarO blk 0) (Spec.Etc.planarH blk 0)
        (Spec.Etc.planarV blk 0)
      let g ← planarChannel (t % 4) (t / 4) (Spec.Etc.planarO blk 1) (Spec.Etc.planarH blk 1)
        (Spec.Etc.planarV blk 1)
      let b ← planarChannel (t % 4) (t / 4) (Spec.Etc.planarO blk 2) (Spec.Etc.planarH blk 2)
        (Spec.Etc.planarV blk 2)
      let outbuf ← setIdx outbuf i (color r g b 255)
      let i ← addU 64 i 1
      pure (i, outbuf)
  have hnest : forRange 4 (fun y s => forRange 4 (fun x (s : Nat × List UInt32) => do
      let (i, outbuf) := s
      let r ← planarChannel x y (Spec.Etc.planarO blk 0) (Spec.Etc.planarH blk 0)
        (Spec.Etc.planarV blk 0)
      let g ← planarChannel x y (Spec.Etc.planarO blk 1) (Spec.Etc.planarH blk 1)
        (Spec.Etc.planarV blk 1)
      let b ← planarChannel x y (Spec.Etc.planarO blk 2) (Spec.Etc.planarH blk 2)
        (Spec.Etc.planarV blk 2)
      let outbuf ← setIdx outbuf i (color r g b 255)
      let i ← addU 64 i 1
      pure (i, outbuf)) s) (0, out) = forRange (4 * 4) g (0, out) := by
    rw [← forRange_nested 4 4 g]
    apply forRange_congr
    intro y hy s
    apply forRange_congr
    intro x hx s
    show _ = g (y * 4 + x) s
    simp only [g]
    rw [show (y * 4 + x) % 4 = x by omega, show (y * 4 + x) / 4 = y by omega]
  obtain ⟨o, e, hl, h1, h2⟩ := pixelLoop (n := 4 * 4) (f := g) (fun i => i)
    (fun i _ => Spec.Etc.planarTexel blk i) out ho
    (by
      intro i hi o p hol hp
      simp only [g]
      rw [planarChannel_ok (by omega) (by omega) (hpl 0).1 (hpl 0).2.1 (hpl 0).2.2, Out.ok_bind,
        planarChannel_ok (by omega) (by omega) (hpl 1).1 (hpl 1).2.1 (hpl 1).2.2, Out.ok_bind,
        planarChannel_ok (by omega) (by omega) (hpl 2).1 (hpl 2).2.1 (hpl 2).2.2, Out.ok_bind,
        setIdx_ok (by omega), Out.ok_bind, addU_ok (by omega), Out.ok_bind, color_eq]
      rfl)
  refine ⟨o, ?_, hl, ?_, h2⟩
  · rw [hnest, e]; rfl
  · intro q hq
    rw [h1 q hq, List.getElem?_eq_getElem (by omega)]
    rfl

/-! ## Whole blocks -/

omit [Build] in
theorem diffBit_and2 (h : IsBytes d blk) : (d.d3 &&& 2 > 0) ↔ Spec.Etc.diffBit blk = true := by
  rw [diffBit_eq h, decide_eq_true_eq]
  have key : ∀ x, x < 256 → (x &&& 2 > 0 ↔ x / 2 % 2 = 1) := by decide +kernel
  exact key _ h.h3

omit [Build] in
theorem diffBit_obaq (h : IsBytes d blk) : decide (d.d3 >>> 1 &&& 1 > 0) = Spec.Etc.diffBit blk := by
  rw [diffBit_eq h]
  have key : ∀ x, x < 256 → (decide (x >>> 1 &&& 1 > 0) = decide (x / 2 % 2 = 1)) := by
    decide +kernel
  exact key _ h.h3

theorem etc2Sum_ok (h : IsBytes d blk) {ch : Nat} (hch : ch < 3) :
    etc2Sum (chByte d ch) = .ok (8 * Spec.Etc.diffSum blk ch) := by
  have hlt := chByte_lt h ch
  rw [diffSum_eq h ch hch]
  generalize chByte d ch = x at *
  have k1 : ∀ x, x < 256 → x <<< 3 &&& 0x18 = x % 4 * 8 := by decide +kernel
  have k2 : ∀ x, x < 256 → x <<< 3 &&& 0x20 = x / 4 % 2 * 32 := by decide +kernel
  unfold etc2Sum etc2Delta Spec.Etc.signed3
  rw [k1 x hlt, k2 x hlt, and_f8, subI32_ok (by omega) (by omega), Out.ok_bind,
    addI32_ok (by omega) (by omega)]
  congr 1
  split <;> omega

omit [Build] in
theorem outOfRange_iff (ch : Nat) :
    outOfRange (8 * Spec.Etc.diffSum blk ch) = decide (Spec.Etc.overflows blk ch) := by
  rw [Bool.eq_iff_iff, decide_eq_true_iff]
  unfold outOfRange Spec.Etc.overflows
  simp only [Bool.or_eq_true, decide_eq_true_eq]
  omega

theorem etc1_paints (h : IsBytes d blk) (f : Bool → Nat → Nat) (c : Rgb × Rgb)
    (hf : ∀ snd, ∀ ch, ch < 3 → fn (if snd = true then c.2 else c.1) ch = f snd ch)
    (hlt : ∀ snd, ∀ ch, ch < 3 → f snd ch < 256) {out : List UInt32} (ho : 16 ≤ out.length) :
    Paints (etc1Paint d.d3 c (fromBE [d.d6, d.d7]) (fromBE [d.d4, d.d5]) out) out (fun q =>
      Spec.Etc.shade (f (Spec.Etc.second blk q)) (Spec.Etc.modifier
        (Spec.Etc.codeword blk (Spec.Etc.second blk q)) (Spec.Etc.index blk q)) 255) := by
  refine Paints.congr (etc1Paint_spec h.h3 (rgbOk_of (hf false) (hlt false))
    (rgbOk_of (hf true) (hlt true)) ho) ?_
  intro q hq
  rw [second_eq h, codeword_eq h, index_eq h hq]
  exact shade_congr _ _ (hf _)

theorem decodeEtc1_spec {data : List UInt8} {out : List UInt32} (hd : 8 ≤ data.length)
    (ho : 16 ≤ out.length) :
    Paints (decodeEtc1Block data out) out (Spec.Etc.etc1Texel (data.take 8)) := by
  obtain ⟨d, e, h⟩ := bytes8_ok hd
  unfold decodeEtc1Block
  rw [e, Out.ok_bind]
  simp only
  by_cases hb : d.d3 &&& 2 > 0
  · rw [if_pos hb]
    refine Paints.congr (etc1_paints h _ _ (differential1_eq h) (differential_lt _) ho) ?_
    intro q _
    simp only [Spec.Etc.etc1Texel]
    rw [if_pos ((diffBit_and2 h).mp hb)]
  · rw [if_neg hb]
    refine Paints.congr (etc1_paints h _ _ (individual_eq h) (individual_lt _) ho) ?_
    intro q _
    simp only [Spec.Etc.etc1Texel]
    rw [if_neg (fun hh => hb ((diffBit_and2 h).mpr hh))]

theorem decodeEtc2Rgb_spec {data : List UInt8} {out : List UInt32} (hd : 8 ≤ data.length)
    (ho : 16 ≤ out.length) :
    Paints (decodeEtc2RgbBlock data out) out (Spec.Etc.etc2RgbTexel (data.take 8)) := by
  obtain ⟨d, e, h⟩ := bytes8_ok hd
  unfold decodeEtc2RgbBlock
  rw [e, Out.ok_bind]
  simp only
  generalize data.take 8 = blk at *
  by_cases hb : d.d3 &&& 2 > 0
  · have hdb := (diffBit_and2 h).mp hb
    rw [if_pos hb, show etc2Sum d.d0 = _ from etc2Sum_ok h (ch := 0) (by omega), Out.ok_bind,
      show etc2Sum d.d1 = _ from etc2Sum_ok h (ch := 1) (by omega), Out.ok_bind,
      show etc2Sum d.d2 = _ from etc2Sum_ok h (ch := 2) (by omega), Out.ok_bind]
    simp only [outOfRange_iff, decide_eq_true_eq]
    by_cases h0 : Spec.Etc.overflows blk 0
    · rw [if_pos h0]
      obtain ⟨set, es, hs⟩ := etc2TSet_ok h
      rw [es, Out.ok_bind]
      refine Paints.congr (etc2Paint_spec (be16_lt h.h4 h.h5) _ hs ho) ?_
      intro q hq
      unfold Spec.Etc.etc2RgbTexel Spec.Etc.mode
      rw [hdb, if_neg (by decide), if_pos h0, index_eq h hq]
    · rw [if_neg h0]
      by_cases h1 : Spec.Etc.overflows blk 1
      · rw [if_pos h1]
        obtain ⟨set, es, hs⟩ := etc2HSet_ok h
        rw [es, Out.ok_bind]
        refine Paints.congr (etc2Paint_spec (be16_lt h.h4 h.h5) _ hs ho) ?_
        intro q hq
        unfold Spec.Etc.etc2RgbTexel Spec.Etc.mode
        rw [hdb, if_neg (by decide), if_neg h0, if_pos h1, index_eq h hq]
      · rw [if_neg h1]
        by_cases h2 : Spec.Etc.overflows blk 2
        · rw [if_pos h2]
          refine Paints.congr (etc2PlanarPaint_spec h ho) ?_
          intro q hq
          unfold Spec.Etc.etc2RgbTexel Spec.Etc.mode
          rw [hdb, if_neg (by decide), if_neg h0, if_neg h1, if_pos h2]
        · rw [if_neg h2]
          have hov : ∀ ch, ch < 3 → ¬ Spec.Etc.overflows blk ch := by
            intro ch hch
            have : ch = 0 ∨ ch = 1 ∨ ch = 2 := by omega
            rcases this with rfl | rfl | rfl <;> assumption
          refine Paints.congr (etc1_paints h _ _ (differential2_eq h hov) (differential_lt _) ho) ?_
          intro q _
          unfold Spec.Etc.etc2RgbTexel Spec.Etc.mode
          rw [hdb, if_neg (by decide), if_neg h0, if_neg h1, if_neg h2]
          simp only [Spec.Etc.etc1Texel]
          rw [if_pos hdb]
  · rw [if_neg hb]
    have hdb : Spec.Etc.diffBit blk = false := by
      cases hc : Spec.Etc.diffBit blk
      · rfl
      · exact absurd ((diffBit_and2 h).mpr hc) hb
    refine Paints.congr (etc1_paints h _ _ (individual_eq h) (individual_lt _) ho) ?_
    intro q _
    unfold Spec.Etc.etc2RgbTexel Spec.Etc.mode
    rw [hdb, if_pos rfl]
    simp only
    unfold Spec.Etc.etc1Texel
    rw [hdb]
    rfl

omit [Build] in
theorem tPaint_mask (x : Nat) :
    Spec.Etc.tPaint blk x 255 &&& transparentMask = Spec.Etc.tPaint blk x 0 := by
  unfold Spec.Etc.tPaint
  simp only
  repeat' split
  all_goals exact shade_mask _ _

omit [Build] in
theorem hPaint_mask (x : Nat) :
    Spec.Etc.hPaint blk x 255 &&& transparentMask = Spec.Etc.hPaint blk x 0 := by
  unfold Spec.Etc.hPaint
  simp only
  repeat' split
  all_goals exact shade_mask _ _

omit [Build] in
theorem transparent_iff {q : Nat} (hm : Spec.Etc.mode true blk ≠ .planar) :
    Spec.Etc.transparent blk q ↔ Spec.Etc.diffBit blk = false ∧ Spec.Etc.index blk q = 2 := by
  unfold Spec.Etc.transparent
  exact ⟨fun ⟨a, _, c⟩ => ⟨a, c⟩, fun ⟨a, c⟩ => ⟨a, hm, c⟩⟩

theorem decodeEtc2Rgba1_spec {data : List UInt8} {out : List UInt32} (hd : 8 ≤ data.length)
    (ho : 16 ≤ out.length) :
    Paints (decodeEtc2Rgba1Block data out) out (Spec.Etc.etc2Rgba1Texel (data.take 8)) := by
  obtain ⟨d, e, h⟩ := bytes8_ok hd
  unfold decodeEtc2Rgba1Block
  rw [e, Out.ok_bind]
  simp only
  generalize data.take 8 = blk at *
  rw [diffBit_obaq h, show etc2Sum d.d0 = _ from etc2Sum_ok h (ch := 0) (by omega), Out.ok_bind,
      show etc2Sum d.d1 = _ from etc2Sum_ok h (ch := 1) (by omega), Out.ok_bind,
      show etc2Sum d.d2 = _ from etc2Sum_ok h (ch := 2) (by omega), Out.ok_bind]
  simp only [outOfRange_iff, decide_eq_true_eq]
  by_cases h0 : Spec.Etc.overflows blk 0
  · have hm : Spec.Etc.mode true blk = .t := by
      unfold Spec.Etc.mode; rw [if_neg (by decide), if_pos h0]
    rw [if_pos h0]
    obtain ⟨set, es, hs⟩ := etc2TSet_ok h
    rw [es, Out.ok_bind]
    refine Paints.congr (etc2PaintA_spec (be16_lt h.h4 h.h5) _ hs ho) ?_
    intro q hq
    simp only [Spec.Etc.etc2Rgba1Texel, transparent_iff (by rw [hm]; decide), hm, index_eq h hq]
    split
    · exact tPaint_mask _
    · rfl
  · rw [if_neg h0]
    by_cases h1 : Spec.Etc.overflows blk 1
    · have hm : Spec.Etc.mode true blk = .h := by
        unfold Spec.Etc.mode; rw [if_neg (by decide), if_neg h0, if_pos h1]
      rw [if_pos h1]
      obtain ⟨set, es, hs⟩ := etc2HSet_ok h
      rw [es, Out.ok_bind]
      refine Paints.congr (etc2PaintA_spec (be16_lt h.h4 h.h5) _ hs ho) ?_
      intro q hq
      simp only [Spec.Etc.etc2Rgba1Texel, transparent_iff (by rw [hm]; decide), hm, index_eq h hq]
      split
      · exact hPaint_mask _
      · rfl
    · rw [if_neg h1]
      by_cases h2 : Spec.Etc.overflows blk 2
      · have hm : Spec.Etc.mode true blk = .planar := by
          unfold Spec.Etc.mode; rw [if_neg (by decide), if_neg h0, if_neg h1, if_pos h2]
        rw [if_pos h2]
        refine Paints.congr (etc2PlanarPaint_spec h ho) ?_
        intro q hq
        unfold Spec.Etc.etc2Rgba1Texel
        rw [hm]
      · have hm : Spec.Etc.mode true blk = .differential := by
          unfold Spec.Etc.mode; rw [if_neg (by decide), if_neg h0, if_neg h1, if_neg h2]
        rw [if_neg h2]
        have hov : ∀ ch, ch < 3 → ¬ Spec.Etc.overflows blk ch := by
          intro ch hch
          have : ch = 0 ∨ ch = 1 ∨ ch = 2 := by omega
          rcases this with rfl | rfl | rfl <;> assumption
        have hf := differential2_eq h hov
        have hlt := differential_lt blk
        refine Paints.congr (etc2aPaint_spec h.h3 (rgbOk_of (hf false) (hlt false))
          (rgbOk_of (hf true) (hlt true)) ho) ?_
        intro q hq
        simp only [Spec.Etc.etc2Rgba1Texel, transparent_iff (by rw [hm]; decide), hm,
          second_eq h, codeword_eq h, index_eq h hq]
        exact shade_congr _ _ (hf _)

end Verif.Proofs
