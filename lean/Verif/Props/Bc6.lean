import Verif.Proofs.ImageLaws
import Verif.Proofs.Bc6Mode15

/-!
# Properties C22, C23, C47 (BC6H) and C46 (half floats)
-/

namespace Verif.Props

open Verif Verif.Proofs

/-- **C22** (violated) Every mode-15 block panics in a debug build. -/
theorem C22_mode15_panics (data : List UInt8) (out : List UInt32) (signed : Bool)
    (hd : 16 ≤ data.length) (hm : Spec.Bc6.modeOf (data.take 16) = 15) :
    (letI := Build.debug; Model.decodeBc6Block signed data out) = .panic :=
  bc6_mode15_panic hd signed hm out

/-- A mode-15 block and a whole image made of it. -/
def bc6Mode15 : List UInt8 := 0x0f :: List.replicate 15 0x21
example : Spec.Bc6.modeOf bc6Mode15 = 15 := by decide
example : (letI := Build.debug; Model.decodeBc6 bc6Mode15 4 4 (List.replicate 16 0) false) = .panic := by
  rfl

/-- **C22** With overflow checks exactly the mode-15 blocks panic. -/
theorem C22_block_panics_iff (data : List UInt8) (out : List UInt32) (signed : Bool)
    (hd : 16 ≤ data.length) (ho : 16 ≤ out.length) :
    (letI := Build.debug; Model.decodeBc6Block signed data out) = .panic ↔
      Spec.Bc6.modeOf (data.take 16) = 15 := by
  letI := Build.debug
  refine ⟨fun h => Classical.byContradiction fun hm => ?_, fun hm => bc6_mode15_panic hd signed hm out⟩
  obtain ⟨o, e, _⟩ := bc6_block hd signed hm ho
  rw [e] at h
  cases h

/-- **C22** With overflow checks exactly the images with a mode-15 block panic. -/
theorem C22_image_panics_iff (data : List UInt8) (w h : Nat) (image : List UInt32) (signed : Bool)
    (hs : Spec.SizesOk 4 4 16 w h image) (hd : Spec.bytesNeeded 4 4 16 w h ≤ data.length)
    (hi : w * h ≤ image.length) :
    (letI := Build.debug; Model.decodeBc6 data w h image signed) = .panic ↔
      ∃ k, k < Spec.numBlocks 4 4 w h ∧ Spec.Bc6.modeOf (Spec.blockBytes 16 data k) = 15 := by
  letI := Build.debug
  have e : Model.decodeBc6 data w h image signed =
      Model.blockDecoder 4 4 16 (Model.decodeBc6Block signed) data w h image := by
    cases signed <;> rfl
  show Model.decodeBc6 data w h image signed = .panic ↔ _
  rw [e]
  constructor
  · intro hp
    refine Classical.byContradiction fun hno => ?_
    obtain ⟨o, eo, _⟩ := (decodes4 (by omega) (bc6_contract signed)).success data w h image hs hd hi
      (fun k hk hm => hno ⟨k, hk, hm⟩)
    rw [eo] at hp
    cases hp
  · rintro ⟨k, hk, hm⟩
    exact blockDecoder_panic_of (Bad := fun blk => Spec.Bc6.modeOf blk = 15) (by omega) (by omega) (by omega)
      (fun d buf hd hb => bc6_mode15_panic hd signed hb buf) hs hd hi hk hm

/-- The second of two blocks has mode 15. -/
example : (letI := Build.debug
    Model.decodeBc6 (List.replicate 16 0xff ++ bc6Mode15) 5 4 (List.replicate 20 0) true) = .panic :=
  (C22_image_panics_iff _ 5 4 _ true ⟨by decide, by decide, by decide⟩ (by decide) (by decide)).mpr
    ⟨1, by decide, by decide⟩

/-- **C22** Without overflow checks every block decodes; only the first 16 pixels of the output change. -/
theorem C22_release_total (data : List UInt8) (out : List UInt32) (signed : Bool)
    (hd : 16 ≤ data.length) (ho : 16 ≤ out.length) :
    ∃ out', (letI := Build.release; Model.decodeBc6Block signed data out) = .ok out' ∧
      out'.length = out.length ∧ ∀ i, 16 ≤ i → out'[i]? = out[i]? := by
  obtain ⟨o, e, l, r, _⟩ := bc6_block_release hd signed ho
  exact ⟨o, e, l, r⟩

example : 16 ≤ bc6Mode15.length ∧ 16 ≤ (List.replicate 18 (9 : UInt32)).length := by decide

/-- **C47** Without overflow checks: exactly what the code computes on every image, mode-15 blocks
included. -/
theorem C47_bc6_release_as_is (signed : Bool) :
    Spec.Decodes (fun d w h i => letI := Build.release; Model.decodeBc6 d w h i signed) 4 4 16
      (Spec.Bc6.texelUnchecked signed) := by
  letI := Build.release
  have S := decodes4 (by omega) (bc6_contract_release signed)
  cases signed
  · exact S
  · exact S

/-- **C47** (violated) Mode 15 without overflow checks: not the BPTC colours. -/
theorem C47_bc6_mode15_differs :
    ∃ blk : List UInt8, blk.length = 16 ∧ Spec.Bc6.modeOf blk = 15 ∧
      Spec.Bc6.texelUnchecked false blk 1 ≠ Spec.Bc6.texel false blk 1 ∧
      Spec.Bc6.texelUnchecked true blk 1 ≠ Spec.Bc6.texel true blk 1 := by
  refine ⟨[0x0f, 0, 0, 0, 0, 0x0f, 0, 0, 0xfe] ++ List.replicate 7 0xff, rfl, by decide, ?_, ?_⟩ <;>
  decide +kernel

section
variable [Build]

/-- **C22** (the part that holds) Every other block decodes without a panic, in every build; only the
first 16 pixels of the output change. -/
theorem C22_bc6_total_partial (data : List UInt8) (out : List UInt32) (signed : Bool)
    (hd : 16 ≤ data.length) (ho : 16 ≤ out.length) (hm : Spec.Bc6.modeOf (data.take 16) ≠ 15) :
    ∃ out', Model.decodeBc6Block signed data out = .ok out' ∧ out'.length = out.length ∧
      ∀ i, 16 ≤ i → out'[i]? = out[i]? := by
  obtain ⟨o, e, l, r, _⟩ := bc6_block hd signed hm ho
  exact ⟨o, e, l, r⟩

/-- **C22** The outcome depends only on the first 16 bytes. -/
theorem C22_bc6_only_16_bytes (block extra1 extra2 : List UInt8) (out : List UInt32) (signed : Bool)
    (hb : block.length = 16) (ho : 16 ≤ out.length) :
    Model.decodeBc6Block signed (block ++ extra1) out =
      Model.decodeBc6Block signed (block ++ extra2) out := by
  have ht : ∀ extra, (block ++ extra).take 16 = block := fun extra => by rw [← hb, List.take_left]
  have hl : ∀ extra, 16 ≤ (block ++ extra).length := fun extra => by simp; omega
  rename_i inst
  obtain ⟨ck⟩ := inst
  have same : ∀ {o1 o2 : List UInt32} {t : List UInt8 → Nat → UInt32},
      (∀ i, 16 ≤ i → o1[i]? = out[i]?) → (∀ i, 16 ≤ i → o2[i]? = out[i]?) →
      (∀ i, i < 16 → o1[i]? = some (t ((block ++ extra1).take 16) i)) →
      (∀ i, i < 16 → o2[i]? = some (t ((block ++ extra2).take 16) i)) → o1 = o2 := by
    intro o1 o2 t r1 r2 h1 h2
    apply List.ext_getElem?
    intro i
    by_cases hi : i < 16
    · rw [h1 i hi, h2 i hi, ht, ht]
    · rw [r1 i (by omega), r2 i (by omega)]
  by_cases hm : Spec.Bc6.modeOf block = 15
  · cases ck
    · obtain ⟨o1, e1, l1, r1, h1⟩ := bc6_block_release (hl extra1) signed ho
      obtain ⟨o2, e2, l2, r2, h2⟩ := bc6_block_release (hl extra2) signed ho
      have e : o1 = o2 := same r1 r2 h1 h2
      subst e
      exact e1.trans e2.symm
    · exact (bc6_mode15_panic (hl extra1) signed (by rw [ht]; exact hm) out).trans
        (bc6_mode15_panic (hl extra2) signed (by rw [ht]; exact hm) out).symm
  · obtain ⟨o1, e1, l1, r1, h1⟩ := @bc6_block ⟨ck⟩ _ (hl extra1) signed (by rw [ht]; exact hm) _ ho
    obtain ⟨o2, e2, l2, r2, h2⟩ := @bc6_block ⟨ck⟩ _ (hl extra2) signed (by rw [ht]; exact hm) _ ho
    have e : o1 = o2 := same r1 r2 h1 h2
    subst e
    exact e1.trans e2.symm

example : bc6Mode15.length = 16 := by decide

/-- A mode-3 block: one subset, ten bits per endpoint. -/
def bc6Mode3 (r0 g0 b0 r1 g1 b1 indices : Nat) : List UInt8 :=
  let v := 3 + 2 ^ 5 * (r0 + 2 ^ 10 * (g0 + 2 ^ 10 * (b0 + 2 ^ 10 * (r1 + 2 ^ 10 * (g1 + 2 ^ 10 *
    (b1 + 2 ^ 10 * indices))))))
  (List.range 16).map (fun i => UInt8.ofNat (v / 256 ^ i))

example : Spec.Bc6.modeOf (bc6Mode3 512 0 0 0 0 0 7) = 3 := by decide +kernel

example : ∃ o, Model.decodeBc6Block true (bc6Mode3 512 1 2 3 4 5 6) (List.replicate 18 9) = .ok o ∧
    o[17]? = some 9 := by
  obtain ⟨o, e, _, r⟩ := C22_bc6_total_partial (bc6Mode3 512 1 2 3 4 5 6) (List.replicate 18 9) true
    (by decide) (by decide) (by decide +kernel)
  exact ⟨o, e, (r 17 (by decide)).trans (by decide)⟩

/-- **C23** Reserved modes (19, 23, 27, 31) give sixteen zero words. -/
theorem C23_reserved (data : List UInt8) (out : List UInt32) (signed : Bool)
    (hd : 16 ≤ data.length) (ho : out.length = 16)
    (hm : Spec.field (data.take 16) 0 5 = 19 ∨ Spec.field (data.take 16) 0 5 = 23 ∨
      Spec.field (data.take 16) 0 5 = 27 ∨ Spec.field (data.take 16) 0 5 = 31) :
    Model.decodeBc6Block signed data out = .ok (List.replicate 16 0) := by
  have h2 : ¬ Spec.field (data.take 16) 0 2 < 2 := by
    have e : Spec.field (data.take 16) 0 2 = Spec.field (data.take 16) 0 5 % 4 := by
      unfold Spec.field; omega
    omega
  have hmode : Spec.Bc6.modeOf (data.take 16) = Spec.field (data.take 16) 0 5 := by
    unfold Spec.Bc6.modeOf; rw [if_neg h2]
  obtain ⟨o, e, l, _, h⟩ := bc6_block hd signed (by rw [hmode]; omega) (buf := out) (by omega)
  rw [e]
  congr 1
  apply List.ext_getElem?
  intro i
  by_cases hi : i < 16
  · rw [h i hi, List.getElem?_replicate, if_pos hi]
    unfold Spec.Bc6.texelAsIs
    rw [hmode]
    rcases hm with hm | hm | hm | hm <;> rw [hm] <;> rfl
  · rw [List.getElem?_eq_none (by omega), List.getElem?_eq_none (by simp; omega)]

example : Model.decodeBc6Block false (0xff :: List.replicate 15 7) (List.replicate 16 1) =
    .ok (List.replicate 16 0) :=
  C23_reserved _ _ _ (by decide) (by decide) (by decide +kernel)

/-- **C23** Every other block is opaque whenever decoding it does not panic (mode 15 included). -/
theorem C23_opaque (data : List UInt8) (out out' : List UInt32) (signed : Bool)
    (hd : 16 ≤ data.length)
    (hm : ¬ (Spec.field (data.take 16) 0 5 = 19 ∨ Spec.field (data.take 16) 0 5 = 23 ∨
      Spec.field (data.take 16) 0 5 = 27 ∨ Spec.field (data.take 16) 0 5 = 31))
    (hok : Model.decodeBc6Block signed data out = .ok out') (i : Nat) (hi : i < 16) :
    ∃ p, out'[i]? = some p ∧ Spec.alpha p = 255 := by
  refine bc6_opaque hd ?_ hok i hi
  have l5 := field_lt (data.take 16) 0 5
  have e2 : Spec.field (data.take 16) 0 2 = Spec.field (data.take 16) 0 5 % 4 := by
    unfold Spec.field; omega
  unfold Spec.Bc6.modeOf
  rw [e2]
  have key : ∀ m, m < 32 → ¬ (m = 19 ∨ m = 23 ∨ m = 27 ∨ m = 31) →
      (Spec.Bc6.mode (if m % 4 < 2 then m % 4 else m)).isNone = false := by decide
  intro hc
  have := key _ l5 hm
  rw [hc] at this
  cases this

example : ∃ o p, Model.decodeBc6Block true (bc6Mode3 512 1 2 3 4 5 6) (List.replicate 16 9) = .ok o ∧
    o[3]? = some p ∧ Spec.alpha p = 255 := by
  obtain ⟨o, e, _⟩ := C22_bc6_total_partial (bc6Mode3 512 1 2 3 4 5 6) (List.replicate 16 9) true
    (by decide) (by decide) (by decide +kernel)
  obtain ⟨p, h⟩ := C23_opaque _ _ _ _ (by decide) (by decide +kernel) e 3 (by decide)
  exact ⟨o, p, e, h⟩

/-- **C46** Conversion of a half float to a byte. `Spec.halfToByte` is exact arithmetic; the code goes
through two single-precision floats. -/
theorem C46_half_to_byte (h : Nat) (hh : h < 2 ^ 16) : Model.f16ToU8 h = .ok (Spec.halfToByte h) :=
  f16ToU8_ok hh

/-- 0.5, the largest finite value, the smallest subnormal, −1, +∞ and a NaN. -/
example : Spec.halfToByte 0x3800 = 127 ∧ Spec.halfToByte 0x7bff = 255 ∧ Spec.halfToByte 1 = 0 ∧
    Spec.halfToByte 0xbc00 = 0 ∧ Spec.halfToByte 0x7c00 = 255 ∧ Spec.halfToByte 0x7c01 = 0 := by
  decide +kernel

/-- **C47** (violated) `decode_bc6` unsigned: not the BPTC colours, even without mode 15. -/
theorem C47_bc6_unsigned_differs :
    ¬ Spec.DecodesLegal (fun d w h i => Model.decodeBc6 d w h i false) 4 4 16
      (fun blk => Spec.Bc6.modeOf blk ≠ 15) (Spec.Bc6.texel false) := by
  intro H
  have hs : Spec.SizesOk 4 4 16 1 1 [0] := ⟨by decide, by decide, by decide⟩
  have hl : ∀ k, k < Spec.numBlocks 4 4 1 1 →
      Spec.Bc6.modeOf (Spec.blockBytes 16 (bc6Mode3 0 0 0 512 0 0 7) k) ≠ 15 := by decide +kernel
  obtain ⟨o1, e1, d1⟩ := H.success (bc6Mode3 0 0 0 512 0 0 7) 1 1 [0] hs (by decide) (by decide) hl
  obtain ⟨o2, e2, d2⟩ := (decoder_spec .bc6u).success (bc6Mode3 0 0 0 512 0 0 7) 1 1 [0] hs (by decide)
    (by decide) hl
  have e : o1 = o2 := by
    have := e1.symm.trans e2
    injection this with this
    injection this
  subst e
  have := (d1.pixel 0 0 (by decide) (by decide)).symm.trans (d2.pixel 0 0 (by decide) (by decide))
  revert this
  decide +kernel

/-- **C47** (violated) `decode_bc6` signed: not the BPTC colours, even without mode 15. -/
theorem C47_bc6_signed_differs :
    ¬ Spec.DecodesLegal (fun d w h i => Model.decodeBc6 d w h i true) 4 4 16
      (fun blk => Spec.Bc6.modeOf blk ≠ 15) (Spec.Bc6.texel true) := by
  intro H
  have hs : Spec.SizesOk 4 4 16 2 1 [0, 0] := ⟨by decide, by decide, by decide⟩
  have hl : ∀ k, k < Spec.numBlocks 4 4 2 1 →
      Spec.Bc6.modeOf (Spec.blockBytes 16 (bc6Mode3 1023 0 0 511 0 0 64) k) ≠ 15 := by decide +kernel
  obtain ⟨o1, e1, d1⟩ := H.success (bc6Mode3 1023 0 0 511 0 0 64) 2 1 [0, 0] hs (by decide) (by decide) hl
  obtain ⟨o2, e2, d2⟩ := (decoder_spec .bc6s).success (bc6Mode3 1023 0 0 511 0 0 64) 2 1 [0, 0] hs
    (by decide) (by decide) hl
  have e : o1 = o2 := by
    have := e1.symm.trans e2
    injection this with this
    injection this
  subst e
  have := (d1.pixel 1 0 (by decide) (by decide)).symm.trans (d2.pixel 1 0 (by decide) (by decide))
  revert this
  decide +kernel

/-- **C47** (the part that holds) Images whose blocks are `Clean` decode to exactly the BPTC colours. -/
theorem C47_bc6_partial (signed : Bool) :
    Spec.DecodesLegal (fun d w h i => Model.decodeBc6 d w h i signed) 4 4 16
      (Spec.Bc6.Clean signed) (Spec.Bc6.texel signed) := by
  have S : Spec.DecodesLegal (fun d w h i => Model.decodeBc6 d w h i signed) 4 4 16
      (fun blk => Spec.Bc6.modeOf blk ≠ 15) (Spec.Bc6.texelAsIs signed) := by
    cases signed
    · exact decoder_spec .bc6u
    · exact decoder_spec .bc6s
  refine ⟨S.not_enough_data, S.image_too_small, ?_⟩
  intro data w h image hs h1 h2 hl
  obtain ⟨o, e, d⟩ := S.success data w h image hs h1 h2 (fun k hk => (hl k hk).1)
  refine ⟨o, e, d.length_eq, ?_, d.rest⟩
  intro x y hx hy
  rw [d.pixel x y hx hy]
  unfold Spec.pixelAt
  rw [clean_texel (hl _ (numBlocks_idx hx hy)) (by omega)]

/-- **C47** Exactly what the code computes on every image without mode-15 blocks. -/
theorem C47_bc6_as_is (signed : Bool) :
    Spec.DecodesLegal (fun d w h i => Model.decodeBc6 d w h i signed) 4 4 16
      (fun blk => Spec.Bc6.modeOf blk ≠ 15) (Spec.Bc6.texelAsIs signed) := by
  cases signed
  · exact decoder_spec .bc6u
  · exact decoder_spec .bc6s

omit [Build] in
/-- A clean block: endpoints 100/200 (red), 300/10 (green), 5/6 (blue). -/
theorem bc6Clean_demo (signed : Bool) : Spec.Bc6.Clean signed (bc6Mode3 100 300 5 200 10 6 0x123456) := by
  have hm : Spec.Bc6.modeOf (bc6Mode3 100 300 5 200 10 6 0x123456) = 3 := by decide +kernel
  refine ⟨by rw [hm]; decide, ?_⟩
  rw [hm]
  intro M hM
  have hM := Option.some.inj hM
  subst hM
  cases signed <;> decide +kernel

end

end Verif.Props
