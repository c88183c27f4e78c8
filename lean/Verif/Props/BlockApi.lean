import Verif.Proofs.Formats
import Verif.Proofs.AstcBlock

/-!
# Property C63: the functions that decode a single block

`decode_..._block(data, outbuf)` of each format, with an output buffer of any length.
-/

namespace Verif

namespace Props

open Verif.Proofs Verif.Model

/-! ## The property, and where it fails -/

/-- `after` is the buffer `before` with the 16 texels of a block in front. -/
structure IsBlock (texel : Nat → UInt32) (before after : List UInt32) : Prop where
  length_eq : after.length = before.length
  texels : ∀ i, i < 16 → after[i]? = some (texel i)
  rest : ∀ i, 16 ≤ i → after[i]? = before[i]?

/-- **C63** (violated) The functions for BC3, BC4, BC5 and ATC RGBA8 change words behind the 16 of the
block. -/
theorem C63_overrun [Build] (fmt : Spec.Format)
    (hf : fmt = .bc3 ∨ fmt = .bc4 ∨ fmt = .bc5 ∨ fmt = .atcrgba) :
    ∃ data out o, data.length = fmt.blockSize ∧ blockFn fmt data out = .ok o ∧ 16 < out.length ∧
      o[16]? ≠ out[16]? := by
  refine ⟨List.replicate fmt.blockSize 7, List.replicate 17 0, ?_⟩
  rcases hf with rfl | rfl | rfl | rfl
  · obtain ⟨ck⟩ := ‹Build›; cases ck <;> exact ⟨_, rfl, rfl, by decide, by decide +kernel⟩
  · obtain ⟨ck⟩ := ‹Build›; cases ck <;> exact ⟨_, rfl, rfl, by decide, by decide +kernel⟩
  · obtain ⟨ck⟩ := ‹Build›; cases ck <;> exact ⟨_, rfl, rfl, by decide, by decide +kernel⟩
  · obtain ⟨ck⟩ := ‹Build›; cases ck <;> exact ⟨_, rfl, rfl, by decide, by decide +kernel⟩

/-- **C63** (violated) The functions for BC4 and BC5 leave old colours in the buffer: from a buffer of
zeros the pixels are not even opaque. -/
theorem C63_old_colours [Build] (fmt : Spec.Format) (hf : fmt = .bc4 ∨ fmt = .bc5) :
    ∃ data o, data.length = fmt.blockSize ∧ blockFn fmt data (List.replicate 16 0) = .ok o ∧
      o[0]? ≠ some (fmt.texel data 0) := by
  refine ⟨List.replicate fmt.blockSize 7, ?_⟩
  rcases hf with rfl | rfl
  · obtain ⟨ck⟩ := ‹Build›; cases ck <;> exact ⟨_, rfl, rfl, by decide +kernel⟩
  · obtain ⟨ck⟩ := ‹Build›; cases ck <;> exact ⟨_, rfl, rfl, by decide +kernel⟩

/-- **C63** (what holds) All other functions write the 16 texels of the block and nothing else,
whatever the buffer held before. -/
theorem C63_block_partial [Build] (fmt : Spec.Format)
    (hf : fmt ≠ .bc3 ∧ fmt ≠ .bc4 ∧ fmt ≠ .bc5 ∧ fmt ≠ .atcrgba) (data : List UInt8)
    (hd : fmt.blockSize ≤ data.length) (hl : fmt.Legal (data.take fmt.blockSize))
    (out : List UInt32) (ho : 16 ≤ out.length) :
    ∃ o, blockFn fmt data out = .ok o ∧
      IsBlock (fmt.texel (data.take fmt.blockSize)) out o := by
  have use : ∀ {r : Out (List UInt32)} {v : Nat → UInt32}, Paints r out v →
      ∃ o, r = .ok o ∧ IsBlock v out o := fun ⟨o, e, h1, h2, h3⟩ => ⟨o, e, h1, h2, h3⟩
  cases fmt
  case bc3 => exact absurd rfl hf.1
  case bc4 => exact absurd rfl hf.2.1
  case bc5 => exact absurd rfl hf.2.2.1
  case atcrgba => exact absurd rfl hf.2.2.2
  case bc1 => exact use (decodeBc1Core_spec hd ho)
  case bc1a => exact use (decodeBc1Core_spec hd ho)
  case bc2 =>
    have hd : 16 ≤ data.length := hd
    obtain ⟨o, e, hl, h1, h1'⟩ := decodeBc1Core_spec (punch := false) (data := data.drop 8)
      (by simp; omega) ho
    obtain ⟨o2, e2, hl2, h3, h3'⟩ := decodeBc2Alpha_spec (data := data) (by omega) (out := o)
      (by omega)
    refine ⟨o2, ?_, by omega, ?_, fun i hi => (h3' i hi).trans (h1' i hi)⟩
    · show decodeBc2Block data out = _
      unfold decodeBc2Block
      rw [sliceFrom_ok (by omega), Out.ok_bind]
      rw [show decodeBc1Block = decodeBc1Core false from rfl, e, Out.ok_bind, e2]
    · intro i hi
      rw [h3 i hi, h1 i hi]
      show _ = some (Spec.bc2Texel (data.take 16) i)
      unfold Spec.bc2Texel
      rw [field_eq, ← field_take (raw := 16) (by omega), drop_take16]
      rfl
  case bc6s =>
    obtain ⟨o, e, h1, h2, h3⟩ := bc6_block hd true hl ho
    exact ⟨o, e, h1, h3, h2⟩
  case bc6u =>
    obtain ⟨o, e, h1, h2, h3⟩ := bc6_block hd false hl ho
    exact ⟨o, e, h1, h3, h2⟩
  case bc7 =>
    obtain ⟨o, e, h1, h2, h3⟩ := bc7_block hd ho
    exact ⟨o, e, h1, h3, h2⟩
  case etc1 => exact use (decodeEtc1_spec hd ho)
  case etc2rgb => exact use (decodeEtc2Rgb_spec hd ho)
  case etc2rgba1 => exact use (decodeEtc2Rgba1_spec hd ho)
  case etc2rgba8 => exact use (decodeEtc2Rgba8_spec hd ho)
  case eacr => exact use (eacr_spec false hd ho)
  case eacrs => exact use (eacr_spec true hd ho)
  case eacrg => exact use (eacrg_spec false hd ho)
  case eacrgs => exact use (eacrg_spec true hd ho)
  case atcrgb => exact use (decodeAtcRgb4_spec hd ho)

example : Spec.Format.blockSize .etc1 ≤ (List.replicate 9 (1 : UInt8)).length ∧
    Spec.Format.Legal .etc1 ((List.replicate 9 1).take 8) ∧ 16 ≤ (List.replicate 20 (5 : UInt32)).length :=
  ⟨by decide, trivial, by decide⟩

/-- **C63** (what holds) `decode_astc_block`. -/
theorem C63_astc [Build] (data : List UInt8) (bw bh : Nat) (hbw : 2 ≤ bw) (hbh : 2 ≤ bh)
    (hb : bw * bh ≤ 144) (hd : 16 ≤ data.length) (hf : Spec.Astc.Fits (data.take 16))
    (out : List UInt32) (ho : bw * bh ≤ out.length) :
    ∃ o, decodeAstcBlock data bw bh out = .ok o ∧ o.length = out.length ∧
      (∀ i, i < bw * bh → o[i]? = some (Spec.Astc.texel true bw bh (data.take 16) i)) ∧
      ∀ i, bw * bh ≤ i → o[i]? = out[i]? :=
  Astc.decodeAstcBlock_ok hd hf hbw hbh hb out ho

/-- **C63** (what holds) `decode_etc2_a8_block` replaces the alpha of the first 16 words. -/
theorem C63_etc2_a8 [Build] (data : List UInt8) (hd : 8 ≤ data.length) (out : List UInt32)
    (ho : 16 ≤ out.length) :
    ∃ o, decodeEtc2A8Block data out = .ok o ∧ o.length = out.length ∧
      (∀ i p, i < 16 → out[i]? = some p →
        o[i]? = some (Spec.withAlpha p (Spec.Etc.eacAlpha (data.take 8) i))) ∧
      ∀ i, 16 ≤ i → o[i]? = out[i]? := by
  obtain ⟨o, e, hl, h1, h2⟩ := decodeEtc2A8_spec hd ho
  exact ⟨o, e, hl, fun i p hi hp => by rw [h1 i hi, hp, Option.map_some], h2⟩

/-- **C63** (what holds) `decode_eac_block` and `decode_eac_signed_block`: the value is combined by
"or" with channel `c` of the first 16 words (0 is blue, 3 is alpha), so it replaces a channel that was
zero. -/
theorem C63_eac [Build] (signed : Bool) (data : List UInt8) (hd : 8 ≤ data.length) (c : Nat)
    (hc : c < 4) (out : List UInt32) (ho : 16 ≤ out.length) :
    ∃ o, (if signed then decodeEacSignedBlock data c out else decodeEacBlock data c out) = .ok o ∧
      o.length = out.length ∧
      (∀ i p, i < 16 → out[i]? = some p →
        o[i]? = some (p ||| UInt32.ofNat (256 ^ c *
          Spec.Etc.eac8 signed (data.take 8) (Spec.Etc.eacIndexLE (data.take 8) i)))) ∧
      ∀ i, 16 ≤ i → o[i]? = out[i]? := by
  obtain ⟨o, e, hl, h1, h2⟩ := eacCore_spec (signed := signed) (channel := c)
    (upd := fun v p => p ||| UInt32.ofNat (256 ^ c * v)) hd ho (by
      intro v p _
      obtain rfl | rfl | rfl | rfl : c = 0 ∨ c = 1 ∨ c = 2 ∨ c = 3 := by omega
      all_goals
        refine ⟨_, rfl, ?_⟩
        congr 2
        simp [fromLE]
        try omega)
  refine ⟨o, ?_, hl, fun i p hi hp => by rw [h1 i hi, hp, Option.map_some], h2⟩
  cases signed
  · exact (decodeEacBlock_eq data c out).trans e
  · exact (decodeEacSignedBlock_eq data c out).trans e

/-! ## Exactly what the four functions do -/

/-- Value 16 and the following ones of a BC3 alpha block are the first endpoint. -/
theorem bc3Value_behind {data : List UInt8} (hd : 8 ≤ data.length) {i : Nat} (hi : 16 ≤ i) :
    Spec.bc3Value (data.take 8) i = Spec.byteAt data 0 := by
  have h0 : Spec.field (data.take 8) (16 + 3 * i) 3 = 0 := by
    unfold Spec.field
    have h1 : Spec.leNat (data.take 8) < 2 ^ (8 * 8) := by
      have := leNat_lt (data.take 8)
      rwa [List.length_take, Nat.min_eq_left hd] at this
    rw [Nat.div_eq_of_lt (Nat.lt_of_lt_of_le h1 (Nat.pow_le_pow_right (by decide) (by omega)))]
  unfold Spec.bc3Value Spec.bc3Entry
  rw [h0, if_pos rfl]
  exact field_take (by decide)

/-- **C63** BC4, for a buffer of any length: red is replaced in every word, by the first endpoint
behind the block; the other channels stay. -/
theorem C63_bc4 [Build] (data : List UInt8) (hd : 8 ≤ data.length) (out : List UInt32) :
    ∃ o, decodeBc4Block data out = .ok o ∧ o.length = out.length ∧
      ∀ i p, out[i]? = some p → o[i]? = some (Spec.px
        (if i < 16 then Spec.bc3Value (data.take 8) i else Spec.byteAt data 0)
        (Spec.green p) (Spec.blue p) (Spec.alpha p)) := by
  obtain ⟨o, e, hl, h1⟩ := decodeBc3Alpha_any (c := 2) (out := out) hd
  refine ⟨o, e, hl, ?_⟩
  intro i p hp
  have hi : i < out.length := (List.getElem?_eq_some_iff.mp hp).1
  rw [h1 i hi, hp, Option.map_some, setChannel_2 _ (bc3Value_lt _ _)]
  by_cases h16 : i < 16
  · rw [if_pos h16]
  · rw [if_neg h16, bc3Value_behind hd (by omega)]

/-- **C63** BC5, for a buffer of any length. -/
theorem C63_bc5 [Build] (data : List UInt8) (hd : 16 ≤ data.length) (out : List UInt32) :
    ∃ o, decodeBc5Block data out = .ok o ∧ o.length = out.length ∧
      ∀ i p, out[i]? = some p → o[i]? = some (Spec.px
        (if i < 16 then Spec.bc3Value (data.take 8) i else Spec.byteAt data 0)
        (if i < 16 then Spec.bc3Value ((data.drop 8).take 8) i else Spec.byteAt (data.drop 8) 0)
        (Spec.blue p) (Spec.alpha p)) := by
  obtain ⟨o, e, hl, h1⟩ := C63_bc4 data (by omega) out
  obtain ⟨o2, e2, hl2, h2⟩ := decodeBc3Alpha_any (c := 1) (data := data.drop 8) (out := o)
    (by simp; omega)
  refine ⟨o2, ?_, by omega, ?_⟩
  · show decodeBc5Block data out = _
    unfold decodeBc5Block
    rw [show decodeBc3Alpha 2 data out = .ok o from e, Out.ok_bind, sliceFrom_ok (by omega),
      Out.ok_bind, e2]
  · intro i p hp
    have hi : i < out.length := (List.getElem?_eq_some_iff.mp hp).1
    rw [h2 i (by omega), h1 i p hp, Option.map_some, setChannel_1 _ (bc3Value_lt _ _)]
    have hv : (if i < 16 then Spec.bc3Value (data.take 8) i else Spec.byteAt data 0) < 256 := by
      split
      · exact bc3Value_lt _ _
      · exact byteAt_lt _ _
    rw [red_px hv (green_lt p) (blue_lt p) (alpha_lt p), blue_px hv (green_lt p) (blue_lt p)
      (alpha_lt p), alpha_px hv (green_lt p) (blue_lt p) (alpha_lt p)]
    by_cases h16 : i < 16
    · rw [if_pos h16, if_pos h16]
    · rw [if_neg h16, if_neg h16, bc3Value_behind (by simp; omega) (by omega)]

/-- **C63** BC3 and ATC RGBA8, for a buffer of at least 16 words: the texels of the block, and behind
them the alpha of every word is replaced by the first endpoint. -/
theorem C63_bc3_atc [Build] (fmt : Spec.Format) (hf : fmt = .bc3 ∨ fmt = .atcrgba)
    (data : List UInt8) (hd : 16 ≤ data.length) (out : List UInt32) (ho : 16 ≤ out.length) :
    ∃ o, blockFn fmt data out = .ok o ∧ o.length = out.length ∧
      (∀ i, i < 16 → o[i]? = some (fmt.texel (data.take 16) i)) ∧
      ∀ i p, 16 ≤ i → out[i]? = some p →
        o[i]? = some (Spec.withAlpha p (Spec.byteAt data 0)) := by
  have step : ∀ {o : List UInt32}, o.length = out.length → (∀ i, 16 ≤ i → o[i]? = out[i]?) →
      ∃ o2, decodeBc3Alpha 3 data o = .ok o2 ∧ o2.length = out.length ∧
        (∀ i p, i < 16 → o[i]? = some p →
          o2[i]? = some (Spec.withAlpha p (Spec.bc3Value (data.take 16) i))) ∧
        ∀ i p, 16 ≤ i → out[i]? = some p →
          o2[i]? = some (Spec.withAlpha p (Spec.byteAt data 0)) := by
    intro o hl hr
    obtain ⟨o2, e2, hl2, h2⟩ := decodeBc3Alpha_any (c := 3) (data := data) (out := o) (by omega)
    refine ⟨o2, e2, by omega, ?_, ?_⟩
    · intro i p hi hp
      rw [h2 i (by omega), hp, Option.map_some, setChannel_3 _ (bc3Value_lt _ _),
        bc3Value_take16 hi]
    · intro i p hi hp
      have hlt : i < out.length := (List.getElem?_eq_some_iff.mp hp).1
      rw [h2 i (by omega), hr i hi, hp, Option.map_some, setChannel_3 _ (bc3Value_lt _ _),
        bc3Value_behind (by omega) hi]
  rcases hf with rfl | rfl
  · obtain ⟨o, e, hl, h1, h1'⟩ := decodeBc1Core_spec (punch := false) (data := data.drop 8)
      (by simp; omega) ho
    obtain ⟨o2, e2, hl2, h2, h3⟩ := step hl h1'
    refine ⟨o2, ?_, hl2, ?_, h3⟩
    · show decodeBc3Block data out = _
      unfold decodeBc3Block
      rw [sliceFrom_ok (by omega), Out.ok_bind]
      rw [show decodeBc1Block = decodeBc1Core false from rfl, e, Out.ok_bind, e2]
    · intro i hi
      rw [h2 i _ hi (h1 i hi)]
      show _ = some (Spec.bc3Texel (data.take 16) i)
      unfold Spec.bc3Texel
      rw [drop_take16]
  · obtain ⟨o, e, hl, h1, h1'⟩ := decodeAtcRgb4_spec (data := data.drop 8) (by simp; omega) ho
    obtain ⟨o2, e2, hl2, h2, h3⟩ := step hl h1'
    refine ⟨o2, ?_, hl2, ?_, h3⟩
    · show decodeAtcRgba8Block data out = _
      unfold decodeAtcRgba8Block
      rw [sliceFrom_ok (by omega), Out.ok_bind, e, Out.ok_bind, e2]
    · intro i hi
      rw [h2 i _ hi (h1 i hi)]
      show _ = some (Spec.Atc.rgbaTexelAsIs (data.take 16) i)
      unfold Spec.Atc.rgbaTexelAsIs
      rw [drop_take16]

/-- A BC4 block with both endpoints 200 and a buffer of 18 words of the colour (1, 2, 3, 4). -/
example [Build] :
    decodeBc4Block ([200, 200] ++ List.replicate 6 0) (List.replicate 18 (Spec.px 1 2 3 4))
      = .ok (List.replicate 18 (Spec.px 200 2 3 4)) := by
  obtain ⟨ck⟩ := ‹Build›; cases ck <;> rfl

end Props
end Verif
