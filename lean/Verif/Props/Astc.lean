import Verif.Proofs.AstcStandard
import Verif.Proofs.AstcRelease

/-!
# Properties C35 – C40 and C50: ASTC

The texel colours are those of `Verif/Spec/Astc.lean`. `texel true` differs from the standard in the
negative offsets of HDR direct endpoints; `standardTexel` is the standard (C50).
-/

namespace Verif.Props

open Verif Verif.Proofs Verif.Proofs.Astc Verif.Spec.Astc

/-- A block of 16 bytes, as a number. -/
def astcBlk (v : Nat) : List UInt8 := (List.range 16).map (fun i => UInt8.ofNat (v / 256 ^ i))

/-- A 4 × 4 grid of weights with 8 levels, one partition with RGB endpoints (10, 20, 30) and
(200, 100, 90). -/
def astcRgb : List UInt8 := [83, 0, 21, 144, 41, 200, 60, 180, 0, 0, 178, 161, 255, 136, 198, 58]

/-! ## C35 -/

section
variable [Build]

/-- **C35** `decode_astc` for all block sizes from 2 × 2 up to 144 texels. -/
theorem C35_astc (bw bh : Nat) (hbw : 2 ≤ bw) (hbh : 2 ≤ bh) (hb : bw * bh ≤ 144) :
    Spec.DecodesLegal (fun data w h image => Model.decodeAstc data w h bw bh image) bw bh 16 Fits
      (texel true bw bh) :=
  decodeAstc_ok hbw hbh hb

/-- **C35** The fourteen sized functions. -/
theorem C35_sized :
    Spec.DecodesLegal Model.decodeAstc4x4 4 4 16 Fits (texel true 4 4) ∧
    Spec.DecodesLegal Model.decodeAstc5x4 5 4 16 Fits (texel true 5 4) ∧
    Spec.DecodesLegal Model.decodeAstc5x5 5 5 16 Fits (texel true 5 5) ∧
    Spec.DecodesLegal Model.decodeAstc6x5 6 5 16 Fits (texel true 6 5) ∧
    Spec.DecodesLegal Model.decodeAstc6x6 6 6 16 Fits (texel true 6 6) ∧
    Spec.DecodesLegal Model.decodeAstc8x5 8 5 16 Fits (texel true 8 5) ∧
    Spec.DecodesLegal Model.decodeAstc8x6 8 6 16 Fits (texel true 8 6) ∧
    Spec.DecodesLegal Model.decodeAstc8x8 8 8 16 Fits (texel true 8 8) ∧
    Spec.DecodesLegal Model.decodeAstc10x5 10 5 16 Fits (texel true 10 5) ∧
    Spec.DecodesLegal Model.decodeAstc10x6 10 6 16 Fits (texel true 10 6) ∧
    Spec.DecodesLegal Model.decodeAstc10x8 10 8 16 Fits (texel true 10 8) ∧
    Spec.DecodesLegal Model.decodeAstc10x10 10 10 16 Fits (texel true 10 10) ∧
    Spec.DecodesLegal Model.decodeAstc12x10 12 10 16 Fits (texel true 12 10) ∧
    Spec.DecodesLegal Model.decodeAstc12x12 12 12 16 Fits (texel true 12 12) :=
  ⟨C35_astc 4 4 (by decide) (by decide) (by decide),
    C35_astc 5 4 (by decide) (by decide) (by decide),
    C35_astc 5 5 (by decide) (by decide) (by decide),
    C35_astc 6 5 (by decide) (by decide) (by decide),
    C35_astc 6 6 (by decide) (by decide) (by decide),
    C35_astc 8 5 (by decide) (by decide) (by decide),
    C35_astc 8 6 (by decide) (by decide) (by decide),
    C35_astc 8 8 (by decide) (by decide) (by decide),
    C35_astc 10 5 (by decide) (by decide) (by decide),
    C35_astc 10 6 (by decide) (by decide) (by decide),
    C35_astc 10 8 (by decide) (by decide) (by decide),
    C35_astc 10 10 (by decide) (by decide) (by decide),
    C35_astc 12 10 (by decide) (by decide) (by decide),
    C35_astc 12 12 (by decide) (by decide) (by decide)⟩

/-- **C35** Blocks with more than 144 texels are refused; the image stays as it was. -/
theorem C35_block_too_big (data : List UInt8) (w h bw bh : Nat) (image : List UInt32)
    (hs : Spec.SizesOk bw bh 16 w h image) (hbw : 0 < bw) (hbh : 0 < bh)
    (hd : Spec.bytesNeeded bw bh 16 w h ≤ data.length) (hi : w * h ≤ image.length)
    (hbig : 144 < bw * bh) (hfit : bw * bh < 2 ^ 64) :
    Model.decodeAstc data w h bw bh image = .ok (.error "Block size is too big!", image) :=
  (astc_checks hs hbw hbh).2.2.1 hd hi hbig hfit

/-- **C35** (limit) Block width or height 1: every block with texels panics, in every build. -/
theorem C35_unit_size_panics (data : List UInt8) (bw bh : Nat) (out : List UInt32)
    (hd : 16 ≤ data.length) (h : bw = 1 ∨ bh = 1) (hbw : 1 ≤ bw ∧ bw < 2 ^ 60)
    (hbh : 1 ≤ bh ∧ bh < 2 ^ 60) (hv : ¬ isVoid (data.take 16)) (hr : ¬ isReserved (data.take 16)) :
    Model.decodeAstcBlock data bw bh out = .panic := by
  unfold Model.decodeAstcBlock
  rw [byte_eq (by omega), Out.ok_bind, byte_eq (by omega), Out.ok_bind,
    if_neg (fun h => hv ((void_iff hd).mp h)), if_neg (fun h => hr ((reserved_iff hd).mp h)),
    decodeAstcTexels_unit h hbw.1 hbh.1 hbw.2 hbh.2]

/-- **C35** (limit) Block width or height 0 panics, in every build. -/
theorem C35_zero_size_panics (data : List UInt8) (w h bw bh : Nat) (image : List UInt32)
    (hz : bw = 0 ∨ bh = 0) : Model.decodeAstc data w h bw bh image = .panic := by
  unfold Model.decodeAstc
  by_cases hw : bw = 0
  · subst hw; rfl
  · have hh := hz.resolve_left hw
    subst hh
    rw [show divCeil w bw = .ok (w / bw + if w % bw = 0 then 0 else 1) by unfold divCeil; rw [if_neg hw],
      Out.ok_bind]
    rfl

example : ¬ isVoid astcRgb ∧ ¬ isReserved astcRgb ∧ Fits astcRgb ∧ Standard 4 4 astcRgb := by
  decide +kernel

/-- Texels 0 and 15 of the demo block. -/
example : texel true 4 4 astcRgb 0 = Spec.px 120 66 65 255 ∧
    texel true 4 4 astcRgb 15 = Spec.px 63 43 47 255 := by decide +kernel

/-- A 5 × 3 image of two 4 × 4 blocks; the sixteenth pixel of the buffer stays. -/
example : ∃ o, Model.decodeAstc4x4 (astcRgb ++ astcRgb) 5 3 (List.replicate 16 7) = .ok (.ok (), o) ∧
    o[0]? = some (Spec.px 120 66 65 255) ∧ o[4]? = some (Spec.px 120 66 65 255) ∧ o[15]? = some 7 := by
  obtain ⟨o, e, d⟩ := C35_sized.1.success (astcRgb ++ astcRgb) 5 3 (List.replicate 16 7)
    ⟨by decide, by decide, by decide⟩ (by decide) (by decide) (by decide +kernel)
  exact ⟨o, e, (d.pixel 0 0 (by decide) (by decide)).trans (by decide +kernel),
    (d.pixel 4 0 (by decide) (by decide)).trans (by decide +kernel),
    (d.rest 15 (by decide)).trans (by decide)⟩

/-! ## C36 -/

/-- **C36** (what holds) A void-extent block without a half float −∞ fills the block area with its
colour and leaves the rest of the buffer. -/
theorem C36_void_partial (data : List UInt8) (bw bh : Nat) (out : List UInt32) (b0 b1 : UInt8)
    (hd : 16 ≤ data.length) (h0 : data[0]? = some b0) (h1 : data[1]? = some b1) (hv0 : b0 = 0xfc)
    (hv1 : b1.toNat % 2 = 1)
    (hinf : bit (data.take 16) 9 = 1 → ∀ i, i < 4 → Spec.field (data.take 16) (64 + 16 * i) 16 ≠ 0xfc00)
    (ho : bw * bh ≤ out.length) (hl : out.length < 2 ^ 61) :
    Model.decodeAstcBlock data bw bh out =
      .ok (List.replicate (bw * bh) (Spec.Astc.voidColour (data.take 16)) ++ out.drop (bw * bh)) := by
  have hv : isVoid (data.take 16) := (void_iff hd).mp (by
    have e0 := byte_eq (data := data) (i := 0) (by omega)
    have e1 := byte_eq (data := data) (i := 1) (by omega)
    unfold byte at e0 e1
    rw [idx_of_some h0] at e0
    rw [idx_of_some h1] at e1
    injection e0 with e0
    injection e1 with e1
    rw [← e0, ← e1, hv0, and_1]
    exact ⟨by decide, hv1⟩)
  unfold Model.decodeAstcBlock
  rw [byte_eq (by omega), Out.ok_bind, byte_eq (by omega), Out.ok_bind, if_pos ((void_iff hd).mpr hv),
    voidColour_ok hd hinf, Out.ok_bind, mulU_ok (by omega), Out.ok_bind]
  unfold fillRange
  rw [if_pos ⟨by omega, ho⟩]
  rfl

/-- **C36** A reserved block mode fills the block area with opaque magenta. -/
theorem C36_reserved (data : List UInt8) (bw bh : Nat) (out : List UInt32)
    (hd : 16 ≤ data.length) (hv : ¬ isVoid (data.take 16)) (hr : isReserved (data.take 16))
    (ho : bw * bh ≤ out.length) (hl : out.length < 2 ^ 61) :
    Model.decodeAstcBlock data bw bh out =
      .ok (List.replicate (bw * bh) (Spec.px 255 0 255 255) ++ out.drop (bw * bh)) := by
  unfold Model.decodeAstcBlock
  rw [byte_eq (by omega), Out.ok_bind, byte_eq (by omega), Out.ok_bind,
    if_neg (fun h => hv ((void_iff hd).mp h)), if_pos ((reserved_iff hd).mpr hr),
    mulU_ok (by omega), Out.ok_bind]
  unfold fillRange
  rw [if_pos ⟨by omega, ho⟩]
  rfl

/-- **C36**, **C46** A half float of a void-extent block, other than −∞, becomes `floor(255 · v)`
clamped to 0..255. -/
theorem C46_astc_half_to_byte (data : List UInt8) (k : Nat) (hd : 16 ≤ data.length) (hk : k + 2 ≤ 16)
    (h : Spec.field (data.take 16) (8 * k) 16 ≠ 0xfc00) :
    Model.f16ptrToU8 (data.drop k) = .ok (Spec.halfToByte (Spec.field (data.take 16) (8 * k) 16)) :=
  f16_ok hd hk h

end

/-- A void-extent block: 0.5, 1.0, −∞, +∞ as half floats. -/
def astcVoidInf : List UInt8 :=
  [0xfc, 0xff, 0xff, 0xff, 0xff, 0xff, 0xff, 0xff, 0, 0x38, 0, 0x3c, 0, 0xfc, 0, 0x7c]
/-- A void-extent block with half floats 0.5, 1.0, −1, +∞; and one with 16-bit integers. -/
def astcVoidHalf : List UInt8 :=
  [0xfc, 0xff, 0xff, 0xff, 0xff, 0xff, 0xff, 0xff, 0, 0x38, 0, 0x3c, 0, 0xbc, 0, 0x7c]
def astcVoidInt : List UInt8 :=
  [0xfc, 0xfd, 0xff, 0xff, 0xff, 0xff, 0xff, 0xff, 0x12, 0x34, 0x56, 0x78, 0x9a, 0xbc, 0xff, 0xff]

example : Spec.Astc.voidColour astcVoidHalf = Spec.px 127 255 0 255 ∧
    Spec.Astc.voidColour astcVoidInt = Spec.px 0x34 0x78 0xbc 0xff := by decide +kernel
example [Build] : Model.decodeAstcBlock astcVoidHalf 2 3 (List.replicate 7 5) =
    .ok (List.replicate 6 (Spec.px 127 255 0 255) ++ [5]) := by
  rw [C36_void_partial astcVoidHalf 2 3 _ 0xfc 0xff (by decide) rfl rfl rfl (by decide)
    (by decide +kernel) (by decide) (by decide), show Spec.Astc.voidColour (astcVoidHalf.take 16) =
      Spec.px 127 255 0 255 by decide +kernel]
  rfl
example : isReserved (astcBlk 0x1c0) ∧ ¬ isVoid (astcBlk 0x1c0) ∧ isReserved (astcBlk 0xab0) := by
  decide +kernel

/-- **C36** (violated) A void-extent block with the half float −∞ panics in builds with overflow
checks. -/
theorem C36_neg_inf_panics (data : List UInt8) (bw bh i : Nat) (out : List UInt32)
    (hd : 16 ≤ data.length) (hv : isVoid (data.take 16)) (h9 : bit (data.take 16) 9 = 1) (hi : i < 4)
    (h : Spec.field (data.take 16) (64 + 16 * i) 16 = 0xfc00) (hbw : 2 ≤ bw) (hbh : 2 ≤ bh)
    (hb : bw * bh ≤ 144) (ho : bw * bh ≤ out.length) :
    @Model.decodeAstcBlock Build.debug data bw bh out = .panic := by
  letI := Build.debug
  refine (decodeAstcBlock_panic_iff rfl hd hbw hbh hb out ho).mpr ?_
  unfold Panics
  rw [if_pos hv]
  exact ⟨h9, i, hi, h⟩

/-- **C36** (violated) Without overflow checks −∞ becomes 255 instead of 0. -/
theorem C36_neg_inf_release (data : List UInt8) (k : Nat) (hd : 16 ≤ data.length) (hk : k + 2 ≤ 16)
    (h : Spec.field (data.take 16) (8 * k) 16 = 0xfc00) :
    @Model.f16ptrToU8 Build.release (data.drop k) = .ok 255 := by
  letI := Build.release
  exact f16_neg_inf hd hk h

example : isVoid astcVoidInf ∧ bit astcVoidInf 9 = 1 ∧ Spec.field astcVoidInf (64 + 16 * 2) 16 = 0xfc00 := by
  decide +kernel
example : @Model.decodeAstcBlock Build.debug astcVoidInf 4 4 (List.replicate 16 0) = .panic :=
  C36_neg_inf_panics _ 4 4 2 _ (by decide) (by decide +kernel) (by decide +kernel) (by decide)
    (by decide +kernel) (by decide) (by decide) (by decide) (by decide)
example : @Model.decodeAstcBlock Build.release astcVoidInf 1 1 [0] = .ok [Spec.px 127 255 255 255] := by
  rfl

section
variable [Build]

/-! ## C37 -/

/-- **C37** The integer sequence decoder returns the numbers that the standard's equations define, read
upwards from bit `start`, or downwards from the top bit of the block. -/
theorem C37_sequence (base bits : Nat)
    (hq : (base = 1 ∧ 1 ≤ bits ∧ bits ≤ 8) ∨ (base = 3 ∧ bits ≤ 6) ∨ (base = 5 ∧ bits ≤ 5))
    (data : List UInt8) (hd : 16 ≤ data.length) (start count : Nat) (reverse : Bool)
    (hL : if reverse then seqBits ⟨base, bits⟩ count ≤ 128
      else start + seqBits ⟨base, bits⟩ count ≤ 128)
    (out : List Model.IntSeqData) (hlen : count ≤ out.length) :
    ∃ out', Model.decodeIntseq data (if reverse then 128 else start) (if base = 1 then 0 else base) bits
        count reverse out = .ok out' ∧ out'.length = out.length ∧
      ∀ k, k < count →
        let L := seqBits ⟨base, bits⟩ count
        let stream := if reverse then reverseBits (Spec.field (data.take 16) (128 - L) L) L
          else Spec.field (data.take 16) start L
        out'[k]? = some ⟨(ise ⟨base, bits⟩ stream k).1, (ise ⟨base, bits⟩ stream k).2⟩ := by
  obtain ⟨o, e, l, h, -⟩ := decodeIntseq_ok (q := ⟨base, bits⟩) hq rfl hd hL hlen
  exact ⟨o, e, l, h⟩

omit [Build] in
/-- **C37** The numbers are in range. -/
theorem C37_range (base bits s i : Nat) (hb : base = 1 ∨ base = 3 ∨ base = 5) :
    (ise ⟨base, bits⟩ s i).1 < 2 ^ bits ∧ (ise ⟨base, bits⟩ s i).2 < base :=
  ise_lt ⟨base, bits⟩ s i hb

omit [Build] in
/-- **C37** Every combination of five trits and of three quints has a code (so the equations of the
specification are no accident). -/
theorem C37_complete :
    (∀ a b c d e : Fin 3, ∃ T, T < 256 ∧ trits T = [a.1, b.1, c.1, d.1, e.1]) ∧
    (∀ a b c : Fin 5, ∃ Q, Q < 128 ∧ quints Q = [a.1, b.1, c.1]) := by
  constructor
  · decide +kernel
  · decide +kernel

/-- Five numbers with one trit and one bit each, at bit 17: 13 bits. -/
example : seqBits ⟨3, 1⟩ 5 = 13 ∧ seqBits ⟨5, 2⟩ 3 = 13 := by decide

/-! ## C38 -/

/-- **C38** Whatever the block, block size and build: if the weights are computed at all, every one lies
in 0..64. -/
theorem C38_weights_in_range (data : List UInt8) (bw bh : Nat) (q : Model.AstcParams)
    (ws : List (List Int)) (h : Model.decodeWeights data bw bh q = .ok ws) :
    ∀ row ∈ ws, ∀ w ∈ row, 0 ≤ w ∧ w ≤ 64 :=
  decodeWeights_in h

/-- **C38** The weight grid before interpolation, likewise. -/
theorem C38_grid_in_range (data : List UInt8) (q : Model.AstcParams)
    (wv : List Int) (h : Model.weightValues data q = .ok wv) : ∀ w ∈ wv, 0 ≤ w ∧ w ≤ 64 :=
  weightValues_in h

/-- **C38** For every block with room for its weights they are computed, and they are the standard's. -/
theorem C38_weights_exact (data : List UInt8) (bw bh : Nat) (hd : 16 ≤ data.length)
    (hr : ¬ isReserved (data.take 16))
    (hroom : configBits (data.take 16) + weightBits (data.take 16) ≤ 128)
    (hbw : 2 ≤ bw) (hbh : 2 ≤ bh) (hb : bw * bh ≤ 144) :
    ∃ q ws, Model.decodeBlockParams data = .ok q ∧ Model.decodeWeights data bw bh q = .ok ws ∧
      ∀ i, i < bw * bh → ws[i]? = some
        [(texelWeight (data.take 16) bw bh (i % bw) (i / bw) 0 : Int),
         if dual (data.take 16) then (texelWeight (data.take 16) bw bh (i % bw) (i / bw) 1 : Int)
         else 0] := by
  have er : ∃ r, Model.astcCemRange (valueNum (data.take 16))
      (128 - configBits (data.take 16) - weightBits (data.take 16)) 0 19 = .ok r := by
    by_cases hfit : configBits (data.take 16) + weightBits (data.take 16) +
        seqBits ⟨3, 1⟩ (valueNum (data.take 16)) ≤ 128
    · obtain ⟨r, er, -⟩ := range_ok hfit
      exact ⟨r, er⟩
    · exact ⟨_, range_rest (by omega)⟩
  obtain ⟨r, er⟩ := er
  obtain ⟨-, h2⟩ := weight_room hr hroom
  obtain ⟨ws, e, -, hw⟩ := decodeWeights_ok hd hr (by omega) h2 (q := {
        width := (grid (data.take 16)).1, height := (grid (data.take 16)).2,
        partNum := parts (data.take 16), dualPlane := decide (dual (data.take 16)),
        planeSelector := if dual (data.take 16) then planeSel (data.take 16) else 0,
        weightRange := rangeIndex (data.take 16), weightNum := weightNum (data.take 16),
        cem := cemList (data.take 16), cemRange := r,
        endpointValueNum := valueNum (data.take 16) }) rfl rfl rfl rfl rfl hbw hbh hb
  exact ⟨_, ws, params_range hd hr hroom er, e, hw⟩

example : ¬ isReserved (astcRgb.take 16) ∧ configBits astcRgb + weightBits astcRgb = 65 ∧
    texelWeight astcRgb 6 5 3 2 0 = 48 := by decide +kernel

/-! ## C39 -/

/-- **C39** The partition of every texel is computed, is the standard's, and is less than the number of
partitions. -/
theorem C39_partition (data : List UInt8) (bw bh : Nat) (hd : 16 ≤ data.length)
    (hb : bw * bh ≤ 144) (hp : parts (data.take 16) ≠ 1) :
    ∃ ps, Model.selectPartition data bw bh (parts (data.take 16)) = .ok ps ∧
      ∀ i, i < bw * bh → ∃ p, ps[i]? = some p ∧ p < parts (data.take 16) ∧
        p = Spec.Astc.selectPartition (Spec.field (data.take 16) 13 10) (i % bw) (i / bw)
          (parts (data.take 16)) (decide (bw * bh < 31)) := by
  obtain ⟨ps, e, h⟩ := selectPartition_ok hd hb hp
  refine ⟨ps, e, fun i hi => ⟨_, h i hi, partitionAt_lt .., ?_⟩⟩
  unfold partitionAt
  rw [if_neg hp]

omit [Build] in
/-- **C39** The standard's own function has this range for every seed, position and number of
partitions. -/
theorem C39_range (seed x y n : Nat) (small : Bool) (h : 2 ≤ n) :
    Spec.Astc.selectPartition seed x y n small < n := selectPartition_lt h

/-- Two partitions, seed 37. -/
example : parts (astcBlk (0x853 + 37 * 2 ^ 13)) = 2 ∧
    (List.range 8).map (fun x => Spec.Astc.selectPartition 37 x 3 2 false) = [0, 1, 1, 1, 1, 0, 0, 0] := by
  decide +kernel

/-! ## C40 -/

end

/-- **C40** (violated) The exact condition under which one block panics in a build with overflow
checks. -/
theorem C40_block_panics_iff (data : List UInt8) (bw bh : Nat) (out : List UInt32)
    (hd : 16 ≤ data.length) (hbw : 2 ≤ bw) (hbh : 2 ≤ bh) (hb : bw * bh ≤ 144)
    (ho : bw * bh ≤ out.length) :
    @Model.decodeAstcBlock Build.debug data bw bh out = .panic ↔ Panics (data.take 16) data.length := by
  letI := Build.debug
  exact decodeAstcBlock_panic_iff rfl hd hbw hbh hb out ho

/-- **C40** (violated) The exact condition under which a whole image panics. -/
theorem C40_image_panics_iff (data : List UInt8) (w h bw bh : Nat) (image : List UInt32)
    (hbw : 2 ≤ bw) (hbh : 2 ≤ bh) (hb : bw * bh ≤ 144) (hs : Spec.SizesOk bw bh 16 w h image)
    (hd : Spec.bytesNeeded bw bh 16 w h ≤ data.length) (hi : w * h ≤ image.length) :
    @Model.decodeAstc Build.debug data w h bw bh image = .panic ↔
      ∃ k, k < Spec.numBlocks bw bh w h ∧
        Panics (Spec.blockBytes 16 data k) (data.length - 16 * k) := by
  letI := Build.debug
  exact decodeAstc_panic_iff rfl hbw hbh hb hs hd hi

/-- **C40** (what holds, in every build) A block outside `Panics` decodes: it gives `bw · bh` colours
that do not depend on the buffer and leaves the rest of the buffer. -/
theorem C40_total_partial [Build] (data : List UInt8) (bw bh : Nat) (hd : 16 ≤ data.length)
    (hbw : 2 ≤ bw) (hbh : 2 ≤ bh) (hb : bw * bh ≤ 144)
    (hp : ¬ Panics (data.take 16) data.length) :
    ∃ c : Nat → UInt32, ∀ out : List UInt32, bw * bh ≤ out.length →
      ∃ o, Model.decodeAstcBlock data bw bh out = .ok o ∧ o.length = out.length ∧
        (∀ i, i < bw * bh → o[i]? = some (c i)) ∧ ∀ i, bw * bh ≤ i → o[i]? = out[i]? :=
  decodeAstcBlock_total hd hp hbw hbh hb

/-- A block whose weights do not fit: `4c 00 … 00`. -/
example : Panics (astcBlk 76) 16 ∧ Panics (astcBlk 76) 1000 := by decide +kernel
/-- A block that panics only when no further data follows. -/
example : Panics (astcBlk (28 + 3 * 2 ^ 11 + 15 * 2 ^ 25)) 16 ∧
    ¬ Panics (astcBlk (28 + 3 * 2 ^ 11 + 15 * 2 ^ 25)) 1000 := by decide +kernel
example : ¬ Panics astcRgb 16 := by decide +kernel
example : @Model.decodeAstc4x4 Build.debug (astcBlk 76) 4 4 (List.replicate 16 0) = .panic :=
  (C40_image_panics_iff (astcBlk 76) 4 4 4 4 (List.replicate 16 0) (by decide) (by decide) (by decide)
    ⟨by decide, by decide, by decide⟩ (by decide) (by decide)).mpr ⟨0, by decide, by decide +kernel⟩

/-- **C40** (violated) The exact condition under which one block panics in a build without overflow
checks, for the block sizes of the standard. -/
theorem C40_release_block_panics_iff (data : List UInt8) (bw bh : Nat) (out : List UInt32)
    (hd : 16 ≤ data.length) (hl : data.length < 2 ^ 60) (hbw : StdSize bw) (hbh : StdSize bh)
    (ho : bw * bh ≤ out.length) :
    @Model.decodeAstcBlock Build.release data bw bh out = .panic ↔
      PanicsUnchecked (data.take 16) data.length := by
  letI := Build.release
  have h1 : 2 ≤ bw ∧ bw ≤ 12 := by unfold StdSize at hbw; omega
  have h2 : 2 ≤ bh ∧ bh ≤ 12 := by unfold StdSize at hbh; omega
  refine ⟨fun h => Classical.byContradiction fun hp => ?_,
    fun hp => decodeAstcBlock_release_panic rfl hd hl hp hbw hbh out⟩
  obtain ⟨c, hc⟩ := decodeAstcBlock_release_total rfl hd hp h1.1 h2.1 (Nat.mul_le_mul h1.2 h2.2)
  obtain ⟨o, e, -⟩ := hc out ho
  rw [e] at h
  cases h

/-- **C40** (violated) The exact condition under which a whole image panics in a build without overflow
checks. -/
theorem C40_release_image_panics_iff (data : List UInt8) (w h bw bh : Nat) (image : List UInt32)
    (hl : data.length < 2 ^ 60) (hbw : StdSize bw) (hbh : StdSize bh)
    (hs : Spec.SizesOk bw bh 16 w h image)
    (hd : Spec.bytesNeeded bw bh 16 w h ≤ data.length) (hi : w * h ≤ image.length) :
    @Model.decodeAstc Build.release data w h bw bh image = .panic ↔
      ∃ k, k < Spec.numBlocks bw bh w h ∧
        PanicsUnchecked (Spec.blockBytes 16 data k) (data.length - 16 * k) := by
  letI := Build.release
  exact decodeAstc_release_panic_iff rfl hbw hbh hl hs hd hi

/-- **C40** (what holds without overflow checks) A block outside `PanicsUnchecked` decodes, for all block
sizes from 2×2 to 144 texels: it gives `bw · bh` colours that do not depend on the buffer and leaves the
rest of the buffer. -/
theorem C40_release_total_partial (data : List UInt8) (bw bh : Nat) (hd : 16 ≤ data.length)
    (hbw : 2 ≤ bw) (hbh : 2 ≤ bh) (hb : bw * bh ≤ 144)
    (hp : ¬ PanicsUnchecked (data.take 16) data.length) :
    ∃ c : Nat → UInt32, ∀ out : List UInt32, bw * bh ≤ out.length →
      ∃ o, @Model.decodeAstcBlock Build.release data bw bh out = .ok o ∧ o.length = out.length ∧
        (∀ i, i < bw * bh → o[i]? = some (c i)) ∧ ∀ i, bw * bh ≤ i → o[i]? = out[i]? := by
  letI := Build.release
  exact decodeAstcBlock_release_total rfl hd hp hbw hbh hb

/-- `4c 00 … 00` panics only with overflow checks, `5c 00 … 00` in both builds. -/
example : Panics (astcBlk 76) 16 ∧ ¬ PanicsUnchecked (astcBlk 76) 16 ∧ Panics (astcBlk 92) 1000 ∧
    PanicsUnchecked (astcBlk 92) 1000 ∧ ¬ isVoid (astcBlk 76) ∧ ¬ isReserved (astcBlk 76) := by
  decide +kernel
example : @Model.decodeAstc8x5 Build.release (astcBlk 92) 8 5 (List.replicate 40 0) = .panic :=
  (C40_release_image_panics_iff (astcBlk 92) 8 5 8 5 (List.replicate 40 0) (by decide) (by unfold StdSize; omega)
    (by unfold StdSize; omega)
    ⟨by decide, by decide, by decide⟩ (by decide) (by decide)).mpr ⟨0, by decide, by decide +kernel⟩

/-! ## C50 -/

section
variable [Build]

/-- **C50** (what holds) On images of blocks in `Agrees`, `decode_astc` gives the standard's colours. -/
theorem C50_standard (bw bh : Nat) (hbw : 2 ≤ bw) (hbh : 2 ≤ bh) (hb : bw * bh ≤ 144) :
    Spec.DecodesLegal (fun data w h image => Model.decodeAstc data w h bw bh image) bw bh 16
      (Agrees bw bh) (standardTexel bw bh) :=
  legal_mono (decodeAstc_ok hbw hbh hb) (by omega) (by omega) (fun _ h => agrees_fits h)
    (fun _ h i => agrees_texel h i)

/-- **C50** The fourteen sized functions. -/
theorem C50_sized_partial :
    Spec.DecodesLegal Model.decodeAstc4x4 4 4 16 (Agrees 4 4) (standardTexel 4 4) ∧
    Spec.DecodesLegal Model.decodeAstc5x4 5 4 16 (Agrees 5 4) (standardTexel 5 4) ∧
    Spec.DecodesLegal Model.decodeAstc5x5 5 5 16 (Agrees 5 5) (standardTexel 5 5) ∧
    Spec.DecodesLegal Model.decodeAstc6x5 6 5 16 (Agrees 6 5) (standardTexel 6 5) ∧
    Spec.DecodesLegal Model.decodeAstc6x6 6 6 16 (Agrees 6 6) (standardTexel 6 6) ∧
    Spec.DecodesLegal Model.decodeAstc8x5 8 5 16 (Agrees 8 5) (standardTexel 8 5) ∧
    Spec.DecodesLegal Model.decodeAstc8x6 8 6 16 (Agrees 8 6) (standardTexel 8 6) ∧
    Spec.DecodesLegal Model.decodeAstc8x8 8 8 16 (Agrees 8 8) (standardTexel 8 8) ∧
    Spec.DecodesLegal Model.decodeAstc10x5 10 5 16 (Agrees 10 5) (standardTexel 10 5) ∧
    Spec.DecodesLegal Model.decodeAstc10x6 10 6 16 (Agrees 10 6) (standardTexel 10 6) ∧
    Spec.DecodesLegal Model.decodeAstc10x8 10 8 16 (Agrees 10 8) (standardTexel 10 8) ∧
    Spec.DecodesLegal Model.decodeAstc10x10 10 10 16 (Agrees 10 10) (standardTexel 10 10) ∧
    Spec.DecodesLegal Model.decodeAstc12x10 12 10 16 (Agrees 12 10) (standardTexel 12 10) ∧
    Spec.DecodesLegal Model.decodeAstc12x12 12 12 16 (Agrees 12 12) (standardTexel 12 12) :=
  ⟨C50_standard 4 4 (by decide) (by decide) (by decide),
    C50_standard 5 4 (by decide) (by decide) (by decide),
    C50_standard 5 5 (by decide) (by decide) (by decide),
    C50_standard 6 5 (by decide) (by decide) (by decide),
    C50_standard 6 6 (by decide) (by decide) (by decide),
    C50_standard 8 5 (by decide) (by decide) (by decide),
    C50_standard 8 6 (by decide) (by decide) (by decide),
    C50_standard 8 8 (by decide) (by decide) (by decide),
    C50_standard 10 5 (by decide) (by decide) (by decide),
    C50_standard 10 6 (by decide) (by decide) (by decide),
    C50_standard 10 8 (by decide) (by decide) (by decide),
    C50_standard 10 10 (by decide) (by decide) (by decide),
    C50_standard 12 10 (by decide) (by decide) (by decide),
    C50_standard 12 12 (by decide) (by decide) (by decide)⟩

example : Agrees 4 4 astcRgb ∧ Agrees 4 4 astcVoidHalf ∧ Agrees 4 4 (astcBlk 0x1c0) := by
  decide +kernel

omit [Build] in
/-- **C50** (violated) With a negative offset, the crate's low endpoint of an HDR direct endpoint pair
has component 0 (instead of the sum that the standard defines). -/
theorem C50_negative_offset (v : Nat → Nat) (hv : ∀ i, v i < 256) (a1 a2 : Nat)
    (h3 : v 4 / 128 + v 5 / 128 * 2 ≠ 3) :
    (directOffset v 4 < 0 → (hdrDirect true (v 0) (v 1) (v 2) (v 3) (v 4) (v 5) a1 a2).getD
      (if v 4 / 128 + v 5 / 128 * 2 = 1 then 0 else 1) 1 = 0) ∧
    (directOffset v 5 < 0 → (hdrDirect true (v 0) (v 1) (v 2) (v 3) (v 4) (v 5) a1 a2).getD
      (if v 4 / 128 + v 5 / 128 * 2 = 2 then 0 else 2) 1 = 0) :=
  hdrDirect_negative hv a1 a2 h3

/-- A legal HDR block whose green offset is −16. -/
def astcHdr : List UInt8 := [83, 96, 255, 191, 40, 40, 224, 32, 0, 0, 178, 161, 255, 136, 198, 58]

example : Standard 4 4 astcHdr ∧ Fits astcHdr ∧ texel true 4 4 astcHdr 3 = Spec.px 255 0 255 255 ∧
    standardTexel 4 4 astcHdr 3 = Spec.px 255 255 255 255 := by decide +kernel

/-- **C50** (violated) Not all blocks the standard allows get its colours. -/
theorem C50_hdr_differs :
    ¬ Spec.DecodesLegal (fun data w h image => Model.decodeAstc data w h 4 4 image) 4 4 16
      (Standard 4 4) (standardTexel 4 4) := by
  intro H
  have hs : Spec.SizesOk 4 4 16 4 1 [0, 0, 0, 0] := ⟨by decide, by decide, by decide⟩
  obtain ⟨o1, e1, d1⟩ := H.success astcHdr 4 1 [0, 0, 0, 0] hs (by decide) (by decide) (by decide +kernel)
  obtain ⟨o2, e2, d2⟩ := (C35_astc 4 4 (by decide) (by decide) (by decide)).success astcHdr 4 1
    [0, 0, 0, 0] hs (by decide) (by decide) (by decide +kernel)
  rw [e1] at e2
  injection e2 with e2
  injection e2 with _ e2
  subst e2
  have h1 := d1.pixel 3 0 (by decide) (by decide)
  rw [d2.pixel 3 0 (by decide) (by decide)] at h1
  revert h1
  decide +kernel

/-- **C50** (violated) A block the standard does not allow is not shown in the error colour: the
weight grid 6 × 5 is wider than the block. -/
theorem C50_illegal_differs :
    ∃ blk, ¬ isVoid blk ∧ ¬ Standard 4 4 blk ∧ standardTexel 4 4 blk 0 = Spec.px 255 0 255 255 ∧
      ∃ o, Model.decodeAstc4x4 blk 1 1 [0] = .ok (.ok (), o) ∧ o[0]? ≠ some (Spec.px 255 0 255 255) := by
  refine ⟨astcBlk 0x151, by decide +kernel, by decide +kernel, by decide +kernel, ?_⟩
  obtain ⟨o, e, d⟩ := C35_sized.1.success (astcBlk 0x151) 1 1 [0] ⟨by decide, by decide, by decide⟩
    (by decide) (by decide) (by decide +kernel)
  refine ⟨o, e, ?_⟩
  have := d.pixel 0 0 (by decide) (by decide)
  rw [show 0 * 1 + 0 = 0 from rfl] at this
  rw [this]
  decide +kernel

end

end Verif.Props
