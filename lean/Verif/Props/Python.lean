import Verif.Proofs.Python
import Verif.Props.Bc6
import Verif.Props.Astc
import Verif.Props.Pvrtc
import Verif.Props.Crunch
import Verif.Props.UnityCrunch

/-!
# Properties C60 – C62: the Python bindings

`alloc n` tells whether Python can allocate an object of `n` bytes, and `behind` is the foreign
memory behind the object. Both are arbitrary.
-/

namespace Verif.Props

open Verif Verif.Proofs Verif.Model

/-! ## C60 -/

/-- **C60** The functions for the formats with `4 × 4` blocks: a `ValueError` if there are too few
bytes of data, and otherwise the image. -/
theorem C60_blocks [Build] (alloc : Nat → Bool) (behind : Nat → UInt32) (fmt : Spec.Format)
    (data : List UInt8) (w h : Nat) (hs : w * h < 2 ^ 59) (ha : alloc (w * h * 4) = true) :
    (data.length < fmt.need w h →
      (pybind alloc behind (pyFnOf fmt) data w h).2
        = .ok (.valueError "Not enough data to decode image!")) ∧
    (fmt.need w h ≤ data.length → fmt.AllLegal data w h →
      ∃ b, (pybind alloc behind (pyFnOf fmt) data w h).2 = .ok (.bytes b) ∧
        Spec.IsPythonImage b w h (fmt.pixelAt data w)) :=
  pybind_contract (by rw [rustFn_pyFnOf]; exact decoder_spec fmt) (by decide) (by decide)
    (by cases fmt <;> decide) hs ha

/-- A `5 × 3` BC1 image of two blocks. -/
example : Spec.Format.need .bc1 5 3 = 16 ∧
    Spec.Format.AllLegal .bc1 (List.replicate 16 85) 5 3 ∧
    (@pybind Build.debug (fun n => n < 100) (fun _ => 9) (pyFnOf .bc1) (List.replicate 15 85) 5 3).2
      = .ok (.valueError "Not enough data to decode image!") ∧
    (@pybind Build.debug (fun n => n < 100) (fun _ => 9) (pyFnOf .bc1) (List.replicate 16 85) 5 3).2
      = .ok (.bytes ((List.replicate 15 [173, 170, 82, 255]).flatten)) :=
  ⟨by decide, fun _ _ => trivial, by decide +kernel, by decide +kernel⟩

/-- The functions for ASTC with a fixed block size. -/
def pyAstcFns : List (PyFn × Nat × Nat) :=
  [(.astc4x4, 4, 4), (.astc5x4, 5, 4), (.astc5x5, 5, 5), (.astc6x5, 6, 5), (.astc6x6, 6, 6),
    (.astc8x5, 8, 5), (.astc8x6, 8, 6), (.astc8x8, 8, 8), (.astc10x5, 10, 5), (.astc10x6, 10, 6),
    (.astc10x8, 10, 8), (.astc10x10, 10, 10), (.astc12x10, 12, 10), (.astc12x12, 12, 12)]

/-- **C60** The functions for ASTC. -/
theorem C60_astc [Build] (alloc : Nat → Bool) (behind : Nat → UInt32) (fn : PyFn) (bw bh : Nat)
    (hfn : (fn, bw, bh) ∈ pyAstcFns) (data : List UInt8) (w h : Nat) (hs : w * h < 2 ^ 59)
    (ha : alloc (w * h * 4) = true) :
    (data.length < Spec.bytesNeeded bw bh 16 w h →
      (pybind alloc behind fn data w h).2
        = .ok (.valueError "Not enough data to decode image!")) ∧
    (Spec.bytesNeeded bw bh 16 w h ≤ data.length →
      (∀ k, k < Spec.numBlocks bw bh w h → Spec.Astc.Fits (Spec.blockBytes 16 data k)) →
      ∃ b, (pybind alloc behind fn data w h).2 = .ok (.bytes b) ∧
        Spec.IsPythonImage b w h
          (Spec.pixelAt bw bh 16 (Spec.Astc.texel true bw bh) data w)) := by
  have H : Spec.DecodesLegal (rustFn fn) bw bh 16 Spec.Astc.Fits (Spec.Astc.texel true bw bh) ∧
      0 < bw ∧ 0 < bh := by
    obtain ⟨h1, h2, h3, h4, h5, h6, h7, h8, h9, h10, h11, h12, h13, h14⟩ := C35_sized
    simp only [pyAstcFns, List.mem_cons, Prod.mk.injEq, List.not_mem_nil, or_false] at hfn
    rcases hfn with ⟨rfl, rfl, rfl⟩ | ⟨rfl, rfl, rfl⟩ | ⟨rfl, rfl, rfl⟩ | ⟨rfl, rfl, rfl⟩ |
      ⟨rfl, rfl, rfl⟩ | ⟨rfl, rfl, rfl⟩ | ⟨rfl, rfl, rfl⟩ | ⟨rfl, rfl, rfl⟩ | ⟨rfl, rfl, rfl⟩ |
      ⟨rfl, rfl, rfl⟩ | ⟨rfl, rfl, rfl⟩ | ⟨rfl, rfl, rfl⟩ | ⟨rfl, rfl, rfl⟩ | ⟨rfl, rfl, rfl⟩
    · exact ⟨h1, by decide, by decide⟩
    · exact ⟨h2, by decide, by decide⟩
    · exact ⟨h3, by decide, by decide⟩
    · exact ⟨h4, by decide, by decide⟩
    · exact ⟨h5, by decide, by decide⟩
    · exact ⟨h6, by decide, by decide⟩
    · exact ⟨h7, by decide, by decide⟩
    · exact ⟨h8, by decide, by decide⟩
    · exact ⟨h9, by decide, by decide⟩
    · exact ⟨h10, by decide, by decide⟩
    · exact ⟨h11, by decide, by decide⟩
    · exact ⟨h12, by decide, by decide⟩
    · exact ⟨h13, by decide, by decide⟩
    · exact ⟨h14, by decide, by decide⟩
  exact pybind_contract H.1 H.2.1 H.2.2 (by decide) hs ha

example : (PyFn.astc4x4, 4, 4) ∈ pyAstcFns ∧ Spec.bytesNeeded 4 4 16 4 4 ≤ astcRgb.length ∧
    Spec.Astc.Fits (Spec.blockBytes 16 astcRgb 0) ∧
    (match (@pybind Build.release (fun _ => true) (fun _ => 9) .astc4x4 astcRgb 4 4).2 with
      | .ok (.bytes b) => some (b.take 8)
      | _ => none) = some [65, 66, 120, 255, 55, 54, 90, 255] :=
  ⟨by decide, by decide, by decide +kernel, by decide +kernel⟩

/-- **C60** The functions for PVRTC, for the sizes whose grid of blocks is a power of two in each
direction. -/
theorem C60_pvrtc [Build] (alloc : Nat → Bool) (behind : Nat → UInt32) (w2 : Bool)
    (data : List UInt8) (w h : Nat) (hs : w * h < 2 ^ 59) (ha : alloc (w * h * 4) = true)
    (hw : 0 < w) (hh : 0 < h) (hd : Spec.bytesNeeded (Spec.Pvrtc.bw w2) 4 8 w h ≤ data.length)
    (hx : Spec.Pvrtc.IsPow2 (Spec.ceilDiv w (Spec.Pvrtc.bw w2)))
    (hy : Spec.Pvrtc.IsPow2 (Spec.ceilDiv h 4)) :
    ∃ b, (pybind alloc behind (if w2 then .pvrtc2bpp else .pvrtc4bpp) data w h).2 = .ok (.bytes b) ∧
      Spec.IsPythonImage b w h
        (Spec.Pvrtc.texel w2 data (Spec.ceilDiv w (Spec.Pvrtc.bw w2)) (Spec.ceilDiv h 4)) := by
  refine pybind_ok hs ha fun image hi hroom => ?_
  have e : rustFn (if w2 then .pvrtc2bpp else .pvrtc4bpp) data w h image = pvrtc w2 data w h image := by
    cases w2 <;> rfl
  obtain ⟨out, e1, D⟩ := C49_pvrtc_exact w2 data w h image
    (sizes_of_small (by cases w2 <;> decide) (by decide) (by decide) hs hi) hw hh hd hroom hx hy
  exact ⟨out, e.trans e1, D.length_eq, D.pixel⟩

example : (5 * 4 < 2 ^ 59) ∧ Spec.bytesNeeded (Spec.Pvrtc.bw false) 4 8 5 4 = 16 ∧
    Spec.Pvrtc.IsPow2 (Spec.ceilDiv 5 (Spec.Pvrtc.bw false)) ∧
    Spec.Pvrtc.IsPow2 (Spec.ceilDiv 4 4) :=
  ⟨by decide, by decide, ⟨1, rfl⟩, ⟨0, rfl⟩⟩

/-- **C60** `decode_crunch`. -/
theorem C60_crunch [Build] (alloc : Nat → Bool) (behind : Nat → UInt32) (file dxt : List UInt8)
    (hu : Spec.Crn.unpack file = some dxt) (hl : Spec.Crn.Limits file)
    (ha : alloc (Spec.Crn.width file * Spec.Crn.height file * 4) = true) :
    ∃ b, (pybind alloc behind .crunch file (Spec.Crn.width file) (Spec.Crn.height file)).2
        = .ok (.bytes b) ∧
      Spec.IsPythonImage b (Spec.Crn.width file) (Spec.Crn.height file)
        (Spec.pixelAt 4 4 (if Spec.Crn.format file = 0 ∨ Spec.Crn.format file = 9 then 8 else 16)
          (crnTexel (Spec.Crn.format file)) dxt (Spec.Crn.width file)) := by
  have h1 : Spec.Crn.width file < 2 ^ 16 := Proofs.Crn.be_lt file _ 2
  have h2 : Spec.Crn.height file < 2 ^ 16 := Proofs.Crn.be_lt file _ 2
  have hs : Spec.Crn.width file * Spec.Crn.height file < 2 ^ 59 :=
    Nat.lt_of_le_of_lt (Nat.mul_le_mul (Nat.le_of_lt h1) (Nat.le_of_lt h2)) (by decide)
  refine pybind_ok hs ha fun image hi hroom => ?_
  obtain ⟨image', e, D⟩ := C51_pixels file dxt hu hl image hi hroom
  exact ⟨image', e, D.length_eq, D.pixel⟩

/-- **C60** `decode_unity_crunch`. Odd numbers of block columns need a build without overflow
checks (C44). -/
theorem C60_unity_crunch [Build] (alloc : Nat → Bool) (behind : Nat → UInt32)
    (file dxt : List UInt8) (hu : Spec.Crn.Unity.unpack file = some dxt)
    (hl : Spec.Crn.Limits file)
    (hodd : Build.overflowChecks = false ∨ Spec.Crn.blocksX file % 2 = 0)
    (ha : alloc (Spec.Crn.width file * Spec.Crn.height file * 4) = true) :
    ∃ b, (pybind alloc behind .unityCrunch file (Spec.Crn.width file) (Spec.Crn.height file)).2
        = .ok (.bytes b) ∧
      Spec.IsPythonImage b (Spec.Crn.width file) (Spec.Crn.height file)
        (Spec.pixelAt 4 4 (unityBlockBytes (Spec.Crn.format file))
          (unityTexel (Spec.Crn.format file)) dxt (Spec.Crn.width file)) := by
  have h1 : Spec.Crn.width file < 2 ^ 16 := Proofs.Crn.be_lt file _ 2
  have h2 : Spec.Crn.height file < 2 ^ 16 := Proofs.Crn.be_lt file _ 2
  have hs : Spec.Crn.width file * Spec.Crn.height file < 2 ^ 59 :=
    Nat.lt_of_le_of_lt (Nat.mul_le_mul (Nat.le_of_lt h1) (Nat.le_of_lt h2)) (by decide)
  refine pybind_ok hs ha fun image hi hroom => ?_
  obtain ⟨image', e, D⟩ := C55_pixels file dxt hu hl hodd image hi hroom
  exact ⟨image', e, D.length_eq, D.pixel⟩

/-- The files of the examples of C51 and C55 meet the hypotheses. -/
example : (Spec.Crn.unpack CrnDemo.crnDxt1).isSome ∧ Spec.Crn.Limits CrnDemo.crnDxt1 ∧
    (Spec.Crn.Unity.unpack UnityDemo.uDxt1).isSome ∧ Spec.Crn.Limits UnityDemo.uDxt1 ∧
    Spec.Crn.blocksX UnityDemo.uDxt1 % 2 = 0 :=
  ⟨by decide +kernel,
    ⟨by decide +kernel, ⟨by decide +kernel, by decide +kernel, by decide +kernel⟩, by decide +kernel,
      by decide +kernel, by decide +kernel⟩,
    by decide +kernel,
    ⟨by decide +kernel, ⟨by decide +kernel, by decide +kernel, by decide +kernel⟩, by decide +kernel,
      by decide +kernel, by decide +kernel⟩, by decide +kernel⟩

/-- **C60** Every error of a Rust function becomes a `ValueError` with the same message, and a failed
allocation a `MemoryError`. -/
theorem C60_errors [Build] (alloc : Nat → Bool) (behind : Nat → UInt32) (fn : PyFn)
    (data : List UInt8) (w h : Nat) (hs : w * h < 2 ^ 59) :
    (alloc (w * h * 4) = false → (pybind alloc behind fn data w h).2 = .ok .memoryError) ∧
    ∀ msg, alloc (w * h * 4) = true →
      (∀ image : List UInt32, image.length < 2 ^ 61 → w * h ≤ image.length →
        ∃ image', rustFn fn data w h image = .ok (.error msg, image')) →
      (pybind alloc behind fn data w h).2 = .ok (.valueError msg) := by
  constructor
  · intro ha
    unfold pybind
    rw [pySize_ok (by omega)]
    simp only [ha, Bool.false_eq_true, if_false]
  · exact fun msg ha hdec => pybind_error hs ha hdec

/-! ## C61 -/

/-- **C61** (violated) Without overflow checks, `width = 2 ^ 63 + 1` and `height = 2` make each of the
19 functions write behind the `bytes` object: the object has 8 bytes, which are the first 2 elements
of the slice, and one row of 4 pixels is written before the function panics. So the two words of
foreign memory behind the object are overwritten with pixels. -/
theorem C61_foreign_memory_written (alloc : Nat → Bool) (ha : alloc 8 = true)
    (behind : Nat → UInt32) (fmt : Spec.Format) (blk : List UInt8)
    (hl : fmt.blockSize ≤ blk.length) (hleg : fmt.Legal (blk.take fmt.blockSize)) :
    @pySize Build.release (2 ^ 63 + 1) 2 = .ok 8 ∧
    (@pybind Build.release alloc behind (pyFnOf fmt) blk (2 ^ 63 + 1) 2).2 = .panic ∧
    (@pybind Build.release alloc behind (pyFnOf fmt) blk (2 ^ 63 + 1) 2).1.writes = [(0, 4)] ∧
    (pyImage 8 behind)[2]? = some (behind 0) ∧ (pyImage 8 behind)[3]? = some (behind 1) ∧
    (@pybind Build.release alloc behind (pyFnOf fmt) blk (2 ^ 63 + 1) 2).1.image[2]?
      = some (fmt.texel (blk.take fmt.blockSize) 2) ∧
    (@pybind Build.release alloc behind (pyFnOf fmt) blk (2 ^ 63 + 1) 2).1.image[3]?
      = some (fmt.texel (blk.take fmt.blockSize) 3) := by
  letI := Build.release
  have hsize : @pySize Build.release (2 ^ 63 + 1) 2 = .ok 8 := rfl
  obtain ⟨f, ef, hf⟩ := @pyBlock Build.release fmt
  obtain ⟨buf, e1, hb, ht⟩ := hf blk hl hleg
  have hraw : fmt.blockSize = 8 ∨ fmt.blockSize = 16 := by cases fmt <;> decide
  have key : @pybind Build.release alloc behind (pyFnOf fmt) blk (2 ^ 63 + 1) 2
      = (⟨buf.take 4 ++ [behind 2, behind 3, behind 4, behind 5], [(0, 4)]⟩, .panic) := by
    unfold pybind
    rw [hsize]
    simp only [ha, if_true]
    rw [ef, show pyImage 8 behind = [0, 0, behind 0, behind 1, behind 2, behind 3, behind 4, behind 5]
      from rfl, blockDecoderR_wrap hraw hl e1 hb]
    rfl
  rw [key]
  refine ⟨hsize, rfl, rfl, rfl, rfl, ?_, ?_⟩
  · show (buf.take 4 ++ _)[2]? = _
    rw [List.getElem?_append_left (by rw [List.length_take]; omega), List.getElem?_take,
      if_pos (by decide), ht 2 (by decide)]
  · show (buf.take 4 ++ _)[3]? = _
    rw [List.getElem?_append_left (by rw [List.length_take]; omega), List.getElem?_take,
      if_pos (by decide), ht 3 (by decide)]

/-- With a block of the colour white the foreign words become `0xffffffff`. -/
example : Spec.Format.blockSize .bc1 ≤ (List.replicate 4 (255 : UInt8) ++ List.replicate 4 0).length ∧
    Spec.Format.Legal .bc1 ((List.replicate 4 (255 : UInt8) ++ List.replicate 4 0).take 8) ∧
    Spec.Format.texel .bc1 ((List.replicate 4 (255 : UInt8) ++ List.replicate 4 0).take 8) 2
      = 0xffffffff :=
  ⟨Nat.le_refl _, trivial, by decide +kernel⟩

/-- **C61** (what holds) If `width * height * 4` does not wrap, or overflow checks are on, no function
writes behind the `bytes` object, even when it panics. `width * height` is then the number of words
of the object. -/
theorem C61_memory_safe_partial [Build] (alloc : Nat → Bool)
    (halloc : ∀ n, alloc n = true → n < 2 ^ 61) (behind : Nat → UInt32) (fn : PyFn)
    (data : List UInt8) (w h : Nat)
    (hs : Build.overflowChecks = true ∨ w * h * 4 < 2 ^ 64) :
    (∀ a b, (a, b) ∈ (pybind alloc behind fn data w h).1.writes → b ≤ w * h ∧ b * 4 ≤ w * h * 4) ∧
    ((pybind alloc behind fn data w h).1.image = [] ∨
      ∀ i, w * h ≤ i →
        (pybind alloc behind fn data w h).1.image[i]? = (pyImage (w * h * 4) behind)[i]?) := by
  by_cases hfit : w * h * 4 < 2 ^ 64
  · unfold pybind
    rw [pySize_ok hfit]
    by_cases ha : alloc (w * h * 4) = true
    · simp only [ha, if_true]
      have key := pyFn_inside fn data w h (by omega) ⟨pyImage (w * h * 4) behind, []⟩
        (by rw [pyImage_length]; exact halloc _ ha) (by intro r hr; cases hr)
      generalize fn.decoder data w h ⟨pyImage (w * h * 4) behind, []⟩ = x at key ⊢
      obtain ⟨m, o⟩ := x
      have hw : ∀ a b, (a, b) ∈ m.writes → b ≤ w * h ∧ b * 4 ≤ w * h * 4 := by
        intro a b hm
        have := key.1 (a, b) hm
        exact ⟨this, Nat.mul_le_mul_right 4 this⟩
      cases o with
      | panic => exact ⟨hw, .inr key.2.2⟩
      | ok r => cases r <;> exact ⟨hw, .inr key.2.2⟩
    · simp only [ha]
      exact ⟨fun a b hm => (nomatch hm), .inl rfl⟩
  · have hck := hs.resolve_right hfit
    have hp : pySize w h = .panic := by
      unfold pySize mulU fitU
      by_cases h1 : w * h < 2 ^ 64
      · rw [if_pos h1, Out.ok_bind, if_neg hfit, if_pos hck]
      · rw [if_neg h1, if_pos hck]; rfl
    unfold pybind
    rw [hp]
    exact ⟨fun a b hm => (nomatch hm), .inl rfl⟩

example : (∀ n, (fun n => decide (n < 100)) n = true → n < 2 ^ 61) ∧ 5 * 2 * 4 < 2 ^ 64 ∧
    (@pybind Build.debug (fun n => decide (n < 100)) (fun _ => 7) .bc6Unsigned
      (3 :: List.replicate 15 0 ++ bc6Mode15) 5 2).1.writes = [(0, 4), (5, 9)] :=
  ⟨fun n hn => by simp only [decide_eq_true_eq] at hn; omega, by decide, by decide +kernel⟩

/-! ## C62 -/

theorem decodeAstcR_error [Build] {data : List UInt8} {w h bw bh : Nat} {m m' : Mem} {e : String}
    (he : decodeAstcR data w h bw bh m = (m', .ok (.error e))) : m' = m := by
  unfold decodeAstcR at he
  cases h1 : divCeil w bw with
  | panic => rw [h1] at he; cases he
  | ok nbx =>
  rw [h1, Run.lift_ok_bind] at he
  cases h2 : divCeil h bh with
  | panic => rw [h2] at he; cases he
  | ok nby =>
  rw [h2, Run.lift_ok_bind] at he
  cases h3 : mulU 64 nbx nby with
  | panic => rw [h3] at he; cases he
  | ok blocks =>
  rw [h3, Run.lift_ok_bind] at he
  cases h4 : mulU 64 blocks 16 with
  | panic => rw [h4] at he; cases he
  | ok need =>
  rw [h4, Run.lift_ok_bind] at he
  by_cases h5 : data.length < need
  · rw [if_pos h5] at he; cases he; rfl
  rw [if_neg h5] at he
  cases h6 : mulU 64 w h with
  | panic => rw [h6] at he; cases he
  | ok pixels =>
  rw [h6, Run.lift_ok_bind, Run.size_bind] at he
  by_cases h7 : m.image.length < pixels
  · rw [if_pos h7] at he; cases he; rfl
  rw [if_neg h7] at he
  cases h8 : mulU 64 bw bh with
  | panic => rw [h8] at he; cases he
  | ok size =>
  rw [h8, Run.lift_ok_bind] at he
  by_cases h9 : size > 144
  · rw [if_pos h9] at he; cases he; rfl
  rw [if_neg h9] at he
  revert he
  generalize (Run.forRange nby _ _ : Run (List UInt32 × Nat)) = loop
  intro he
  change Run.bind loop _ m = _ at he
  unfold Run.bind at he
  cases h10 : loop m with
  | mk m1 o =>
    rw [h10] at he
    cases o with
    | panic => cases he
    | ok s => cases he

/-- **C62** (violated) `decode_astc` of the Python module never returns a decoded image: on every
input, if it returns `bytes` at all, all of them are 0. -/
theorem C62_never_an_image [Build] (alloc : Nat → Bool) (behind : Nat → UInt32) (data : List UInt8)
    (w h bw bh : Nat) (b : List UInt8)
    (hb : (pyDecodeAstc alloc behind data w h bw bh).2 = .ok (.bytes b)) :
    ∀ v, v ∈ b → v = 0 := by
  unfold pyDecodeAstc at hb
  cases hn : pySize w h with
  | panic => rw [hn] at hb; cases hb
  | ok n =>
  rw [hn] at hb
  by_cases ha : alloc n = true
  · simp only [ha, if_true] at hb
    cases hd : decodeAstcR data w h bw bh ⟨pyImage n behind, []⟩ with
    | mk m o =>
    rw [hd] at hb
    cases o with
    | panic => cases hb
    | ok r =>
      cases r with
      | ok u => cases hb
      | error e =>
        have hm := decodeAstcR_error hd
        simp only [Out.ok.injEq, PyResult.bytes.injEq] at hb
        subst hb
        intro v hv
        rw [hm] at hv
        simp only [pyBytes, pyImage] at hv
        rw [List.take_append_of_le_length (by rw [List.length_replicate]; exact Nat.le_refl _),
          List.mem_flatMap] at hv
        obtain ⟨p, hp, hv⟩ := hv
        have hp0 : p = 0 := List.eq_of_mem_replicate (List.mem_of_mem_take hp)
        subst hp0
        simp only [List.mem_cons, List.not_mem_nil, or_false] at hv
        rcases hv with rfl | rfl | rfl | rfl <;> rfl
  · simp only [ha, Bool.false_eq_true, if_false] at hb
    cases hb

/-- **C62** (violated) It panics on every input that the Rust function decodes. -/
theorem C62_success_panics [Build] (alloc : Nat → Bool) (behind : Nat → UInt32) (data : List UInt8)
    (w h bw bh : Nat) (hbw : 2 ≤ bw) (hbh : 2 ≤ bh) (hb : bw * bh ≤ 144) (hs : w * h < 2 ^ 59)
    (ha : alloc (w * h * 4) = true) (hd : Spec.bytesNeeded bw bh 16 w h ≤ data.length)
    (hfit : ∀ k, k < Spec.numBlocks bw bh w h → Spec.Astc.Fits (Spec.blockBytes 16 data k)) :
    (pyDecodeAstc alloc behind data w h bw bh).2 = .panic := by
  unfold pyDecodeAstc
  rw [pySize_ok (by omega)]
  simp only [ha, if_true]
  have hlen := pyImage_length (w * h * 4) behind
  obtain ⟨image', e, _⟩ := (C35_astc bw bh hbw hbh hb).success data w h (pyImage (w * h * 4) behind)
    (sizes_of_small (by omega) (by omega) (by decide) hs (by rw [hlen]; omega)) hd
    (by rw [hlen]; omega) hfit
  have hsame := decodeAstcR_same (data := data) (w := w) (h := h) (bw := bw) (bh := bh)
    (m := ⟨pyImage (w * h * 4) behind, []⟩)
  have e' : decodeAstc data w h bw bh (pyImage (w * h * 4) behind) = .ok (.ok (), image') := e
  rw [e'] at hsame
  obtain ⟨m, em, _⟩ := hsame.of_ok
  rw [em]

/-- The block that `decode_astc_4_4` decodes in the example of C60. -/
example : (@pyDecodeAstc Build.release (fun _ => true) (fun _ => 9) astcRgb 4 4 4 4).2 = .panic ∧
    Spec.bytesNeeded 4 4 16 4 4 ≤ astcRgb.length ∧ Spec.numBlocks 4 4 4 4 = 1 ∧
    Spec.Astc.Fits (Spec.blockBytes 16 astcRgb 0) ∧
    (@pyDecodeAstc Build.release (fun _ => true) (fun _ => 9) [] 1 1 4 4).2
      = .ok (.bytes [0, 0, 0, 0]) :=
  ⟨by decide +kernel, by decide, by decide, by decide +kernel, by decide +kernel⟩

end Verif.Props
