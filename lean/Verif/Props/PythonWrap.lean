import Verif.Props.Python
import Verif.Proofs.PythonWrap

/-!
# Property C61, the remaining functions: which Python functions write behind their `bytes` object

`C61_foreign_memory_written` (in `Props/Python.lean`) is about the 19 block formats. Here: the ASTC
functions and the Crunch functions have the same defect, the two PVRTC functions do not.
-/

namespace Verif.Props

open Verif Verif.Proofs Verif.Model

/-- The memory after a call of a Python function is that after a call of the decoder. -/
theorem pybind_mem [Build] {alloc : Nat → Bool} {behind : Nat → UInt32} {fn : PyFn}
    {data : List UInt8} {w h n : Nat} (hn : pySize w h = .ok n) (ha : alloc n = true) :
    (pybind alloc behind fn data w h).1 = (fn.decoder data w h ⟨pyImage n behind, []⟩).1 := by
  unfold pybind
  rw [hn]
  simp only [ha, if_true]
  generalize fn.decoder data w h ⟨pyImage n behind, []⟩ = x
  obtain ⟨m, o⟩ := x
  cases o with
  | panic => rfl
  | ok r => cases r <;> rfl

theorem pyDecodeAstc_mem [Build] {alloc : Nat → Bool} {behind : Nat → UInt32}
    {data : List UInt8} {w h bw bh n : Nat} (hn : pySize w h = .ok n) (ha : alloc n = true) :
    (pyDecodeAstc alloc behind data w h bw bh).1 = (decodeAstcR data w h bw bh ⟨pyImage n behind, []⟩).1 := by
  unfold pyDecodeAstc
  rw [hn]
  simp only [ha, if_true]
  generalize decodeAstcR data w h bw bh ⟨pyImage n behind, []⟩ = x
  obtain ⟨m, o⟩ := x
  cases o with
  | panic => rfl
  | ok r => cases r <;> rfl

/-! ## ASTC -/

section
attribute [local instance] Build.release

/-- **C61** (violated) Without overflow checks, `width = 16` and `height = bh * 2 ^ 60 + 1` make each of
the 14 ASTC functions write behind the `bytes` object: the object has 64 bytes, which are the first 16
elements of the slice, and the next elements are overwritten with the second row of the first
block. -/
theorem C61_astc_foreign_memory_written (alloc : Nat → Bool) (ha : alloc 64 = true)
    (behind : Nat → UInt32) (fn : PyFn) (bw bh : Nat) (hfn : (fn, bw, bh) ∈ pyAstcFns)
    (data : List UInt8) (hd : data.length = Spec.ceilDiv 16 bw * 16)
    (hfit : Spec.Astc.Fits (data.take 16)) :
    pySize 16 (bh * 2 ^ 60 + 1) = .ok 64 ∧
    (16, 16 + bw) ∈ (pybind alloc behind fn data 16 (bh * 2 ^ 60 + 1)).1.writes := by
  have key : ∀ p ∈ pyAstcFns, p.1.decoder = (fun d w h => decodeAstcR d w h p.2.1 p.2.2) ∧
      2 ≤ p.2.1 ∧ p.2.1 ≤ 15 ∧ 2 ≤ p.2.2 ∧ p.2.2 ≤ 15 ∧ p.2.1 * p.2.2 ≤ 144 := by
    intro p hp
    simp only [pyAstcFns, List.mem_cons, List.not_mem_nil, or_false] at hp
    rcases hp with rfl | rfl | rfl | rfl | rfl | rfl | rfl | rfl | rfl | rfl | rfl | rfl | rfl | rfl <;>
      exact ⟨rfl, by decide, by decide, by decide, by decide, by decide⟩
  obtain ⟨ef, h1, h2, h3, h4, h5⟩ := key _ hfn
  dsimp only at ef h1 h2 h3 h4 h5
  have hsize : pySize 16 (bh * 2 ^ 60 + 1) = .ok 64 := by
    unfold pySize mulU
    rw [fitU_release, Out.ok_bind, fitU_release]
    congr 1
    omega
  refine ⟨hsize, ?_⟩
  have hnx : 1 ≤ Spec.ceilDiv 16 bw := by
    unfold Spec.ceilDiv
    exact (Nat.le_div_iff_mul_le (by omega)).mpr (by omega)
  obtain ⟨buf, e, hl, -, -⟩ := Astc.decodeAstcBlock_ok (buf := data) (by omega) hfit h1 h3 h5 (List.replicate 144 0)
    (by rw [List.length_replicate]; omega)
  have w := decodeAstcR_wrap (m := ⟨pyImage 64 behind, []⟩) h1 h2 h3 h4 h5 hd
    (by show 32 ≤ (pyImage 64 behind).length; rw [pyImage_length]; decide) e
    (by rw [hl, List.length_replicate])
  rw [pybind_mem hsize ha, ef]
  exact w

/-- **C61** (violated) The same for `decode_astc` of the Python module, with any block size. -/
theorem C61_decode_astc_foreign_memory_written (alloc : Nat → Bool) (ha : alloc 64 = true)
    (behind : Nat → UInt32) (bw bh : Nat) (h1 : 2 ≤ bw) (h2 : bw ≤ 15) (h3 : 2 ≤ bh) (h4 : bh ≤ 15)
    (h5 : bw * bh ≤ 144) (data : List UInt8) (hd : data.length = Spec.ceilDiv 16 bw * 16)
    (hfit : Spec.Astc.Fits (data.take 16)) :
    pySize 16 (bh * 2 ^ 60 + 1) = .ok 64 ∧
    (16, 16 + bw) ∈ (pyDecodeAstc alloc behind data 16 (bh * 2 ^ 60 + 1) bw bh).1.writes := by
  have hsize : pySize 16 (bh * 2 ^ 60 + 1) = .ok 64 := by
    unfold pySize mulU
    rw [fitU_release, Out.ok_bind, fitU_release]
    congr 1
    omega
  refine ⟨hsize, ?_⟩
  have hnx : 1 ≤ Spec.ceilDiv 16 bw := by
    unfold Spec.ceilDiv
    exact (Nat.le_div_iff_mul_le (by omega)).mpr (by omega)
  obtain ⟨buf, e, hl, -, -⟩ := Astc.decodeAstcBlock_ok (buf := data) (by omega) hfit h1 h3 h5 (List.replicate 144 0)
    (by rw [List.length_replicate]; omega)
  have w := decodeAstcR_wrap (m := ⟨pyImage 64 behind, []⟩) h1 h2 h3 h4 h5 hd
    (by show 32 ≤ (pyImage 64 behind).length; rw [pyImage_length]; decide) e
    (by rw [hl, List.length_replicate])
  rw [pyDecodeAstc_mem hsize ha]
  exact w

end

/-- Two blocks of 12 × 12 pixels are one row of an image that is 16 pixels wide. -/
example : (PyFn.astc12x12, 12, 12) ∈ pyAstcFns ∧
    (astcRgb ++ astcRgb).length = Spec.ceilDiv 16 12 * 16 ∧
    Spec.Astc.Fits ((astcRgb ++ astcRgb).take 16) :=
  ⟨by decide, by decide, by decide +kernel⟩

/-! ## Crunch -/

/-- The block format of a Crunch file. -/
def crnFmt (format : Nat) : Spec.Format :=
  if format = 0 then .bc1
  else if format = 9 then .bc4
  else if format = 7 ∨ format = 8 then .bc5
  else .bc3

/-- The block format of a Unity Crunch file. -/
def unityFmt (format : Nat) : Spec.Format :=
  if format = 0 then .bc1
  else if format = 9 then .bc4
  else if format = 7 ∨ format = 8 then .bc5
  else if format = 10 ∨ format = 13 then .etc1
  else if format = 11 then .etc2rgb
  else if format = 12 ∨ format = 14 then .etc2rgba8
  else .bc3

/-- **C60** Python's `decode_crunch` does with a file what the function of the block format does with
the blocks of the file: for all sizes, with the same result and the same writes. -/
theorem C60_crunch_blocks [Build] (alloc : Nat → Bool) (behind : Nat → UInt32)
    (file dxt : List UInt8) (hu : Spec.Crn.unpack file = some dxt) (hl : Spec.Crn.Limits file)
    (w h : Nat) :
    pybind alloc behind .crunch file w h =
      pybind alloc behind (pyFnOf (crnFmt (Spec.Crn.format file))) dxt w h := by
  have e : PyFn.decoder .crunch file w h =
      PyFn.decoder (pyFnOf (crnFmt (Spec.Crn.format file))) dxt w h := by
    obtain ⟨e, hf, -⟩ := Proofs.Crn.crunchUnpackLevel_ok hu hl
    show decodeCrunchR file w h = _
    unfold decodeCrunchR
    rw [e]
    generalize Spec.Crn.format file = n at hf
    have hn : n < 10 := by omega
    match n, hn with
    | 0, _ | 2, _ | 3, _ | 4, _ | 5, _ | 6, _ | 7, _ | 8, _ | 9, _ => rfl
    | 1, _ => omega
  unfold pybind
  rw [e]

/-- **C60** The same for `decode_unity_crunch`. -/
theorem C60_unity_crunch_blocks [Build] (alloc : Nat → Bool) (behind : Nat → UInt32)
    (file dxt : List UInt8) (hu : Spec.Crn.Unity.unpack file = some dxt) (hl : Spec.Crn.Limits file)
    (hodd : Build.overflowChecks = false ∨ Spec.Crn.blocksX file % 2 = 0) (w h : Nat) :
    pybind alloc behind .unityCrunch file w h =
      pybind alloc behind (pyFnOf (unityFmt (Spec.Crn.format file))) dxt w h := by
  have e : PyFn.decoder .unityCrunch file w h =
      PyFn.decoder (pyFnOf (unityFmt (Spec.Crn.format file))) dxt w h := by
    obtain ⟨e, hf, -⟩ := Proofs.Crn.Unity.unityCrunchUnpackLevel_ok hu hl hodd
    show decodeUnityCrunchR file w h = _
    unfold decodeUnityCrunchR
    rw [e]
    unfold Proofs.Crn.Unity.Known at hf
    generalize Spec.Crn.format file = n at hf
    have hn : n < 15 := by omega
    match n, hn with
    | 0, _ | 2, _ | 3, _ | 4, _ | 5, _ | 6, _ | 7, _ | 8, _ | 9, _ | 10, _ | 11, _ | 12, _ | 13, _
    | 14, _ => rfl
    | 1, _ => omega
  unfold pybind
  rw [e]

/-- Every file has a block. -/
theorem one_block {file : List UInt8} (hl : Spec.Crn.Limits file) :
    1 ≤ Spec.Crn.faces file * Spec.Crn.blocksY file * Spec.Crn.blocksX file := by
  have hx : 0 < Spec.Crn.blocksX file := by
    unfold Spec.Crn.blocksX Spec.Crn.blocksOf; omega
  have hy : 0 < Spec.Crn.blocksY file := by
    unfold Spec.Crn.blocksY Spec.Crn.blocksOf; omega
  exact Nat.mul_pos (Nat.mul_pos hl.faces hy) hx

/-- **C61** (violated) `decode_crunch` with `width = 2 ^ 63 + 1` and `height = 2`, for every file: the two words behind the 8 bytes of the object are overwritten with the
third and the fourth pixel of the file. -/
theorem C61_crunch_foreign_memory_written (alloc : Nat → Bool) (ha : alloc 8 = true)
    (behind : Nat → UInt32) (file dxt : List UInt8) (hu : Spec.Crn.unpack file = some dxt)
    (hl : Spec.Crn.Limits file) :
    let fmt := crnFmt (Spec.Crn.format file)
    let run := @pybind Build.release alloc behind .crunch file (2 ^ 63 + 1) 2
    @pySize Build.release (2 ^ 63 + 1) 2 = .ok 8 ∧ run.1.writes = [(0, 4)] ∧
      run.1.image[2]? = some (fmt.texel (dxt.take fmt.blockSize) 2) ∧
      run.1.image[3]? = some (fmt.texel (dxt.take fmt.blockSize) 3) := by
  letI := Build.release
  intro fmt run
  have hb := one_block hl
  obtain ⟨-, hf, hlen⟩ := Proofs.Crn.crunchUnpackLevel_ok hu hl
  have hraw : fmt.blockSize ≤ dxt.length ∧ fmt.Legal (dxt.take fmt.blockSize) := by
    have : fmt = crnFmt (Spec.Crn.format file) := rfl
    rw [this]
    generalize Spec.Crn.format file = n at *
    unfold crnFmt
    by_cases h0 : n = 0
    · rw [if_pos (.inl h0)] at hlen
      rw [if_pos h0]
      exact ⟨by show 8 ≤ _; omega, trivial⟩
    · by_cases h9 : n = 9
      · rw [if_pos (.inr h9)] at hlen
        rw [if_neg h0, if_pos h9]
        exact ⟨by show 8 ≤ _; omega, trivial⟩
      · rw [if_neg (by omega)] at hlen
        rw [if_neg h0, if_neg h9]
        split
        · exact ⟨by show 16 ≤ _; omega, trivial⟩
        · exact ⟨by show 16 ≤ _; omega, trivial⟩
  have key := C61_foreign_memory_written alloc ha behind fmt dxt hraw.1 hraw.2
  rw [← C60_crunch_blocks alloc behind file dxt hu hl] at key
  exact ⟨key.1, key.2.2.1, key.2.2.2.2.2.1, key.2.2.2.2.2.2⟩

/-- **C61** (violated) The same for `decode_unity_crunch`. -/
theorem C61_unity_crunch_foreign_memory_written (alloc : Nat → Bool) (ha : alloc 8 = true)
    (behind : Nat → UInt32) (file dxt : List UInt8) (hu : Spec.Crn.Unity.unpack file = some dxt)
    (hl : Spec.Crn.Limits file) :
    let fmt := unityFmt (Spec.Crn.format file)
    let run := @pybind Build.release alloc behind .unityCrunch file (2 ^ 63 + 1) 2
    @pySize Build.release (2 ^ 63 + 1) 2 = .ok 8 ∧ run.1.writes = [(0, 4)] ∧
      run.1.image[2]? = some (fmt.texel (dxt.take fmt.blockSize) 2) ∧
      run.1.image[3]? = some (fmt.texel (dxt.take fmt.blockSize) 3) := by
  letI := Build.release
  intro fmt run
  have hb := one_block hl
  obtain ⟨-, hf, hlen⟩ := Proofs.Crn.Unity.unityCrunchUnpackLevel_ok hu hl (.inl rfl)
  have hraw : fmt.blockSize ≤ dxt.length ∧ fmt.Legal (dxt.take fmt.blockSize) := by
    have : fmt = unityFmt (Spec.Crn.format file) := rfl
    rw [this]
    unfold Proofs.Crn.Unity.Known at hf
    unfold Proofs.Crn.Unity.wordsOf at hlen
    generalize Spec.Crn.format file = n at *
    have hn : n < 15 := by omega
    match n, hn with
    | 0, _ | 9, _ | 10, _ | 11, _ | 13, _ =>
      exact ⟨by
        have hlen : dxt.length = 4 * 2 * _ := hlen
        show 8 ≤ _
        omega, trivial⟩
    | 2, _ | 3, _ | 4, _ | 5, _ | 6, _ | 7, _ | 8, _ | 12, _ | 14, _ =>
      exact ⟨by
        have hlen : dxt.length = 4 * 4 * _ := hlen
        show 16 ≤ _
        omega, trivial⟩
    | 1, _ => omega
  have key := C61_foreign_memory_written alloc ha behind fmt dxt hraw.1 hraw.2
  rw [← C60_unity_crunch_blocks alloc behind file dxt hu hl (.inl rfl)] at key
  exact ⟨key.1, key.2.2.1, key.2.2.2.2.2.1, key.2.2.2.2.2.2⟩

/-- The files of the examples of C51 and C55. -/
example : (Spec.Crn.unpack CrnDemo.crnDxt1).isSome ∧ Spec.Crn.Limits CrnDemo.crnDxt1 ∧
    (Spec.Crn.Unity.unpack UnityDemo.uDxt1).isSome ∧ Spec.Crn.Limits UnityDemo.uDxt1 :=
  ⟨by decide +kernel,
    ⟨by decide +kernel, ⟨by decide +kernel, by decide +kernel, by decide +kernel⟩, by decide +kernel,
      by decide +kernel, by decide +kernel⟩,
    by decide +kernel,
    ⟨by decide +kernel, ⟨by decide +kernel, by decide +kernel, by decide +kernel⟩, by decide +kernel,
      by decide +kernel, by decide +kernel⟩⟩

/-! ## What is safe -/

/-- Nothing outside the `bytes` object was touched: either there is none, or it has `n` bytes (`n / 4`
elements of the slice), all writes lie in it, and what follows it in memory is unchanged. -/
def MemorySafe [Build] (behind : Nat → UInt32) (w h : Nat) (m : Mem) : Prop :=
  m = ⟨[], []⟩ ∨ ∃ n, pySize w h = .ok n ∧ (∀ a b, (a, b) ∈ m.writes → b * 4 ≤ n) ∧
    ∀ i, n / 4 ≤ i → m.image[i]? = (pyImage n behind)[i]?

/-- A call of a Python function is a call of the decoder on the object, or none. -/
theorem pybind_cases [Build] (alloc : Nat → Bool) (behind : Nat → UInt32) (fn : PyFn)
    (data : List UInt8) (w h : Nat) :
    (pybind alloc behind fn data w h).1 = ⟨[], []⟩ ∨ ∃ n, pySize w h = .ok n ∧ alloc n = true ∧
      (pybind alloc behind fn data w h).1 = (fn.decoder data w h ⟨pyImage n behind, []⟩).1 := by
  cases e : pySize w h with
  | panic => left; unfold pybind; rw [e]
  | ok n =>
    cases ha : alloc n with
    | false => left; unfold pybind; rw [e]; simp only [ha, Bool.false_eq_true, if_false]
    | true => exact .inr ⟨n, rfl, ha, pybind_mem e ha⟩

/-- **C61** (what holds) All functions are memory safe for sizes with less than `2 ^ 64` pixels, even
if the number of bytes wraps. -/
theorem C61_memory_safe_pixels_partial [Build] (alloc : Nat → Bool)
    (halloc : ∀ n, alloc n = true → n < 2 ^ 61) (behind : Nat → UInt32) (fn : PyFn)
    (data : List UInt8) (w h : Nat) (hs : w * h < 2 ^ 64) :
    MemorySafe behind w h (pybind alloc behind fn data w h).1 := by
  rcases pybind_cases alloc behind fn data w h with e | ⟨n, e, ha, er⟩
  · exact .inl e
  · have hn := halloc n ha
    refine .inr ⟨n, e, ?_⟩
    rw [er]
    rcases Nat.lt_or_ge n (w * h) with hlt | hge
    · have q : (fn.decoder data w h ⟨pyImage n behind, []⟩).1 = _ := pyFn_small fn data hs
        (m := ⟨pyImage n behind, []⟩) (by show (pyImage n behind).length < _; rw [pyImage_length]; exact hlt)
      rw [q]
      exact ⟨fun a b hm => (nomatch hm), fun _ _ => rfl⟩
    · rw [pySize_ok (by omega)] at e
      cases e
      have key := pyFn_inside fn data w h hs ⟨pyImage (w * h * 4) behind, []⟩
        (by rw [pyImage_length]; exact hn) (by intro r hr; cases hr)
      exact ⟨fun a b hm => Nat.mul_le_mul_right 4 (key.1 (a, b) hm), fun i hi => key.2.2 i (by omega)⟩

/-- `2 ^ 31 + 1` by `2 ^ 31` pixels: the number of bytes wraps to `2 ^ 33`. -/
example : (2 ^ 31 + 1) * 2 ^ 31 < 2 ^ 64 ∧ ¬ (2 ^ 31 + 1) * 2 ^ 31 * 4 < 2 ^ 64 ∧
    @pySize Build.release (2 ^ 31 + 1) (2 ^ 31) = .ok (2 ^ 33) ∧
    (∀ n, (fun n => decide (n ≤ 2 ^ 33)) n = true → n < 2 ^ 61) :=
  ⟨by decide, by decide, rfl, fun n hn => by simp only [decide_eq_true_eq] at hn; omega⟩

/-- **C61** (what holds) The two PVRTC functions are memory safe whatever the arguments. -/
theorem C61_pvrtc_memory_safe [Build] (alloc : Nat → Bool)
    (halloc : ∀ n, alloc n = true → n < 2 ^ 61) (behind : Nat → UInt32) (fn : PyFn)
    (hfn : fn = .pvrtc2bpp ∨ fn = .pvrtc4bpp) (data : List UInt8) (hd : data.length < 2 ^ 62)
    (w h : Nat) (hw : w < 2 ^ 64) (hh : h < 2 ^ 64) :
    MemorySafe behind w h (pybind alloc behind fn data w h).1 := by
  rcases Nat.lt_or_ge (w * h) (2 ^ 64) with hs | hs
  · exact C61_memory_safe_pixels_partial alloc halloc behind fn data w h hs
  · rename_i inst
    obtain ⟨ck⟩ := inst
    cases ck with
    | true =>
      letI := Build.debug
      left
      have hp : pySize w h = .panic := by
        unfold pySize mulU
        rw [fitU_debug hs]
        rfl
      show (@pybind Build.debug alloc behind fn data w h).1 = _
      unfold pybind
      rw [hp]
    | false =>
      letI := Build.release
      rcases @pybind_cases Build.release alloc behind fn data w h with e | ⟨n, e, ha, er⟩
      · exact .inl e
      · refine .inr ⟨n, e, ?_⟩
        have q : (@PyFn.decoder Build.release fn data w h ⟨pyImage n behind, []⟩).1
            = ⟨pyImage n behind, []⟩ := by
          rcases hfn with rfl | rfl
          · exact decodePvrtcR_oversize (is2 := true) hw hh hd hs
          · exact decodePvrtcR_oversize (is2 := false) hw hh hd hs
        have er' : (@pybind Build.release alloc behind fn data w h).1 = ⟨pyImage n behind, []⟩ := er.trans q
        show (∀ a b, (a, b) ∈ (@pybind Build.release alloc behind fn data w h).1.writes → _) ∧ ∀ i, _ →
          (@pybind Build.release alloc behind fn data w h).1.image[i]? = _
        rw [er']
        exact ⟨fun a b hm => (nomatch hm), fun _ _ => rfl⟩

/-- `2 ^ 63 - 1` by `2 ^ 63 - 1` pixels: the number of pixels wraps to 1 and passes the checks. -/
example : 2 ^ 64 ≤ (2 ^ 63 - 1) * (2 ^ 63 - 1) ∧
    @pySize Build.release (2 ^ 63 - 1) (2 ^ 63 - 1) = .ok 4 ∧ (2 : Nat) ^ 63 - 1 < 2 ^ 64 :=
  ⟨by decide, rfl, by decide⟩

end Verif.Props
