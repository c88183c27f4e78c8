import Verif.Model.Python
import Verif.Spec.Python
import Verif.Proofs.Memory
import Verif.Proofs.Formats

/-!
# Lemmas about the Python bindings
-/

namespace Verif

/-- The Rust function behind a function of the Python module. -/
def rustFn [Build] : Model.PyFn → List UInt8 → Nat → Nat → List UInt32 →
    Out (Except String Unit × List UInt32)
  | .atcRgb4 => Model.decodeAtcRgb4
  | .atcRgba8 => Model.decodeAtcRgba8
  | .astc4x4 => Model.decodeAstc4x4
  | .astc5x4 => Model.decodeAstc5x4
  | .astc5x5 => Model.decodeAstc5x5
  | .astc6x5 => Model.decodeAstc6x5
  | .astc6x6 => Model.decodeAstc6x6
  | .astc8x5 => Model.decodeAstc8x5
  | .astc8x6 => Model.decodeAstc8x6
  | .astc8x8 => Model.decodeAstc8x8
  | .astc10x5 => Model.decodeAstc10x5
  | .astc10x6 => Model.decodeAstc10x6
  | .astc10x8 => Model.decodeAstc10x8
  | .astc10x10 => Model.decodeAstc10x10
  | .astc12x10 => Model.decodeAstc12x10
  | .astc12x12 => Model.decodeAstc12x12
  | .bc1 => Model.decodeBc1
  | .bc1a => Model.decodeBc1a
  | .bc2 => Model.decodeBc2
  | .bc3 => Model.decodeBc3
  | .bc4 => Model.decodeBc4
  | .bc5 => Model.decodeBc5
  | .bc6Signed => Model.decodeBc6Signed
  | .bc6Unsigned => Model.decodeBc6Unsigned
  | .bc7 => Model.decodeBc7
  | .etc1 => Model.decodeEtc1
  | .etc2Rgb => Model.decodeEtc2Rgb
  | .etc2Rgba1 => Model.decodeEtc2Rgba1
  | .etc2Rgba8 => Model.decodeEtc2Rgba8
  | .eacr => Model.decodeEacr
  | .eacrSigned => Model.decodeEacrSigned
  | .eacrg => Model.decodeEacrg
  | .eacrgSigned => Model.decodeEacrgSigned
  | .pvrtc2bpp => Model.decodePvrtc2bpp
  | .pvrtc4bpp => Model.decodePvrtc4bpp
  | .crunch => Model.Crn.decodeCrunch
  | .unityCrunch => Model.Crn.Unity.decodeUnityCrunch

namespace Proofs

open Verif.Model

variable [Build]

theorem pyFn_same (fn : PyFn) (data : List UInt8) (w h : Nat) (m : Mem) :
    Same (fun r image => (r, image)) (fn.decoder data w h m) (rustFn fn data w h m.image) :=
  match fn with
  | .atcRgb4 => blockDecoderR_same
  | .atcRgba8 => blockDecoderR_same
  | .bc1 => blockDecoderR_same
  | .bc1a => blockDecoderR_same
  | .bc2 => blockDecoderR_same
  | .bc3 => blockDecoderR_same
  | .bc4 => blockDecoderR_same
  | .bc5 => blockDecoderR_same
  | .bc6Signed => blockDecoderR_same
  | .bc6Unsigned => blockDecoderR_same
  | .bc7 => blockDecoderR_same
  | .etc1 => blockDecoderR_same
  | .etc2Rgb => blockDecoderR_same
  | .etc2Rgba1 => blockDecoderR_same
  | .etc2Rgba8 => blockDecoderR_same
  | .eacr => blockDecoderR_same
  | .eacrSigned => blockDecoderR_same
  | .eacrg => blockDecoderR_same
  | .eacrgSigned => blockDecoderR_same
  | .astc4x4 => decodeAstcR_same
  | .astc5x4 => decodeAstcR_same
  | .astc5x5 => decodeAstcR_same
  | .astc6x5 => decodeAstcR_same
  | .astc6x6 => decodeAstcR_same
  | .astc8x5 => decodeAstcR_same
  | .astc8x6 => decodeAstcR_same
  | .astc8x8 => decodeAstcR_same
  | .astc10x5 => decodeAstcR_same
  | .astc10x6 => decodeAstcR_same
  | .astc10x8 => decodeAstcR_same
  | .astc10x10 => decodeAstcR_same
  | .astc12x10 => decodeAstcR_same
  | .astc12x12 => decodeAstcR_same
  | .pvrtc2bpp => decodePvrtcR_same
  | .pvrtc4bpp => decodePvrtcR_same
  | .crunch => decodeCrunchR_same
  | .unityCrunch => decodeUnityCrunchR_same

theorem pyFn_inside (fn : PyFn) (data : List UInt8) (w h : Nat) (hwh : w * h < 2 ^ 64) :
    Inside (w * h) (fn.decoder data w h) :=
  match fn with
  | .atcRgb4 => blockDecoderR_inside hwh (by decide) (by decide)
  | .atcRgba8 => blockDecoderR_inside hwh (by decide) (by decide)
  | .bc1 => blockDecoderR_inside hwh (by decide) (by decide)
  | .bc1a => blockDecoderR_inside hwh (by decide) (by decide)
  | .bc2 => blockDecoderR_inside hwh (by decide) (by decide)
  | .bc3 => blockDecoderR_inside hwh (by decide) (by decide)
  | .bc4 => blockDecoderR_inside hwh (by decide) (by decide)
  | .bc5 => blockDecoderR_inside hwh (by decide) (by decide)
  | .bc6Signed => blockDecoderR_inside hwh (by decide) (by decide)
  | .bc6Unsigned => blockDecoderR_inside hwh (by decide) (by decide)
  | .bc7 => blockDecoderR_inside hwh (by decide) (by decide)
  | .etc1 => blockDecoderR_inside hwh (by decide) (by decide)
  | .etc2Rgb => blockDecoderR_inside hwh (by decide) (by decide)
  | .etc2Rgba1 => blockDecoderR_inside hwh (by decide) (by decide)
  | .etc2Rgba8 => blockDecoderR_inside hwh (by decide) (by decide)
  | .eacr => blockDecoderR_inside hwh (by decide) (by decide)
  | .eacrSigned => blockDecoderR_inside hwh (by decide) (by decide)
  | .eacrg => blockDecoderR_inside hwh (by decide) (by decide)
  | .eacrgSigned => blockDecoderR_inside hwh (by decide) (by decide)
  | .astc4x4 => decodeAstcR_inside hwh (by decide) (by decide)
  | .astc5x4 => decodeAstcR_inside hwh (by decide) (by decide)
  | .astc5x5 => decodeAstcR_inside hwh (by decide) (by decide)
  | .astc6x5 => decodeAstcR_inside hwh (by decide) (by decide)
  | .astc6x6 => decodeAstcR_inside hwh (by decide) (by decide)
  | .astc8x5 => decodeAstcR_inside hwh (by decide) (by decide)
  | .astc8x6 => decodeAstcR_inside hwh (by decide) (by decide)
  | .astc8x8 => decodeAstcR_inside hwh (by decide) (by decide)
  | .astc10x5 => decodeAstcR_inside hwh (by decide) (by decide)
  | .astc10x6 => decodeAstcR_inside hwh (by decide) (by decide)
  | .astc10x8 => decodeAstcR_inside hwh (by decide) (by decide)
  | .astc10x10 => decodeAstcR_inside hwh (by decide) (by decide)
  | .astc12x10 => decodeAstcR_inside hwh (by decide) (by decide)
  | .astc12x12 => decodeAstcR_inside hwh (by decide) (by decide)
  | .pvrtc2bpp => decodePvrtcR_inside hwh
  | .pvrtc4bpp => decodePvrtcR_inside hwh
  | .crunch => decodeCrunchR_inside hwh
  | .unityCrunch => decodeUnityCrunchR_inside hwh

omit [Build] in
/-- A run that does not panic, seen from the other model. -/
theorem Same.of_ok {α : Type} {x : Mem × Out α} {a : α} {image : List UInt32}
    (h : Same (fun r image => (r, image)) x (.ok (a, image))) :
    ∃ m, x = (m, .ok a) ∧ m.image = image := by
  obtain ⟨m, o⟩ := x
  cases o with
  | panic => cases (show Out.ok (a, image) = .panic from h)
  | ok b =>
    have e : Out.ok (a, image) = .ok (b, m.image) := h
    simp only [Out.ok.injEq, Prod.mk.injEq] at e
    exact ⟨m, by rw [e.1], e.2.symm⟩

omit [Build] in
theorem Same.of_panic {α : Type} {x : Mem × Out α}
    (h : Same (fun r image => ((r, image) : α × List UInt32)) x .panic) : x.2 = .panic := by
  obtain ⟨m, o⟩ := x
  cases o with
  | panic => rfl
  | ok b => cases (show Out.panic = .ok (b, m.image) from h)

theorem pySize_ok {w h : Nat} (hs : w * h * 4 < 2 ^ 64) : pySize w h = .ok (w * h * 4) := by
  unfold pySize
  rw [mulU_ok (by omega), Out.ok_bind, mulU_ok hs]

omit [Build] in
theorem pyImage_length (n : Nat) (behind : Nat → UInt32) : (pyImage n behind).length = n := by
  unfold pyImage
  simp only [List.length_append, List.length_replicate, List.length_map, List.length_range]
  omega

omit [Build] in
/-- Four bytes per element. -/
theorem flatMap4 {α : Type} (f : α → List UInt8) (hf : ∀ a, (f a).length = 4) (l : List α) :
    (l.flatMap f).length = l.length * 4 ∧
    ∀ i a, l[i]? = some a → ∀ k, k < 4 → (l.flatMap f)[4 * i + k]? = (f a)[k]? := by
  induction l with
  | nil => exact ⟨rfl, by simp⟩
  | cons x l ih =>
    refine ⟨by rw [List.flatMap_cons, List.length_append, hf, ih.1, List.length_cons]; omega, ?_⟩
    intro i a hi k hk
    rw [List.flatMap_cons]
    cases i with
    | zero =>
      rw [List.getElem?_cons_zero, Option.some.injEq] at hi
      subst hi
      rw [List.getElem?_append_left (by rw [hf]; omega), Nat.mul_zero, Nat.zero_add]
    | succ i =>
      rw [List.getElem?_cons_succ] at hi
      rw [List.getElem?_append_right (by rw [hf]; omega), hf, ← ih.2 i a hi k hk]
      congr 1; omega

omit [Build] in
theorem pyBytes_image {w h : Nat} {image : List UInt32} {pixel : Nat → Nat → UInt32}
    (hl : w * h ≤ image.length)
    (hp : ∀ x y, x < w → y < h → image[y * w + x]? = some (pixel x y)) :
    Spec.IsPythonImage (pyBytes (w * h * 4) image) w h pixel := by
  have key := flatMap4 (fun (p : UInt32) =>
    [p.toUInt8, (p >>> 8).toUInt8, (p >>> 16).toUInt8, (p >>> 24).toUInt8]) (fun _ => rfl)
    (image.take (w * h))
  have hpix : ∀ x y, x < w → y < h → (image.take (w * h))[y * w + x]? = some (pixel x y) := by
    intro x y hx hy
    have h2 : y * w + w ≤ w * h := by
      have := Nat.mul_le_mul_right w (show y + 1 ≤ h from hy)
      rw [Nat.add_mul, Nat.one_mul] at this
      rw [Nat.mul_comm w h]; exact this
    rw [List.getElem?_take, if_pos (by omega), hp x y hx hy]
  unfold pyBytes
  rw [Nat.mul_div_cancel _ (by decide : 0 < 4)]
  refine ⟨by rw [key.1, List.length_take, Nat.min_eq_left hl], ?_, ?_, ?_, ?_⟩
  · intro x y hx hy
    refine (key.2 _ _ (hpix x y hx hy) 0 (by decide)).trans ?_
    simp only [List.getElem?_cons_zero, Option.some.injEq]
    apply UInt8.toNat_inj.mp
    simp [Spec.blue]
  · intro x y hx hy
    refine (key.2 _ _ (hpix x y hx hy) 1 (by decide)).trans ?_
    simp only [List.getElem?_cons_zero, List.getElem?_cons_succ, Option.some.injEq]
    apply UInt8.toNat_inj.mp
    simp [Spec.green, Nat.shiftRight_eq_div_pow]
  · intro x y hx hy
    refine (key.2 _ _ (hpix x y hx hy) 2 (by decide)).trans ?_
    simp only [List.getElem?_cons_zero, List.getElem?_cons_succ, Option.some.injEq]
    apply UInt8.toNat_inj.mp
    simp [Spec.red, Nat.shiftRight_eq_div_pow]
  · intro x y hx hy
    refine (key.2 _ _ (hpix x y hx hy) 3 (by decide)).trans ?_
    simp only [List.getElem?_cons_zero, List.getElem?_cons_succ, Option.some.injEq]
    apply UInt8.toNat_inj.mp
    simp [Spec.alpha, Nat.shiftRight_eq_div_pow]

/-- What Python gets from a Rust function that succeeds. -/
theorem pybind_ok {alloc : Nat → Bool} {behind : Nat → UInt32} {fn : PyFn} {data : List UInt8}
    {w h : Nat} {pixel : Nat → Nat → UInt32} (hs : w * h < 2 ^ 59) (ha : alloc (w * h * 4) = true)
    (hdec : ∀ image : List UInt32, image.length < 2 ^ 61 → w * h ≤ image.length →
      ∃ image', rustFn fn data w h image = .ok (.ok (), image') ∧ image'.length = image.length ∧
        ∀ x y, x < w → y < h → image'[y * w + x]? = some (pixel x y)) :
    ∃ b, (pybind alloc behind fn data w h).2 = .ok (.bytes b) ∧ Spec.IsPythonImage b w h pixel := by
  unfold pybind
  rw [pySize_ok (by omega)]
  simp only [ha, if_true]
  obtain ⟨image', e, hl, hp⟩ := hdec (pyImage (w * h * 4) behind)
    (by rw [pyImage_length]; omega) (by rw [pyImage_length]; omega)
  have hsame := pyFn_same fn data w h ⟨pyImage (w * h * 4) behind, []⟩
  rw [e] at hsame
  obtain ⟨m, em, rfl⟩ := hsame.of_ok
  rw [em]
  refine ⟨_, rfl, pyBytes_image (by rw [hl, pyImage_length]; omega) hp⟩

/-- What Python gets from a Rust function that returns an error. -/
theorem pybind_error {alloc : Nat → Bool} {behind : Nat → UInt32} {fn : PyFn} {data : List UInt8}
    {w h : Nat} {msg : String} (hs : w * h < 2 ^ 59) (ha : alloc (w * h * 4) = true)
    (hdec : ∀ image : List UInt32, image.length < 2 ^ 61 → w * h ≤ image.length →
      ∃ image', rustFn fn data w h image = .ok (.error msg, image')) :
    (pybind alloc behind fn data w h).2 = .ok (.valueError msg) := by
  unfold pybind
  rw [pySize_ok (by omega)]
  simp only [ha, if_true]
  obtain ⟨image', e⟩ := hdec (pyImage (w * h * 4) behind)
    (by rw [pyImage_length]; omega) (by rw [pyImage_length]; omega)
  have hsame := pyFn_same fn data w h ⟨pyImage (w * h * 4) behind, []⟩
  rw [e] at hsame
  obtain ⟨m, em, _⟩ := hsame.of_ok
  rw [em]

omit [Build] in
/-- Sizes below `2 ^ 59` pixels fit. -/
theorem sizes_of_small {bw bh raw w h : Nat} {image : List UInt32} (hbw : 0 < bw) (hbh : 0 < bh)
    (hraw : raw ≤ 16) (hs : w * h < 2 ^ 59) (himg : image.length < 2 ^ 61) :
    Spec.SizesOk bw bh raw w h image := by
  refine ⟨himg, ?_, by omega⟩
  have c : ∀ a b, 0 < b → Spec.ceilDiv a b ≤ a := by
    intro a b hb
    unfold Spec.ceilDiv
    rw [Nat.div_le_iff_le_mul hb]
    rcases Nat.eq_zero_or_pos a with rfl | hp
    · omega
    · have := Nat.mul_le_mul hp hb
      have h2 : a * b = (a - 1) * (b - 1) + a + b - 1 := by
        obtain ⟨a, rfl⟩ := Nat.exists_eq_succ_of_ne_zero (by omega : a ≠ 0)
        obtain ⟨b, rfl⟩ := Nat.exists_eq_succ_of_ne_zero (by omega : b ≠ 0)
        simp only [Nat.succ_eq_add_one, Nat.add_sub_cancel]
        rw [Nat.add_mul, Nat.mul_add]; omega
      omega
  have h1 := Nat.mul_le_mul (c w bw hbw) (c h bh hbh)
  have h2 := Nat.mul_le_mul h1 hraw
  unfold Spec.bytesNeeded Spec.numBlocks
  omega

/-- The two outcomes for a decoder that meets the contract. -/
theorem pybind_contract {alloc : Nat → Bool} {behind : Nat → UInt32} {fn : PyFn}
    {data : List UInt8} {w h bw bh raw : Nat} {Legal : List UInt8 → Prop}
    {texel : List UInt8 → Nat → UInt32}
    (C : Spec.DecodesLegal (rustFn fn) bw bh raw Legal texel) (hbw : 0 < bw) (hbh : 0 < bh)
    (hraw : raw ≤ 16) (hs : w * h < 2 ^ 59) (ha : alloc (w * h * 4) = true) :
    (data.length < Spec.bytesNeeded bw bh raw w h →
      (pybind alloc behind fn data w h).2
        = .ok (.valueError "Not enough data to decode image!")) ∧
    (Spec.bytesNeeded bw bh raw w h ≤ data.length →
      (∀ k, k < Spec.numBlocks bw bh w h → Legal (Spec.blockBytes raw data k)) →
      ∃ b, (pybind alloc behind fn data w h).2 = .ok (.bytes b) ∧
        Spec.IsPythonImage b w h (Spec.pixelAt bw bh raw texel data w)) := by
  constructor
  · intro hd
    exact pybind_error hs ha fun image hi _ =>
      ⟨image, C.not_enough_data data w h image (sizes_of_small hbw hbh hraw hs hi) hd⟩
  · intro hd hlegal
    refine pybind_ok hs ha fun image hi hroom => ?_
    obtain ⟨image', e, D⟩ := C.success data w h image (sizes_of_small hbw hbh hraw hs hi) hd hroom
      hlegal
    exact ⟨image', e, D.length_eq, D.pixel⟩

end Proofs

end Verif

/-! ## Sizes that wrap -/

namespace Verif

/-- The function of the Python module for each of the formats with `4 × 4` blocks. -/
def pyFnOf : Spec.Format → Model.PyFn
  | .bc1 => .bc1
  | .bc1a => .bc1a
  | .bc2 => .bc2
  | .bc3 => .bc3
  | .bc4 => .bc4
  | .bc5 => .bc5
  | .bc6s => .bc6Signed
  | .bc6u => .bc6Unsigned
  | .bc7 => .bc7
  | .etc1 => .etc1
  | .etc2rgb => .etc2Rgb
  | .etc2rgba1 => .etc2Rgba1
  | .etc2rgba8 => .etc2Rgba8
  | .eacr => .eacr
  | .eacrs => .eacrSigned
  | .eacrg => .eacrg
  | .eacrgs => .eacrgSigned
  | .atcrgb => .atcRgb4
  | .atcrgba => .atcRgba8

theorem rustFn_pyFnOf [Build] (fmt : Spec.Format) : rustFn (pyFnOf fmt) = decoder fmt := by
  cases fmt <;> rfl

namespace Proofs

open Verif.Model

theorem Run.forRange_panic_first {σ : Type} {f : Nat → σ → Run σ} {s : σ} {m m' : Mem}
    (h : f 0 s m = (m', .panic)) : ∀ n, Run.forRange (n + 1) f s m = (m', .panic) := by
  intro n
  induction n with
  | zero =>
    show Run.bind (Run.forRange 0 f s) (f 0) m = _
    unfold Run.bind
    show f 0 s m = _
    exact h
  | succ n ih =>
    show Run.bind (Run.forRange (n + 1) f s) (f (n + 1)) m = _
    unfold Run.bind
    rw [ih]

theorem Run.lift_ok_bind {α β : Type} {a : α} {f : α → Run β} :
    (Run.lift (.ok a) >>= f) = f a := rfl

theorem Run.size_bind {β : Type} {f : Nat → Run β} {m : Mem} :
    (Run.size >>= f) m = f m.image.length m := rfl

theorem Run.bind_panic {α β : Type} {x : Run α} {f : α → Run β} {m m' : Mem}
    (h : x m = (m', .panic)) : (x >>= f) m = (m', .panic) := by
  show Run.bind x f m = _
  unfold Run.bind
  rw [h]

/-- The block function behind a function of the Python module. -/
theorem pyBlock [Build] (fmt : Spec.Format) : ∃ f,
    (pyFnOf fmt).decoder = blockDecoderR 4 4 fmt.blockSize f ∧
    ∀ blk : List UInt8, fmt.blockSize ≤ blk.length → fmt.Legal (blk.take fmt.blockSize) →
      ∃ buf, f blk (List.replicate (4 * 4) (color 0 0 0 255)) = .ok buf ∧ buf.length = 16 ∧
        ∀ i, i < 16 → buf[i]? = some (fmt.texel (blk.take fmt.blockSize) i) := by
  have use : ∀ {f : BlockFn} {raw : Nat} {Legal : List UInt8 → Prop}
      {texel : List UInt8 → Nat → UInt32} {Inv : List UInt32 → Prop},
      BlockContract f (4 * 4) raw Legal texel Inv → ∀ blk : List UInt8, raw ≤ blk.length →
        Legal (blk.take raw) → ∃ buf, f blk (List.replicate (4 * 4) (color 0 0 0 255)) = .ok buf ∧
          buf.length = 16 ∧ ∀ i, i < 16 → buf[i]? = some (texel (blk.take raw) i) := by
    intro f raw Legal texel Inv C blk hl hleg
    obtain ⟨buf, h1, _, h2, h3⟩ := C.step blk _ hl hleg C.init
    exact ⟨buf, h1, h2, h3⟩
  cases fmt
  case bc1 => exact ⟨_, rfl, use (bc1_contract false)⟩
  case bc1a => exact ⟨_, rfl, use (bc1_contract true)⟩
  case bc2 => exact ⟨_, rfl, use bc2_contract⟩
  case bc3 => exact ⟨_, rfl, use bc3_contract⟩
  case bc4 => exact ⟨_, rfl, use bc4_contract⟩
  case bc5 => exact ⟨_, rfl, use bc5_contract⟩
  case bc6s => exact ⟨_, rfl, use (bc6_contract true)⟩
  case bc6u => exact ⟨_, rfl, use (bc6_contract false)⟩
  case bc7 => exact ⟨_, rfl, use bc7_contract⟩
  case etc1 => exact ⟨_, rfl, use (contract_of_paints (fun _ _ => decodeEtc1_spec))⟩
  case etc2rgb => exact ⟨_, rfl, use (contract_of_paints (fun _ _ => decodeEtc2Rgb_spec))⟩
  case etc2rgba1 => exact ⟨_, rfl, use (contract_of_paints (fun _ _ => decodeEtc2Rgba1_spec))⟩
  case etc2rgba8 => exact ⟨_, rfl, use (contract_of_paints (fun _ _ => decodeEtc2Rgba8_spec))⟩
  case eacr => exact ⟨_, rfl, use (contract_of_paints (fun _ _ => eacr_spec false))⟩
  case eacrs => exact ⟨_, rfl, use (contract_of_paints (fun _ _ => eacr_spec true))⟩
  case eacrg => exact ⟨_, rfl, use (contract_of_paints (fun _ _ => eacrg_spec false))⟩
  case eacrgs => exact ⟨_, rfl, use (contract_of_paints (fun _ _ => eacrg_spec true))⟩
  case atcrgb => exact ⟨_, rfl, use (contract_of_paints (fun _ _ => decodeAtcRgb4_spec))⟩
  case atcrgba => exact ⟨_, rfl, use atcRgba8_contract⟩

section
attribute [local instance] Build.release

/-- The first block of an image of `2 ^ 63 + 1` by `2` pixels: the first row goes to `image[0..4]`,
the second one is out of range. -/
theorem copyBlockBufferR_wrap {buf : List UInt32} {a b c d e f g h : UInt32} {ws : List (Nat × Nat)}
    (hb : buf.length = 16) :
    copyBlockBufferR 0 0 (2 ^ 63 + 1) 2 4 4 buf ⟨[a, b, c, d, e, f, g, h], ws⟩
      = (⟨buf.take 4 ++ [e, f, g, h], ws ++ [(0, 4)]⟩, .panic) := by
  match buf, hb with
  | [p0, p1, p2, p3, p4, p5, p6, p7, p8, p9, p10, p11, p12, p13, p14, p15], _ => rfl

theorem blockDecoderR_wrap {raw : Nat} (hraw : raw = 8 ∨ raw = 16) {f : BlockFn} {blk : List UInt8}
    (hl : raw ≤ blk.length) {buf : List UInt32}
    (hf : f blk (List.replicate (4 * 4) (color 0 0 0 255)) = .ok buf) (hb : buf.length = 16)
    {a b c d e f' g h : UInt32} {ws : List (Nat × Nat)} :
    blockDecoderR 4 4 raw f blk (2 ^ 63 + 1) 2 ⟨[a, b, c, d, e, f', g, h], ws⟩
      = (⟨buf.take 4 ++ [e, f', g, h], ws ++ [(0, 4)]⟩, .panic) := by
  have hneed : mulU 64 (2 ^ 61 + 1) raw = .ok raw := by
    rcases hraw with rfl | rfl <;> rfl
  have d1 : divCeil (2 ^ 63 + 1) 4 = .ok (2 ^ 61 + 1) := rfl
  have d2 : divCeil 2 4 = .ok 1 := rfl
  have d3 : mulU 64 (2 ^ 61 + 1) 1 = .ok (2 ^ 61 + 1) := rfl
  have d4 : mulU 64 (2 ^ 63 + 1) 2 = .ok 2 := rfl
  generalize 2 ^ 61 = N at hneed d1 d3
  have body : (Run.forRange (N + 1) (fun bx (s : List UInt32 × Nat) => do
          let block ← Run.lift (sliceFrom blk s.2)
          let buffer ← Run.lift (f block s.1)
          let _ ← copyBlockBufferR bx 0 (2 ^ 63 + 1) 2 4 4 buffer
          let dataOffset ← Run.lift (addU 64 s.2 raw)
          pure (buffer, dataOffset)) (List.replicate (4 * 4) (color 0 0 0 255), 0))
      ⟨[a, b, c, d, e, f', g, h], ws⟩
      = (⟨buf.take 4 ++ [e, f', g, h], ws ++ [(0, 4)]⟩, .panic) := by
    apply Run.forRange_panic_first
    show Run.bind (Run.lift (sliceFrom blk 0)) _ _ = _
    have e0 : sliceFrom blk 0 = .ok blk := rfl
    rw [e0]
    show Run.bind (Run.lift (f blk _)) _ _ = _
    rw [hf]
    show Run.bind (copyBlockBufferR 0 0 (2 ^ 63 + 1) 2 4 4 buf) _ _ = _
    unfold Run.bind
    rw [copyBlockBufferR_wrap hb]
  unfold blockDecoderR
  rw [d1, Run.lift_ok_bind, d2, Run.lift_ok_bind, d3, Run.lift_ok_bind, hneed, Run.lift_ok_bind,
    if_neg (by omega), d4, Run.lift_ok_bind, Run.size_bind, if_neg (by show ¬ 8 < 2; decide)]
  exact Run.bind_panic (Run.forRange_panic_first body 0)

end

end Proofs

end Verif
