import Verif.Props.Memory
import Verif.Props.CrnSizes
import Verif.Proofs.ErrKeeps

/-!
# Properties C02, C03 and C65 for every whole-image function

Here nothing is assumed about the dimensions or the contents of the data: Crunch files may be damaged,
blocks may be illegal, and the products of the dimensions may overflow.
-/

namespace Verif.Props

open Verif Verif.Proofs Verif.Model

/-- **C02** All functions and all arguments: an error leaves the image untouched. -/
theorem C02_all_functions [Build] (fn : PyFn) (data : List UInt8) (w h : Nat)
    (image image' : List UInt32) (msg : String)
    (herr : rustFn fn data w h image = .ok (.error msg, image')) : image' = image :=
  rustFn_errKeeps fn data w h image _ herr msg rfl

/-- **C02** `decode_astc` with any block size. -/
theorem C02_astc_any_block_size [Build] (data : List UInt8) (w h bw bh : Nat)
    (image image' : List UInt32) (msg : String)
    (herr : decodeAstc data w h bw bh image = .ok (.error msg, image')) : image' = image :=
  decodeAstc_errKeeps _ herr msg rfl

/-- An error of `decode_crunch`: a file cut to 70 bytes. -/
example : @rustFn Build.debug .crunch (CrnDemo.crnDxt1.take 70) 12 9 [1, 2, 3] =
    .ok (.error "Invalid crunch texture encoding.", [1, 2, 3]) :=
  @C54_refused Build.debug (CrnDemo.crnDxt1.take 70) (by decide +kernel) (.inl (by decide +kernel))
    12 9 [1, 2, 3]

/-- An error of `decode_astc`: a block of 13×12 texels. -/
example : @decodeAstc Build.debug (List.replicate 16 0) 4 4 13 12 (List.replicate 16 7) =
    .ok (.error "Block size is too big!", List.replicate 16 7) := rfl

/-- **C65** All functions: `Ok` means that the image buffer holds the pixels. Nothing is assumed about
the contents of the data. -/
theorem C65_all_functions [Build] (fn : PyFn) (data : List UInt8) (w h : Nat)
    (image image' : List UInt32) (hw : w < 2 ^ 64) (hh : h < 2 ^ 64) (hd : data.length < 2 ^ 60)
    (hcrn : fn = .crunch ∨ fn = .unityCrunch → data.length < 2 ^ 32) (hi : image.length < 2 ^ 61)
    (hok : rustFn fn data w h image = .ok (.ok (), image')) : w * h ≤ image.length := by
  have hd3 : data.length < 2 ^ 63 := by omega
  have hd2 : data.length < 2 ^ 62 := by omega
  revert hok
  exact match fn with
  | .atcRgb4 => fun hok => (C65_ok_means_sizes_fit .atcrgb data w h image image' hd3 hi hok).2
  | .atcRgba8 => fun hok => (C65_ok_means_sizes_fit .atcrgba data w h image image' hd3 hi hok).2
  | .bc1 => fun hok => (C65_ok_means_sizes_fit .bc1 data w h image image' hd3 hi hok).2
  | .bc1a => fun hok => (C65_ok_means_sizes_fit .bc1a data w h image image' hd3 hi hok).2
  | .bc2 => fun hok => (C65_ok_means_sizes_fit .bc2 data w h image image' hd3 hi hok).2
  | .bc3 => fun hok => (C65_ok_means_sizes_fit .bc3 data w h image image' hd3 hi hok).2
  | .bc4 => fun hok => (C65_ok_means_sizes_fit .bc4 data w h image image' hd3 hi hok).2
  | .bc5 => fun hok => (C65_ok_means_sizes_fit .bc5 data w h image image' hd3 hi hok).2
  | .bc6Signed => fun hok => (C65_ok_means_sizes_fit .bc6s data w h image image' hd3 hi hok).2
  | .bc6Unsigned => fun hok => (C65_ok_means_sizes_fit .bc6u data w h image image' hd3 hi hok).2
  | .bc7 => fun hok => (C65_ok_means_sizes_fit .bc7 data w h image image' hd3 hi hok).2
  | .etc1 => fun hok => (C65_ok_means_sizes_fit .etc1 data w h image image' hd3 hi hok).2
  | .etc2Rgb => fun hok => (C65_ok_means_sizes_fit .etc2rgb data w h image image' hd3 hi hok).2
  | .etc2Rgba1 => fun hok => (C65_ok_means_sizes_fit .etc2rgba1 data w h image image' hd3 hi hok).2
  | .etc2Rgba8 => fun hok => (C65_ok_means_sizes_fit .etc2rgba8 data w h image image' hd3 hi hok).2
  | .eacr => fun hok => (C65_ok_means_sizes_fit .eacr data w h image image' hd3 hi hok).2
  | .eacrSigned => fun hok => (C65_ok_means_sizes_fit .eacrs data w h image image' hd3 hi hok).2
  | .eacrg => fun hok => (C65_ok_means_sizes_fit .eacrg data w h image image' hd3 hi hok).2
  | .eacrgSigned => fun hok => (C65_ok_means_sizes_fit .eacrgs data w h image image' hd3 hi hok).2
  | .astc4x4 => fun hok => (C65_astc_ok_means_sizes_fit 4 4 (by decide) (by decide) (by decide)
    data w h image image' hd hi hok).2
  | .astc5x4 => fun hok => (C65_astc_ok_means_sizes_fit 5 4 (by decide) (by decide) (by decide)
    data w h image image' hd hi hok).2
  | .astc5x5 => fun hok => (C65_astc_ok_means_sizes_fit 5 5 (by decide) (by decide) (by decide)
    data w h image image' hd hi hok).2
  | .astc6x5 => fun hok => (C65_astc_ok_means_sizes_fit 6 5 (by decide) (by decide) (by decide)
    data w h image image' hd hi hok).2
  | .astc6x6 => fun hok => (C65_astc_ok_means_sizes_fit 6 6 (by decide) (by decide) (by decide)
    data w h image image' hd hi hok).2
  | .astc8x5 => fun hok => (C65_astc_ok_means_sizes_fit 8 5 (by decide) (by decide) (by decide)
    data w h image image' hd hi hok).2
  | .astc8x6 => fun hok => (C65_astc_ok_means_sizes_fit 8 6 (by decide) (by decide) (by decide)
    data w h image image' hd hi hok).2
  | .astc8x8 => fun hok => (C65_astc_ok_means_sizes_fit 8 8 (by decide) (by decide) (by decide)
    data w h image image' hd hi hok).2
  | .astc10x5 => fun hok => (C65_astc_ok_means_sizes_fit 10 5 (by decide) (by decide) (by decide)
    data w h image image' hd hi hok).2
  | .astc10x6 => fun hok => (C65_astc_ok_means_sizes_fit 10 6 (by decide) (by decide) (by decide)
    data w h image image' hd hi hok).2
  | .astc10x8 => fun hok => (C65_astc_ok_means_sizes_fit 10 8 (by decide) (by decide) (by decide)
    data w h image image' hd hi hok).2
  | .astc10x10 => fun hok => (C65_astc_ok_means_sizes_fit 10 10 (by decide) (by decide) (by decide)
    data w h image image' hd hi hok).2
  | .astc12x10 => fun hok => (C65_astc_ok_means_sizes_fit 12 10 (by decide) (by decide) (by decide)
    data w h image image' hd hi hok).2
  | .astc12x12 => fun hok => (C65_astc_ok_means_sizes_fit 12 12 (by decide) (by decide) (by decide)
    data w h image image' hd hi hok).2
  | .pvrtc2bpp => fun hok => (C65_pvrtc_ok_means_sizes_fit true data w h image image' hw hh hd2 hi hok).2
  | .pvrtc4bpp => fun hok => (C65_pvrtc_ok_means_sizes_fit false data w h image image' hw hh hd2 hi hok).2
  | .crunch => fun hok =>
    (C65_crunch_ok_means_sizes_fit data (hcrn (.inl rfl)) w h image image' hi hok).2
  | .unityCrunch => fun hok =>
    (C65_unity_ok_means_sizes_fit data (hcrn (.inr rfl)) w h image image' hi hok).2

/-- **C03** All functions: a successful decode writes only the first `w * h` pixels, whatever the
dimensions and the contents of the data are. -/
theorem C03_all_functions [Build] (fn : PyFn) (data : List UInt8) (w h : Nat)
    (image image' : List UInt32) (hw : w < 2 ^ 64) (hh : h < 2 ^ 64) (hd : data.length < 2 ^ 60)
    (hcrn : fn = .crunch ∨ fn = .unityCrunch → data.length < 2 ^ 32) (hi : image.length < 2 ^ 61)
    (hok : rustFn fn data w h image = .ok (.ok (), image')) :
    image'.length = image.length ∧ ∀ i, w * h ≤ i → image'[i]? = image[i]? := by
  have hwh := C65_all_functions fn data w h image image' hw hh hd hcrn hi hok
  have key := (C59_writes_inside fn data w h image (by omega) hi).2
  have hs := C59_same_programs fn data w h image
  rw [hok] at hs
  generalize fn.decoder data w h ⟨image, []⟩ = x at key hs
  obtain ⟨m, o⟩ := x
  cases o with
  | panic => cases hs
  | ok r =>
    injection hs with hs
    injection hs with _ hs
    rw [hs]
    exact key

/-- A success of `decode_crunch` with room to spare. -/
example : ∃ image', @rustFn Build.release .crunch CrnDemo.crnFaces 4 8 (List.replicate 40 7) =
    .ok (.ok (), image') ∧ image'[32]? = some 7 := by
  letI := Build.release
  have h : Spec.Crn.unpack CrnDemo.crnFaces = some ((Spec.Crn.unpack CrnDemo.crnFaces).getD []) := by
    decide +kernel
  obtain ⟨i, e, _⟩ := C51_pixels CrnDemo.crnFaces _ h
    ⟨by decide +kernel, ⟨by decide +kernel, by decide +kernel, by decide +kernel⟩, by decide +kernel,
      by decide +kernel, by decide +kernel⟩ (List.replicate 40 7) (by decide) (by decide +kernel)
  rw [show Spec.Crn.width CrnDemo.crnFaces = 4 by decide +kernel,
    show Spec.Crn.height CrnDemo.crnFaces = 8 by decide +kernel] at e
  have e : rustFn .crunch CrnDemo.crnFaces 4 8 (List.replicate 40 7) = .ok (.ok (), i) := e
  exact ⟨i, e, (C03_all_functions .crunch CrnDemo.crnFaces 4 8 (List.replicate 40 7) i (by decide) (by decide) (by decide +kernel)
    (fun _ => by decide +kernel) (by decide) e).2 32 (by decide)⟩

end Verif.Props
