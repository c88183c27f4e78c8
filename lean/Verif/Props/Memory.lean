import Verif.Proofs.Python
import Verif.Props.Bc6

/-!
# Property C59: what the decoders write

Here a decoder is a program that works on the caller's image (`Verif/Model/Memory.lean`), so that
the image is also known after a panic. `C59_same_programs` says that the programs are the functions
which the other properties are about.
-/

namespace Verif.Props

open Verif Verif.Proofs Verif.Model

/-- **C59** The programs with an image as memory, and the functions from the old to the new image,
return the same results and the same images, and panic on the same inputs. -/
theorem C59_same_programs [Build] (fn : PyFn) (data : List UInt8) (w h : Nat)
    (image : List UInt32) :
    rustFn fn data w h image = match fn.decoder data w h ⟨image, []⟩ with
      | (m, .ok r) => .ok (r, m.image)
      | (_, .panic) => .panic := by
  have := pyFn_same fn data w h ⟨image, []⟩
  generalize fn.decoder data w h ⟨image, []⟩ = x at this ⊢
  obtain ⟨m, o⟩ := x
  cases o <;> exact this

/-- **C59** The same for `decode_astc`. -/
theorem C59_same_astc [Build] (data : List UInt8) (w h bw bh : Nat) (image : List UInt32) :
    decodeAstc data w h bw bh image = match decodeAstcR data w h bw bh ⟨image, []⟩ with
      | (m, .ok r) => .ok (r, m.image)
      | (_, .panic) => .panic := by
  have := decodeAstcR_same (data := data) (w := w) (h := h) (bw := bw) (bh := bh) (m := ⟨image, []⟩)
  generalize decodeAstcR data w h bw bh ⟨image, []⟩ = x at this ⊢
  obtain ⟨m, o⟩ := x
  cases o <;> exact this

/-- **C59** Whatever the data, no decoder writes behind the first `width * height` elements of the
image or changes anything there, not even on the way to an error or a panic. -/
theorem C59_writes_inside [Build] (fn : PyFn) (data : List UInt8) (w h : Nat) (image : List UInt32)
    (hwh : w * h < 2 ^ 64) (himg : image.length < 2 ^ 61) :
    (∀ a b, (a, b) ∈ (fn.decoder data w h ⟨image, []⟩).1.writes → b ≤ w * h) ∧
    (fn.decoder data w h ⟨image, []⟩).1.image.length = image.length ∧
    ∀ i, w * h ≤ i → (fn.decoder data w h ⟨image, []⟩).1.image[i]? = image[i]? := by
  have key := pyFn_inside fn data w h hwh ⟨image, []⟩ himg (by intro r hr; cases hr)
  exact ⟨fun a b hm => key.1 (a, b) hm, key.2⟩

/-- **C59** The same for `decode_astc` and any block size. -/
theorem C59_astc_writes_inside [Build] (data : List UInt8) (w h bw bh : Nat) (image : List UInt32)
    (hwh : w * h < 2 ^ 64) (hbw : bw < 2 ^ 64) (hbh : bh < 2 ^ 64) (himg : image.length < 2 ^ 61) :
    (∀ a b, (a, b) ∈ (decodeAstcR data w h bw bh ⟨image, []⟩).1.writes → b ≤ w * h) ∧
    (decodeAstcR data w h bw bh ⟨image, []⟩).1.image.length = image.length ∧
    ∀ i, w * h ≤ i → (decodeAstcR data w h bw bh ⟨image, []⟩).1.image[i]? = image[i]? := by
  have key := decodeAstcR_inside (data := data) hwh hbw hbh ⟨image, []⟩ himg
    (by intro r hr; cases hr)
  exact ⟨fun a b hm => key.1 (a, b) hm, key.2⟩

/-- A `5 × 2` BC6H image whose second block has mode 15 (C22): the decoder panics there in a build
with overflow checks, with the first block already written, and the two elements behind the image
keep their values. -/
example : (@PyFn.decoder Build.debug .bc6Unsigned
      (3 :: List.replicate 15 0 ++ bc6Mode15) 5 2 ⟨List.replicate 12 7, []⟩).2 = .panic ∧
    (@PyFn.decoder Build.debug .bc6Unsigned
      (3 :: List.replicate 15 0 ++ bc6Mode15) 5 2 ⟨List.replicate 12 7, []⟩).1.writes
        = [(0, 4), (5, 9)] ∧
    (@PyFn.decoder Build.debug .bc6Unsigned
      (3 :: List.replicate 15 0 ++ bc6Mode15) 5 2 ⟨List.replicate 12 7, []⟩).1.image
        = [0xff000000, 0xff000000, 0xff000000, 0xff000000, 7, 0xff000000, 0xff000000, 0xff000000,
            0xff000000, 7, 7, 7] :=
  ⟨rfl, by decide +kernel, by decide +kernel⟩

end Verif.Props
