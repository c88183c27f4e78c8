import Verif.Model.Memory
import Verif.Model.Bc6
import Verif.Model.Bc7
import Verif.Model.Atc

/-!
# Model of the Python bindings (`bindings/python/src/lib.rs`)

Python's `bytes` objects, memory allocation and the conversion of panics into Python exceptions
belong to PyO3 and CPython; what is assumed about them is said at the definitions.
-/

namespace Verif.Model

open Verif

/-- How a call from Python ends (`bindings/python/src/lib.rs:63`), unless it panics (PyO3 turns a panic into a `PanicException`). -/
inductive PyResult where
  | bytes (b : List UInt8)
  | valueError (msg : String)
  | memoryError
deriving DecidableEq, Repr

/-- The functions bound with `pybind!`: `bindings/python/src/lib.rs:77-120` -/
inductive PyFn where
  | atcRgb4 | atcRgba8
  | astc4x4 | astc5x4 | astc5x5 | astc6x5 | astc6x6 | astc8x5 | astc8x6 | astc8x8 | astc10x5
  | astc10x6 | astc10x8 | astc10x10 | astc12x10 | astc12x12
  | bc1 | bc1a | bc2 | bc3 | bc4 | bc5 | bc6Signed | bc6Unsigned | bc7
  | etc1 | etc2Rgb | etc2Rgba1 | etc2Rgba8 | eacr | eacrSigned | eacrg | eacrgSigned
  | pvrtc2bpp | pvrtc4bpp
  | crunch | unityCrunch
deriving DecidableEq, Repr

variable [Build]

/-- `texture2ddecoder::$name` in `pybind!`: `bindings/python/src/lib.rs:66` -/
def PyFn.decoder : PyFn → List UInt8 → Nat → Nat → Run (Except String Unit)
  | .atcRgb4 => blockDecoderR 4 4 8 decodeAtcRgb4Block
  | .atcRgba8 => blockDecoderR 4 4 16 decodeAtcRgba8Block
  | .astc4x4 => fun d w h => decodeAstcR d w h 4 4
  | .astc5x4 => fun d w h => decodeAstcR d w h 5 4
  | .astc5x5 => fun d w h => decodeAstcR d w h 5 5
  | .astc6x5 => fun d w h => decodeAstcR d w h 6 5
  | .astc6x6 => fun d w h => decodeAstcR d w h 6 6
  | .astc8x5 => fun d w h => decodeAstcR d w h 8 5
  | .astc8x6 => fun d w h => decodeAstcR d w h 8 6
  | .astc8x8 => fun d w h => decodeAstcR d w h 8 8
  | .astc10x5 => fun d w h => decodeAstcR d w h 10 5
  | .astc10x6 => fun d w h => decodeAstcR d w h 10 6
  | .astc10x8 => fun d w h => decodeAstcR d w h 10 8
  | .astc10x10 => fun d w h => decodeAstcR d w h 10 10
  | .astc12x10 => fun d w h => decodeAstcR d w h 12 10
  | .astc12x12 => fun d w h => decodeAstcR d w h 12 12
  | .bc1 => blockDecoderR 4 4 8 decodeBc1Block
  | .bc1a => blockDecoderR 4 4 8 decodeBc1aBlock
  | .bc2 => blockDecoderR 4 4 16 decodeBc2Block
  | .bc3 => blockDecoderR 4 4 16 decodeBc3Block
  | .bc4 => blockDecoderR 4 4 8 decodeBc4Block
  | .bc5 => blockDecoderR 4 4 16 decodeBc5Block
  | .bc6Signed => blockDecoderR 4 4 16 decodeBc6BlockSigned
  | .bc6Unsigned => blockDecoderR 4 4 16 decodeBc6BlockUnsigned
  | .bc7 => blockDecoderR 4 4 16 decodeBc7Block
  | .etc1 => blockDecoderR 4 4 8 decodeEtc1Block
  | .etc2Rgb => blockDecoderR 4 4 8 decodeEtc2RgbBlock
  | .etc2Rgba1 => blockDecoderR 4 4 8 decodeEtc2Rgba1Block
  | .etc2Rgba8 => blockDecoderR 4 4 16 decodeEtc2Rgba8Block
  | .eacr => blockDecoderR 4 4 8 decodeEacrBlock
  | .eacrSigned => blockDecoderR 4 4 8 decodeEacrSignedBlock
  | .eacrg => blockDecoderR 4 4 16 decodeEacrgBlock
  | .eacrgSigned => blockDecoderR 4 4 16 decodeEacrgSignedBlock
  | .pvrtc2bpp => decodePvrtcR true
  | .pvrtc4bpp => decodePvrtcR false
  | .crunch => decodeCrunchR
  | .unityCrunch => decodeUnityCrunchR

/-- `width * height * 4`: `bindings/python/src/lib.rs:64` -/
def pySize (width height : Nat) : Out Nat := do
  let n ← mulU 64 width height
  mulU 64 n 4

/-- The slice `image_u32`: `bindings/python/src/lib.rs:64-65`. `PyBytes::new_with` hands over the
`n` bytes of a new object, all zero; `transmute` keeps the number `n` but counts words of four
bytes. So the first `n / 4` elements are the object, and the other ones are whatever lies behind it
in memory, here `behind 0`, `behind 1`, ... -/
def pyImage (n : Nat) (behind : Nat → UInt32) : List UInt32 :=
  List.replicate (n / 4) 0 ++ (List.range (n - n / 4)).map behind

/-- The bytes of the object that `PyBytes::new_with` returns (`bindings/python/src/lib.rs:64`): the words in memory order, little endian. -/
def pyBytes (n : Nat) (image : List UInt32) : List UInt8 :=
  (image.take (n / 4)).flatMap fun (p : UInt32) =>
    [p.toUInt8, (p >>> 8).toUInt8, (p >>> 16).toUInt8, (p >>> 24).toUInt8]

/-- A function bound with `pybind!`: `bindings/python/src/lib.rs:59-75`, together with the memory it
leaves behind. `alloc n` tells whether Python can allocate an object of `n` bytes; if not,
`PyBytes::new_with` returns the error at once. -/
def pybind (alloc : Nat → Bool) (behind : Nat → UInt32) (fn : PyFn) (data : List UInt8)
    (width height : Nat) : Mem × Out PyResult :=
  match pySize width height with
  | .panic => (⟨[], []⟩, .panic)
  | .ok n =>
    if alloc n then
      match fn.decoder data width height ⟨pyImage n behind, []⟩ with
      | (m, .ok (.ok _)) => (m, .ok (.bytes (pyBytes n m.image)))
      | (m, .ok (.error e)) => (m, .ok (.valueError e))
      | (m, .panic) => (m, .panic)
    else (⟨[], []⟩, .ok .memoryError)

/-- `decode_astc` of the Python module: `bindings/python/src/lib.rs:122-145`. The result of the
decoder goes through `unwrap_err`, which panics on `Ok`. -/
def pyDecodeAstc (alloc : Nat → Bool) (behind : Nat → UInt32) (data : List UInt8)
    (width height bw bh : Nat) : Mem × Out PyResult :=
  match pySize width height with
  | .panic => (⟨[], []⟩, .panic)
  | .ok n =>
    if alloc n then
      match decodeAstcR data width height bw bh ⟨pyImage n behind, []⟩ with
      | (m, .ok (.ok _)) => (m, .panic)
      | (m, .ok (.error _)) => (m, .ok (.bytes (pyBytes n m.image)))
      | (m, .panic) => (m, .panic)
    else (⟨[], []⟩, .ok .memoryError)

end Verif.Model
