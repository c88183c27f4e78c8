import Verif.Proofs.Python
import Verif.Proofs.Crn.AnyFile

/-!
# An error leaves the image as it was

For every whole-image function and all arguments.
-/

namespace Verif.Proofs

open Verif Verif.Model Verif.Proofs.Crn

/-- An error comes with the image as it was. -/
abbrev ErrKeeps (image : List UInt32) (x : Out (Except String Unit × List UInt32)) : Prop :=
  AfterOut (fun r => ∀ m, r.1 = .error m → r.2 = image) x

theorem errKeeps_ok {image image' : List UInt32} :
    ErrKeeps image (pure (.ok (), image') : Out (Except String Unit × List UInt32)) :=
  .ok fun m h => nomatch h

theorem errKeeps_err {image : List UInt32} {m : String} :
    ErrKeeps image (pure (.error m, image) : Out (Except String Unit × List UInt32)) :=
  .ok fun _ _ => rfl

variable [Build]

theorem blockDecoder_errKeeps {bw bh raw : Nat} {f : BlockFn} {data : List UInt8} {w h : Nat}
    {image : List UInt32} : ErrKeeps image (blockDecoder bw bh raw f data w h image) := by
  unfold blockDecoder
  refine .any fun _ => .any fun _ => .any fun _ => .any fun _ => ?_
  split
  · exact errKeeps_err
  refine .any fun _ => ?_
  split
  · exact errKeeps_err
  exact .any fun _ => errKeeps_ok

theorem decodeAstc_errKeeps {data : List UInt8} {w h bw bh : Nat} {image : List UInt32} :
    ErrKeeps image (decodeAstc data w h bw bh image) := by
  unfold decodeAstc
  refine .any fun _ => .any fun _ => .any fun _ => .any fun _ => ?_
  split
  · exact errKeeps_err
  refine .any fun _ => ?_
  split
  · exact errKeeps_err
  refine .any fun _ => ?_
  split
  · exact errKeeps_err
  exact .any fun _ => errKeeps_ok

theorem decodePvrtc_errKeeps {data : List UInt8} {w h : Nat} {image : List UInt32} {w2 : Bool} :
    ErrKeeps image (decodePvrtc data w h image w2) := by
  unfold decodePvrtc
  refine .any fun _ => .any fun _ => .any fun _ => .any fun need => ?_
  rcases Nat.lt_or_ge data.length need with h1 | h1
  · rw [if_pos h1]; exact errKeeps_err
  rw [if_neg (Nat.not_lt.mpr h1)]
  refine .any fun p => ?_
  rcases Nat.lt_or_ge image.length p with h2 | h2
  · rw [if_pos h2]; exact errKeeps_err
  rw [if_neg (Nat.not_lt.mpr h2)]
  refine .any fun _ => .any fun bad => ?_
  cases bad
  · rw [if_neg (by decide)]
    exact .any fun _ => .any fun _ => errKeeps_ok
  · rw [if_pos rfl]; exact errKeeps_err

theorem decodeCrunch_errKeeps {data : List UInt8} {w h : Nat} {image : List UInt32} :
    ErrKeeps image (Crn.decodeCrunch data w h image) := by
  unfold Crn.decodeCrunch
  split
  · intro r e; cases e
  · exact errKeeps_err
  · split
    all_goals first | exact blockDecoder_errKeeps | exact errKeeps_err

theorem decodeUnityCrunch_errKeeps {data : List UInt8} {w h : Nat} {image : List UInt32} :
    ErrKeeps image (Crn.Unity.decodeUnityCrunch data w h image) := by
  unfold Crn.Unity.decodeUnityCrunch
  split
  · intro r e; cases e
  · exact errKeeps_err
  · split
    all_goals first | exact blockDecoder_errKeeps | exact errKeeps_err

theorem rustFn_errKeeps (fn : PyFn) (data : List UInt8) (w h : Nat) (image : List UInt32) :
    ErrKeeps image (rustFn fn data w h image) :=
  match fn with
  | .atcRgb4 => blockDecoder_errKeeps
  | .atcRgba8 => blockDecoder_errKeeps
  | .bc1 => blockDecoder_errKeeps
  | .bc1a => blockDecoder_errKeeps
  | .bc2 => blockDecoder_errKeeps
  | .bc3 => blockDecoder_errKeeps
  | .bc4 => blockDecoder_errKeeps
  | .bc5 => blockDecoder_errKeeps
  | .bc6Signed => blockDecoder_errKeeps
  | .bc6Unsigned => blockDecoder_errKeeps
  | .bc7 => blockDecoder_errKeeps
  | .etc1 => blockDecoder_errKeeps
  | .etc2Rgb => blockDecoder_errKeeps
  | .etc2Rgba1 => blockDecoder_errKeeps
  | .etc2Rgba8 => blockDecoder_errKeeps
  | .eacr => blockDecoder_errKeeps
  | .eacrSigned => blockDecoder_errKeeps
  | .eacrg => blockDecoder_errKeeps
  | .eacrgSigned => blockDecoder_errKeeps
  | .astc4x4 => decodeAstc_errKeeps
  | .astc5x4 => decodeAstc_errKeeps
  | .astc5x5 => decodeAstc_errKeeps
  | .astc6x5 => decodeAstc_errKeeps
  | .astc6x6 => decodeAstc_errKeeps
  | .astc8x5 => decodeAstc_errKeeps
  | .astc8x6 => decodeAstc_errKeeps
  | .astc8x8 => decodeAstc_errKeeps
  | .astc10x5 => decodeAstc_errKeeps
  | .astc10x6 => decodeAstc_errKeeps
  | .astc10x8 => decodeAstc_errKeeps
  | .astc10x10 => decodeAstc_errKeeps
  | .astc12x10 => decodeAstc_errKeeps
  | .astc12x12 => decodeAstc_errKeeps
  | .pvrtc2bpp => decodePvrtc_errKeeps
  | .pvrtc4bpp => decodePvrtc_errKeeps
  | .crunch => decodeCrunch_errKeeps
  | .unityCrunch => decodeUnityCrunch_errKeeps

end Verif.Proofs
