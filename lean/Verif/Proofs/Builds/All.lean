import Verif.Proofs.Builds.Target32
import Verif.Proofs.Python
import Verif.Proofs.Target32

/-! The 37 decoding functions, and those of the 32-bit model, in builds with and without overflow checks -/

namespace Verif.Proofs.Builds

open Verif Verif.Model

theorem rustFn_builds {fn : PyFn} {data : List UInt8} {w h : Nat} {image : List UInt32} :
    LeO (@rustFn Build.debug fn data w h image) (@rustFn Build.release fn data w h image) := by
  cases fn with
  | atcRgb4 => exact decodeAtcRgb4_builds
  | atcRgba8 => exact decodeAtcRgba8_builds
  | astc4x4 => exact decodeAstc4x4_builds
  | astc5x4 => exact decodeAstc5x4_builds
  | astc5x5 => exact decodeAstc5x5_builds
  | astc6x5 => exact decodeAstc6x5_builds
  | astc6x6 => exact decodeAstc6x6_builds
  | astc8x5 => exact decodeAstc8x5_builds
  | astc8x6 => exact decodeAstc8x6_builds
  | astc8x8 => exact decodeAstc8x8_builds
  | astc10x5 => exact decodeAstc10x5_builds
  | astc10x6 => exact decodeAstc10x6_builds
  | astc10x8 => exact decodeAstc10x8_builds
  | astc10x10 => exact decodeAstc10x10_builds
  | astc12x10 => exact decodeAstc12x10_builds
  | astc12x12 => exact decodeAstc12x12_builds
  | bc1 => exact decodeBc1_builds
  | bc1a => exact decodeBc1a_builds
  | bc2 => exact decodeBc2_builds
  | bc3 => exact decodeBc3_builds
  | bc4 => exact decodeBc4_builds
  | bc5 => exact decodeBc5_builds
  | bc6Signed => exact decodeBc6Signed_builds
  | bc6Unsigned => exact decodeBc6Unsigned_builds
  | bc7 => exact decodeBc7_builds
  | etc1 => exact decodeEtc1_builds
  | etc2Rgb => exact decodeEtc2Rgb_builds
  | etc2Rgba1 => exact decodeEtc2Rgba1_builds
  | etc2Rgba8 => exact decodeEtc2Rgba8_builds
  | eacr => exact decodeEacr_builds
  | eacrSigned => exact decodeEacrSigned_builds
  | eacrg => exact decodeEacrg_builds
  | eacrgSigned => exact decodeEacrgSigned_builds
  | pvrtc2bpp => exact decodePvrtc2bpp_builds
  | pvrtc4bpp => exact decodePvrtc4bpp_builds
  | crunch => exact Crn_decodeCrunch_builds
  | unityCrunch => exact Crn_Unity_decodeUnityCrunch_builds

theorem blockFn32_builds {fmt : Spec.Format} {data : List UInt8} {out : List UInt32} :
    LeO (@blockFn32 Build.debug fmt data out) (@blockFn32 Build.release fmt data out) := by
  cases fmt with
  | bc1 => exact decodeBc1Block_builds
  | bc1a => exact decodeBc1aBlock_builds
  | bc2 => exact decodeBc2Block_builds
  | bc3 => exact decodeBc3Block32_builds
  | bc4 => exact decodeBc4Block32_builds
  | bc5 => exact decodeBc5Block32_builds
  | bc6s => exact decodeBc6BlockSigned_builds
  | bc6u => exact decodeBc6BlockUnsigned_builds
  | bc7 => exact decodeBc7Block_builds
  | etc1 => exact decodeEtc1Block_builds
  | etc2rgb => exact decodeEtc2RgbBlock_builds
  | etc2rgba1 => exact decodeEtc2Rgba1Block_builds
  | etc2rgba8 => exact decodeEtc2Rgba8Block32_builds
  | eacr => exact decodeEacrBlock32_builds
  | eacrs => exact decodeEacrSignedBlock32_builds
  | eacrg => exact decodeEacrgBlock32_builds
  | eacrgs => exact decodeEacrgSignedBlock32_builds
  | atcrgb => exact decodeAtcRgb4Block_builds
  | atcrgba => exact decodeAtcRgba8Block32_builds

theorem decoder32_builds {fmt : Spec.Format} {data : List UInt8} {w h : Nat} {image : List UInt32} :
    LeO (@decoder32 Build.debug fmt data w h image) (@decoder32 Build.release fmt data w h image) :=
  blockDecoder32_builds fun _ _ => blockFn32_builds

end Verif.Proofs.Builds
