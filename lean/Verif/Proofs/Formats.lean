import Verif.Spec.Formats
import Verif.Proofs.Bcn
import Verif.Proofs.Bc7Block
import Verif.Proofs.Bc6Block
import Verif.Proofs.Eac
import Verif.Proofs.Atc

/-! # All generated whole-image decoders satisfy the whole-image contract -/

namespace Verif

/-- The model of the whole-image decoder of each format. -/
def decoder [Build] : Spec.Format → List UInt8 → Nat → Nat → List UInt32 →
    Out (Except String Unit × List UInt32)
  | .bc1 => Model.decodeBc1
  | .bc1a => Model.decodeBc1a
  | .bc2 => Model.decodeBc2
  | .bc3 => Model.decodeBc3
  | .bc4 => Model.decodeBc4
  | .bc5 => Model.decodeBc5
  | .bc6s => Model.decodeBc6Signed
  | .bc6u => Model.decodeBc6Unsigned
  | .bc7 => Model.decodeBc7
  | .etc1 => Model.decodeEtc1
  | .etc2rgb => Model.decodeEtc2Rgb
  | .etc2rgba1 => Model.decodeEtc2Rgba1
  | .etc2rgba8 => Model.decodeEtc2Rgba8
  | .eacr => Model.decodeEacr
  | .eacrs => Model.decodeEacrSigned
  | .eacrg => Model.decodeEacrg
  | .eacrgs => Model.decodeEacrgSigned
  | .atcrgb => Model.decodeAtcRgb4
  | .atcrgba => Model.decodeAtcRgba8

/-- The block function of each format. -/
def blockFn [Build] : Spec.Format → List UInt8 → List UInt32 → Out (List UInt32)
  | .bc1 => Model.decodeBc1Block
  | .bc1a => Model.decodeBc1aBlock
  | .bc2 => Model.decodeBc2Block
  | .bc3 => Model.decodeBc3Block
  | .bc4 => Model.decodeBc4Block
  | .bc5 => Model.decodeBc5Block
  | .bc6s => Model.decodeBc6BlockSigned
  | .bc6u => Model.decodeBc6BlockUnsigned
  | .bc7 => Model.decodeBc7Block
  | .etc1 => Model.decodeEtc1Block
  | .etc2rgb => Model.decodeEtc2RgbBlock
  | .etc2rgba1 => Model.decodeEtc2Rgba1Block
  | .etc2rgba8 => Model.decodeEtc2Rgba8Block
  | .eacr => Model.decodeEacrBlock
  | .eacrs => Model.decodeEacrSignedBlock
  | .eacrg => Model.decodeEacrgBlock
  | .eacrgs => Model.decodeEacrgSignedBlock
  | .atcrgb => Model.decodeAtcRgb4Block
  | .atcrgba => Model.decodeAtcRgba8Block

namespace Proofs

open Verif.Model

variable [Build]

theorem decodes4 {f : BlockFn} {raw : Nat} {Legal : List UInt8 → Prop}
    {texel : List UInt8 → Nat → UInt32} {Inv : List UInt32 → Prop} (hraw : 0 < raw)
    (C : BlockContract f (4 * 4) raw Legal texel Inv) :
    Spec.DecodesLegal (blockDecoder 4 4 raw f) 4 4 raw Legal texel :=
  blockDecoder_spec (by omega) (by omega) hraw (by omega) C

theorem blockFn_contract (fmt : Spec.Format) :
    ∃ Inv, BlockContract (blockFn fmt) (4 * 4) fmt.blockSize fmt.Legal fmt.texel Inv := by
  cases fmt
  case bc1 => exact ⟨_, bc1_contract false⟩
  case bc1a => exact ⟨_, bc1_contract true⟩
  case bc2 => exact ⟨_, bc2_contract⟩
  case bc3 => exact ⟨_, bc3_contract⟩
  case bc4 => exact ⟨_, bc4_contract⟩
  case bc5 => exact ⟨_, bc5_contract⟩
  case bc6s => exact ⟨_, bc6_contract true⟩
  case bc6u => exact ⟨_, bc6_contract false⟩
  case bc7 => exact ⟨_, bc7_contract⟩
  case etc1 => exact ⟨_, contract_of_paints (fun _ _ => decodeEtc1_spec)⟩
  case etc2rgb => exact ⟨_, contract_of_paints (fun _ _ => decodeEtc2Rgb_spec)⟩
  case etc2rgba1 => exact ⟨_, contract_of_paints (fun _ _ => decodeEtc2Rgba1_spec)⟩
  case etc2rgba8 => exact ⟨_, contract_of_paints (fun _ _ => decodeEtc2Rgba8_spec)⟩
  case eacr => exact ⟨_, contract_of_paints (fun _ _ => eacr_spec false)⟩
  case eacrs => exact ⟨_, contract_of_paints (fun _ _ => eacr_spec true)⟩
  case eacrg => exact ⟨_, contract_of_paints (fun _ _ => eacrg_spec false)⟩
  case eacrgs => exact ⟨_, contract_of_paints (fun _ _ => eacrg_spec true)⟩
  case atcrgb => exact ⟨_, contract_of_paints (fun _ _ => decodeAtcRgb4_spec)⟩
  case atcrgba => exact ⟨_, atcRgba8_contract⟩

theorem decoder_blockFn (fmt : Spec.Format) :
    decoder fmt = blockDecoder 4 4 fmt.blockSize (blockFn fmt) := by
  cases fmt <;> rfl

theorem blockSize_pos (fmt : Spec.Format) : 0 < fmt.blockSize := by cases fmt <;> decide

theorem decoder_spec (fmt : Spec.Format) :
    Spec.DecodesLegal (decoder fmt) 4 4 fmt.blockSize fmt.Legal fmt.texel := by
  obtain ⟨Inv, C⟩ := blockFn_contract fmt
  rw [decoder_blockFn]
  exact decodes4 (blockSize_pos fmt) C

/-- The model of every format is an instance of `blockDecoder`. -/
theorem decoder_eq (fmt : Spec.Format) :
    ∃ f, decoder fmt = blockDecoder 4 4 fmt.blockSize f ∧ ∀ buf, f [] buf = .panic := by
  cases fmt
  case bc1 => exact ⟨decodeBc1Block, rfl, fun _ => rfl⟩
  case bc1a => exact ⟨decodeBc1aBlock, rfl, fun _ => rfl⟩
  case bc2 => exact ⟨decodeBc2Block, rfl, fun _ => rfl⟩
  case bc3 => exact ⟨decodeBc3Block, rfl, fun _ => rfl⟩
  case bc4 => exact ⟨decodeBc4Block, rfl, fun _ => rfl⟩
  case bc5 => exact ⟨decodeBc5Block, rfl, fun _ => rfl⟩
  case bc6s => exact ⟨decodeBc6BlockSigned, rfl, fun _ => rfl⟩
  case bc6u => exact ⟨decodeBc6BlockUnsigned, rfl, fun _ => rfl⟩
  case bc7 => exact ⟨decodeBc7Block, rfl, fun _ => rfl⟩
  case etc1 => exact ⟨decodeEtc1Block, rfl, fun _ => rfl⟩
  case etc2rgb => exact ⟨decodeEtc2RgbBlock, rfl, fun _ => rfl⟩
  case etc2rgba1 => exact ⟨decodeEtc2Rgba1Block, rfl, fun _ => rfl⟩
  case etc2rgba8 => exact ⟨decodeEtc2Rgba8Block, rfl, fun _ => rfl⟩
  case eacr => exact ⟨decodeEacrBlock, rfl, fun buf => by
    unfold decodeEacrBlock; cases fillRange buf 0 16 (color 0 0 0 255) <;> rfl⟩
  case eacrs => exact ⟨decodeEacrSignedBlock, rfl, fun buf => by
    unfold decodeEacrSignedBlock; cases fillRange buf 0 16 (color 0 0 0 255) <;> rfl⟩
  case eacrg => exact ⟨decodeEacrgBlock, rfl, fun buf => by
    unfold decodeEacrgBlock; cases fillRange buf 0 16 (color 0 0 0 255) <;> rfl⟩
  case eacrgs => exact ⟨decodeEacrgSignedBlock, rfl, fun buf => by
    unfold decodeEacrgSignedBlock; cases fillRange buf 0 16 (color 0 0 0 255) <;> rfl⟩
  case atcrgb => exact ⟨decodeAtcRgb4Block, rfl, fun _ => rfl⟩
  case atcrgba => exact ⟨decodeAtcRgba8Block, rfl, fun _ => rfl⟩

end Proofs
end Verif
