import Verif.Res

/-!
# Model of the Crunch file header

`src/crunch/crn_decomp.rs` (packed integers, header, block sizes) and `src/crnlib.rs`
(`CrnTextureInfo`).
-/

namespace Verif.Model

open Verif

/-- `CrnFormat`: `src/crnlib.rs:6-40` -/
inductive CrnFormat where
  | invalid | dxt1 | dxt3 | dxt5 | dxt5CcxY | dxt5XGxR | dxt5XGbr | dxt5Agbr
  | dxnXy | dxnYx | dxt5a | etc1 | etc2 | etc2a | etc1s | etc2as | total
deriving DecidableEq, Repr

/-- The discriminants of `CrnFormat`, `fmt as u32`: `src/crnlib.rs:8-39` -/
def CrnFormat.code : CrnFormat → Nat
  | .invalid => 4294967295
  | .dxt1 => 0 | .dxt3 => 1 | .dxt5 => 2 | .dxt5CcxY => 3 | .dxt5XGxR => 4 | .dxt5XGbr => 5
  | .dxt5Agbr => 6 | .dxnXy => 7 | .dxnYx => 8 | .dxt5a => 9 | .etc1 => 10 | .etc2 => 11
  | .etc2a => 12 | .etc1s => 13 | .etc2as => 14 | .total => 15

/-- The match on the format byte: `src/crnlib.rs:88-119` -/
def crnFormatOf : Nat → CrnFormat
  | 0 => .dxt1 | 1 => .dxt3 | 2 => .dxt5 | 3 => .dxt5CcxY | 4 => .dxt5XGxR | 5 => .dxt5XGbr
  | 6 => .dxt5Agbr | 7 => .dxnXy | 8 => .dxnYx | 9 => .dxt5a | 10 => .etc1 | 11 => .etc2
  | 12 => .etc2a | 13 => .etc1s | 14 => .etc2as | 15 => .total
  | _ => .invalid

/-- `CrnPackedUint::<N>::assign_from_buffer(&p_data[ofs..])`: `src/crunch/crn_decomp.rs:46-48`.
Returns the bytes copied into `buf`. -/
def assignFromBuffer (n : Nat) (data : List UInt8) (ofs : Nat) : Out (List UInt8) := do
  let other ← sliceFrom data ofs
  slice other 0 n

/-- `CrnPackedUint::cast_to_uint`: `src/crunch/crn_decomp.rs:50-58`.
The 3-byte case is `buf[0] << 16 | from_be_bytes(buf[1], buf[2])`. -/
def castToUint (buf : List UInt8) : Nat :=
  match bytesOf buf with
  | [a] => a
  | [a, b] => fromBE [a, b]
  | [a, b, c] => (a <<< 16) ||| fromBE [b, c]
  | [a, b, c, d] => fromBE [a, b, c, d]
  | _ => 0

/-- Reads a packed integer: `assign_from_buffer` followed later by `cast_to_uint`
(`src/crunch/crn_decomp.rs:46-59`). The model keeps the value instead of the bytes. -/
def packedUint (n : Nat) (data : List UInt8) (ofs : Nat) : Out Nat :=
  castToUint <$> assignFromBuffer n data ofs

/-- `CrnPalette`: `src/crunch/crn_decomp.rs:69-73` -/
structure CrnPalette where
  ofs : Nat
  size : Nat
  num : Nat
deriving DecidableEq, Repr

/-- `CrnPalette::assign_from_buffer(&p_data[ofs..])`: `src/crunch/crn_decomp.rs:76-80`.
The nested slices `&(&p_data[ofs..])[3..]` are written as one offset; the bounds checked are the
same, because the first field is read before them. -/
def crnPalette (data : List UInt8) (ofs : Nat) : Out CrnPalette := do
  let o ← packedUint 3 data ofs
  let s ← packedUint 3 data (ofs + 3)
  let n ← packedUint 2 data (ofs + 6)
  pure ⟨o, s, n⟩

/-- `CrnHeader`: `src/crunch/crn_decomp.rs:85-116` -/
structure CrnHeader where
  sig : Nat
  headerSize : Nat
  headerCrc16 : Nat
  dataSize : Nat
  dataCrc16 : Nat
  width : Nat
  height : Nat
  levels : Nat
  faces : Nat
  format : Nat
  flags : Nat
  reserved : Nat
  userdata0 : Nat
  userdata1 : Nat
  colorEndpoints : CrnPalette
  colorSelectors : CrnPalette
  alphaEndpoints : CrnPalette
  alphaSelectors : CrnPalette
  tablesSize : Nat
  tablesOfs : Nat
  levelOfs : List Nat
deriving DecidableEq, Repr

/-- The field reads of `crnd_get_header`: `src/crunch/crn_decomp.rs:127-151` -/
def readHeader (d : List UInt8) : Out CrnHeader := do
  let sig ← packedUint 2 d 0
  let headerSize ← packedUint 2 d 2
  let headerCrc16 ← packedUint 2 d 4
  let dataSize ← packedUint 4 d 6
  let dataCrc16 ← packedUint 2 d 10
  let width ← packedUint 2 d 12
  let height ← packedUint 2 d 14
  let levels ← packedUint 1 d 16
  let faces ← packedUint 1 d 17
  let format ← packedUint 1 d 18
  let flags ← packedUint 2 d 19
  let reserved ← packedUint 4 d 21
  let userdata0 ← packedUint 4 d 25
  let userdata1 ← packedUint 4 d 29
  let colorEndpoints ← crnPalette d 33
  let colorSelectors ← crnPalette d 41
  let alphaEndpoints ← crnPalette d 49
  let alphaSelectors ← crnPalette d 57
  let tablesSize ← packedUint 2 d 65
  let tablesOfs ← packedUint 3 d 67
  let levelOfs ← forRange levels (fun i (l : List Nat) => do
    let v ← packedUint 4 d (70 + i * 4)
    pure (l ++ [v])) []
  pure { sig, headerSize, headerCrc16, dataSize, dataCrc16, width, height, levels, faces, format,
         flags, reserved, userdata0, userdata1, colorEndpoints, colorSelectors, alphaEndpoints,
         alphaSelectors, tablesSize, tablesOfs, levelOfs }

/-- `CrnHeader::crnd_get_header(p_data, data_size)`: `src/crunch/crn_decomp.rs:122-161`.
`none` stands for `false`; the header left behind in that case is never looked at. -/
def crndGetHeader (data : List UInt8) (dataSize : Nat) : Out (Option CrnHeader) :=
  if dataSize < 74 then pure none
  else do
    let h ← readHeader data
    if h.sig ≠ 0x4878 then pure none
    else if h.headerSize < 74 ∨ dataSize < h.dataSize then pure none
    else pure (some h)

/-- `CrnTextureInfo`: `src/crnlib.rs:43-53` -/
structure CrnTextureInfo where
  structSize : Nat
  width : Nat
  height : Nat
  levels : Nat
  faces : Nat
  bytesPerBlock : Nat
  userdata0 : Nat
  userdata1 : Nat
  format : CrnFormat
deriving DecidableEq, Repr

/-- `CrnTextureInfo::default()`: `src/crnlib.rs:56-68`. The struct is nine 4-byte fields. -/
def CrnTextureInfo.default : CrnTextureInfo := ⟨36, 0, 0, 0, 0, 0, 0, 0, .invalid⟩

/-- `CrnTextureInfo::crnd_get_texture_info(&mut self, p_data, data_size) -> bool`:
`src/crnlib.rs:70-139`. Returns the `bool` and the final `self`. -/
def crndGetTextureInfo (self : CrnTextureInfo) (data : List UInt8) (dataSize : Nat) :
    Out (Bool × CrnTextureInfo) :=
  if dataSize < 74 then pure (false, self)
  else if self.structSize ≠ 36 then pure (false, self)
  else do
    match ← crndGetHeader data dataSize with
    | none => pure (false, self)
    | some h =>
      let self := { self with
        width := h.width, height := h.height, levels := h.levels, faces := h.faces,
        format := crnFormatOf h.format }
      if self.format = .invalid then pure (false, self)
      else
        let bytes :=
          if h.format = CrnFormat.dxt1.code ∨ h.format = CrnFormat.dxt5a.code
            ∨ h.format = CrnFormat.etc1.code ∨ h.format = CrnFormat.etc2.code
            ∨ h.format = CrnFormat.etc1s.code then 8 else 16
        pure (true, { self with
          bytesPerBlock := bytes, userdata0 := h.userdata0, userdata1 := h.userdata1 })

end Verif.Model
