import Verif.Model.UnityCrunch

/-!
# The block buffer of the Crunch decoders

Everything `decode_crunch` and `decode_unity_crunch` do before they allocate the buffer for the blocks of
the texture (`vec![0_u8; ...]`), and the number of bytes they ask for. The rest of the model takes every
allocation to succeed.
-/

namespace Verif.Model.Crn

variable [Build]

/-- The size of `ret` in `unpack_level_2`, on level 0: `src/crunch/crn_unpacker.rs:417-434` -/
def bufferBytes2 (u : Unpacker) (dstSize rowPitch : Nat) : Res Nat := do
  let w ← shrU 32 u.header.width 0
  let h ← shrU 32 u.header.height 0
  let w3 ← addU 32 (max w 1) 3
  let _ ← addU 32 (max h 1) 3
  let blocksX := w3 >>> 2
  let blockSize := if u.header.format = 0 ∨ u.header.format = 9 then 8 else 16
  let minimal ← mulU 32 blockSize blocksX
  if rowPitch ≠ 0 ∧ (rowPitch < minimal ∨ rowPitch &&& 3 ≠ 0) then
    Res.fail "Crunch Row size is below the minimum allowed."
  else do
    let size ← mulU 64 dstSize u.header.faces
    pure size

/-- `crnd_unpack_level` and `unpack_level` up to the allocation: `src/crunch/crn_unpacker.rs:376-408` -/
def bufferBytes1 (u : Unpacker) (dstSize rowPitch : Nat) : Res Nat :=
  if dstSize < 8 ∨ 0 ≥ 16 then Res.fail "Destination buffer size is too small."
  else do
    let cur ← idx u.header.levelOfs 0
    let next ← nextLevelOfs u 0
    if next ≤ cur then Res.fail "Level offset mismatch."
    else do
      let _ ← sliceFrom u.data cur
      let _ ← subU 32 next cur
      bufferBytes2 u dstSize rowPitch

/-- `crunch_unpack_level(data, data.len() as u32, 0)` up to the allocation: `src/crunch.rs:18-35`, `51` -/
def bufferBytes (data : List UInt8) : Res Nat := do
  let (ok, info) ← crndGetTextureInfo CrnTextureInfo.default data (asU 32 data.length)
  if !ok then Res.fail "Invalid crunch texture encoding."
  else do
    let u ← unpackBegin data (asU 32 data.length)
    let w ← shrU 32 info.width 0
    let h ← shrU 32 info.height 0
    let w3 ← addU 32 (max 1 w) 3
    let h3 ← addU 32 (max 1 h) 3
    let blocksX := max 1 (w3 >>> 2)
    let blocksY := max 1 (h3 >>> 2)
    let bytes ← bytesPerDxtBlock info.format
    let rowPitch ← mulU 32 blocksX bytes
    let total ← mulU 32 rowPitch blocksY
    bufferBytes1 u total rowPitch

namespace Unity

/-- The size of `ret` in `unpack_level_2`, on level 0: `src/unitycrunch/crn_unpacker.rs:554-574` -/
def bufferBytes2 (u : Unpacker) (dstSize rowPitch : Nat) : Res Nat := do
  let w ← shrU 32 u.header.width 0
  let h ← shrU 32 u.header.height 0
  let w3 ← addU 32 (max w 1) 3
  let _ ← addU 32 (max h 1) 3
  let blocksX := w3 >>> 2
  let f := u.header.format
  let blockSize := if f = 0 ∨ f = 9 ∨ f = 10 ∨ f = 11 ∨ f = 13 then 8 else 16
  let minimal ← mulU 32 blockSize blocksX
  if rowPitch ≠ 0 ∧ (rowPitch < minimal ∨ rowPitch &&& 3 ≠ 0) then
    Res.fail "Crunch Row size is below the minimum allowed."
  else do
    let size ← mulU 64 dstSize u.header.faces
    pure size

/-- `crnd_unpack_level` and `unpack_level` up to the allocation:
`src/unitycrunch/crn_unpacker.rs:513-545` -/
def bufferBytes1 (u : Unpacker) (dstSize rowPitch : Nat) : Res Nat :=
  if dstSize < 8 ∨ 0 ≥ 16 then Res.fail "Destination buffer size is too small."
  else do
    let cur ← idx u.header.levelOfs 0
    let next ← nextLevelOfs u 0
    if next ≤ cur then Res.fail "Level offset mismatch."
    else do
      let _ ← sliceFrom u.data cur
      let _ ← subU 32 next cur
      bufferBytes2 u dstSize rowPitch

/-- `unity_crunch_unpack_level(data, data.len() as u32, 0)` up to the allocation:
`src/unitycrunch.rs:9-26`, `42` -/
def bufferBytes (data : List UInt8) : Res Nat := do
  let (ok, info) ← crndGetTextureInfo CrnTextureInfo.default data (asU 32 data.length)
  if !ok then Res.fail "Invalid crunch texture encoding."
  else do
    let u ← unpackBegin data (asU 32 data.length)
    let w ← shrU 32 info.width 0
    let h ← shrU 32 info.height 0
    let w3 ← addU 32 (max 1 w) 3
    let h3 ← addU 32 (max 1 h) 3
    let blocksX := max 1 (w3 >>> 2)
    let blocksY := max 1 (h3 >>> 2)
    let bytes ← bytesPerDxtBlock info.format
    let rowPitch ← mulU 32 blocksX bytes
    let total ← mulU 32 rowPitch blocksY
    bufferBytes1 u total rowPitch

end Unity

end Verif.Model.Crn
