import Verif.Rust

/-!
# Model of `src/bitreader.rs`
-/

namespace Verif.Model

open Verif

variable [Build]

/-- `getbits_raw(buf, bit_offset, num_bits, dst)`: `src/bitreader.rs:2-6`.
(Both the read and the write range are checked; the order of the two checks is not observable.) -/
def getbitsRaw (buf : List UInt8) (bitOffset numBits : Nat) (dst : List UInt8) :
    Out (List UInt8) := do
  let bytesOffset := bitOffset / 8
  let e ← addU 64 bitOffset numBits
  let bytesEnd ← divCeil e 8
  let len ← subU 64 bytesEnd bytesOffset
  let src ← slice buf bytesOffset bytesEnd
  copyFromSlice dst 0 len src

/-- `getbits(buf, bit_offset, num_bits) -> i32`: `src/bitreader.rs:9-17` -/
def getbits (buf : List UInt8) (bitOffset numBits : Nat) : Out Int := do
  let shift := bitOffset % 8
  let raw ← getbitsRaw buf bitOffset numBits [0, 0, 0, 0]
  let v ← shrI 32 (asI 32 (fromLE (bytesOf raw))) shift
  let one ← shlI 32 1 numBits
  let mask ← subI 32 one 1
  pure (andI 32 v mask)

/-- `getbits64(buf, bit, len) -> u64`: `src/bitreader.rs:20-39`. `bit` is an `isize`.
In Rust `&` binds tighter than `|`, so in the last case only the high part is masked. -/
def getbits64 (buf : List UInt8) (bit : Int) (len : Nat) : Out Nat := do
  let mask ← (if len = 64 then pure 0xffffffffffffffff else do
    let one ← shlU 64 1 len
    subU 64 one 1)
  if len = 0 then pure 0
  else if bit ≥ 64 then do
    let hi ← slice buf 8 16
    let k ← subI 64 bit 64
    let v ← shrU 64 (fromLE (bytesOf hi)) k.toNat
    pure (v &&& mask)
  else if bit ≤ 0 then do
    let lo ← slice buf 0 8
    let v ← shlU 64 (fromLE (bytesOf lo)) ((2 ^ 64 - asUI 64 bit) % 2 ^ 64)
    pure (v &&& mask)
  else do
    let e ← addU 64 (asUI 64 bit) len
    if e ≤ 64 then do
      let lo ← slice buf 0 8
      let v ← shrU 64 (fromLE (bytesOf lo)) bit.toNat
      pure (v &&& mask)
    else do
      let lo ← slice buf 0 8
      let v ← shrU 64 (fromLE (bytesOf lo)) bit.toNat
      let hi ← slice buf 8 16
      let k ← subI 64 64 bit
      let u ← shlU 64 (fromLE (bytesOf hi)) k.toNat
      pure (v ||| (u &&& mask))

/-- `BitReader::peek(&self, offset, num_bits) -> u16`: `src/bitreader.rs:60-69`.
The reader is the pair of the data and the bit position. -/
def peek (data : List UInt8) (bitPos offset numBits : Nat) : Out Nat := do
  let bitPos ← addU 64 bitPos offset
  let shift := bitPos &&& 7
  let raw ← getbitsRaw data bitPos numBits [0, 0, 0, 0]
  let d ← shrU 32 (fromLE (bytesOf raw)) shift
  let one ← shlU 16 1 (asU 16 numBits)
  let mask ← subU 16 one 1
  pure (asU 16 d &&& mask)

/-- `BitReader::read(&mut self, num_bits) -> u16`: `src/bitreader.rs:53-57`.
Returns the value and the new bit position. -/
def readBits (data : List UInt8) (bitPos numBits : Nat) : Out (Nat × Nat) := do
  let ret ← peek data bitPos 0 numBits
  let bitPos ← addU 64 bitPos numBits
  pure (ret, bitPos)

end Verif.Model
