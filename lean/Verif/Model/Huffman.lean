import Verif.Res

/-!
# Model of the Crunch prefix codes and of the symbol decoder

`src/crunch/crn_utils.rs`, `src/crunch/crn_static_huffman_data_model.rs` and
`src/crunch/crn_symbol_codec.rs`.
-/

namespace Verif.Model.Crn

open Verif

variable [Build]

/-! ## `src/crunch/crn_utils.rs` -/

/-- `v.is_power_of_two()`, used in `src/crunch/crn_static_huffman_data_model.rs:77`. -/
def isPow2 (v : Nat) : Bool := v ≠ 0 && 2 ^ v.log2 = v

/-- `v.next_power_of_two()`, used in `src/crunch/crn_static_huffman_data_model.rs:79` (on numbers far
below `2 ^ 31`, so that overflow is left out). -/
def nextPow2 (v : Nat) : Nat := if v ≤ 1 then 1 else 2 ^ ((v - 1).log2 + 1)

/-- `ceil_log2i(v)`: `src/crunch/crn_utils.rs:2-8`. `v.ilog2()` panics on 0. -/
def ceilLog2i (v : Nat) : Out Nat :=
  if v = 0 then .panic
  else do
    let l := v.log2
    let one ← shlU 32 1 l
    if l ≠ 32 ∧ v > one then addU 32 l 1 else pure l

/-- `total_bits(v)`: `src/crunch/crn_utils.rs:12-19`. The loop halves `v` until it is 0. -/
def totalBits (v : Nat) : Nat := if v = 0 then 0 else v.log2 + 1

/-- `limit(&mut x, n)`: `src/crunch/crn_utils.rs:22-26` -/
def limit (x n : Nat) : Out Nat := do
  let v ← subI 32 (asI 32 x) (asI 32 n)
  let msk ← shrI 32 v 31
  pure (asUI 32 (orI 32 (andI 32 (asI 32 x) msk) (andI 32 v (-msk - 1))))

/-! ## `DecoderTables` -/

/-- `DecoderTables`: `src/crunch/crn_static_huffman_data_model.rs:7-26` -/
structure Tables where
  numSyms : Nat := 0
  totalUsedSyms : Nat := 0
  tableBits : Nat := 0
  tableShift : Nat := 0
  tableMaxCode : Nat := 0
  decodeStartCodeSize : Nat := 0
  minCodeSize : Nat := 0
  maxCodeSize : Nat := 0
  maxCodes : List Nat := List.replicate 17 0
  valPtrs : List Int := List.replicate 17 0
  curLookupSize : Nat := 0
  lookup : List Nat := []
  curSortedSize : Nat := 0
  sorted : List Nat := []
deriving DecidableEq, Repr

/-- Number of codes of each length: `src/crunch/crn_static_huffman_data_model.rs:36-42` -/
def countCodes (sizes : List Nat) : Res (List Nat) :=
  Res.forList sizes (fun c (nc : List Nat) =>
    if c ≠ 0 then do
      let n ← idx nc c
      let n ← addU 32 n 1
      setIdx nc c n
    else pure nc) (List.replicate 17 0)

/-- The variables of the loop over the code lengths:
`src/crunch/crn_static_huffman_data_model.rs:43-48`. -/
structure Ranges where
  minCodes : List Nat
  maxCodes : List Nat
  valPtrs : List Int
  sortedPositions : List Nat
  curCode : Nat
  totalUsed : Nat
  minSize : Nat
  maxSize : Nat
deriving DecidableEq, Repr

/-- The code range of one code length `i` with `n` codes:
`src/crunch/crn_static_huffman_data_model.rs:56-68` -/
def codeRange (i n : Nat) (r : Ranges) : Res Ranges := do
  let minCodes ← setIdx r.minCodes (i - 1) r.curCode
  let a ← addU 32 r.curCode n
  let m ← subU 32 a 1
  let sh ← shlU 32 m (16 - i)
  let one ← shlU 32 1 (16 - i)
  let mask ← subU 32 one 1
  let mx ← addU 32 1 (sh ||| mask)
  let maxCodes ← setIdx r.maxCodes (i - 1) mx
  let valPtrs ← setIdx r.valPtrs (i - 1) (asI 32 r.totalUsed)
  let sortedPositions ← setIdx r.sortedPositions i r.totalUsed
  let totalUsed ← addU 32 r.totalUsed n
  pure { minCodes, maxCodes, valPtrs, sortedPositions, curCode := a, totalUsed,
         minSize := min r.minSize i, maxSize := max r.maxSize i }

/-- One iteration of the loop over the code lengths: `src/crunch/crn_static_huffman_data_model.rs:50-71` -/
def rangeStep (numCodes : List Nat) (i : Nat) (r : Ranges) : Res Ranges := do
  let n ← idx numCodes i
  let r ← (if n = 0 then do
      let maxCodes ← setIdx r.maxCodes (i - 1) 0
      pure { r with maxCodes }
    else codeRange i n r)
  let cur ← shlU 32 r.curCode 1
  pure { r with curCode := cur }

/-- The loop over the code lengths 1 to 16: `src/crunch/crn_static_huffman_data_model.rs:44-71` -/
def codeRanges (t : Tables) (numCodes : List Nat) : Res Ranges :=
  Res.forRange 16 (fun k r => rangeStep numCodes (k + 1) r)
    { minCodes := List.replicate 16 0, maxCodes := t.maxCodes, valPtrs := t.valPtrs,
      sortedPositions := List.replicate 17 0, curCode := 0, totalUsed := 0,
      minSize := 4294967295, maxSize := 0 }

/-- The size of `sorted_symbol_order`: `src/crunch/crn_static_huffman_data_model.rs:75-80` -/
def sortedSize (numSyms totalUsed : Nat) : Nat :=
  if isPow2 totalUsed then totalUsed else min numSyms (nextPow2 totalUsed)

/-- The symbols in the order of their codes: `src/crunch/crn_static_huffman_data_model.rs:88-107`.
The loop state is (`sorted_positions`, `sorted_symbol_order`). -/
def sortSymbols (numCodes : List Nat) (sizes : List Nat) (numSyms totalUsed : Nat)
    (positions sorted : List Nat) : Res (List Nat × List Nat) :=
  Res.forRange (min numSyms sizes.length) (fun i (s : List Nat × List Nat) => do
    let (positions, sorted) := s
    let c ← idx sizes i
    if c ≠ 0 then do
      let n ← idx numCodes c
      if n = 0 then Res.fail ""
      else do
        let pos ← idx positions c
        let pos1 ← addU 32 pos 1
        let positions ← setIdx positions c pos1
        if pos ≥ totalUsed then Res.fail ""
        else do
          let sorted ← setIdx sorted pos (asU 16 i)
          pure (positions, sorted)
    else pure (positions, sorted)) (positions, sorted)

/-- `get_unshifted_max_code(len)`: `src/crunch/crn_static_huffman_data_model.rs:197-206` -/
def unshiftedMaxCode (maxCodes : List Nat) (len : Nat) : Res Nat :=
  if ¬ (len ≥ 1 ∧ len ≤ 16) then Res.fail ""
  else do
    let k ← idx maxCodes (len - 1)
    if k = 0 then pure 4294967295
    else shrU 32 (k - 1) (16 - len)

/-- The entries of one code: `src/crunch/crn_static_huffman_data_model.rs:145-151` -/
def fillCode (tableBits codesize fillsize sym code : Nat) (lookup : List Nat) : Res (List Nat) := do
  let fillnum ← shlU 32 1 fillsize
  Res.forRange fillnum (fun j (lookup : List Nat) => do
    let c ← shlU 32 code fillsize
    let t ← addU 32 j c
    let size ← shlU 32 1 tableBits
    if t ≥ size then Res.fail ""
    else do
      let cs ← shlU 32 codesize 16
      setIdx lookup t (sym ||| cs)) lookup

/-- The entries of one code length: `src/crunch/crn_static_huffman_data_model.rs:123-152` -/
def fillLength (numCodes sizes minCodes maxCodes : List Nat) (valPtrs : List Int)
    (sorted : List Nat) (tableBits codesize : Nat) (lookup : List Nat) : Res (List Nat) := do
  let n ← idx numCodes codesize
  if n = 0 then pure lookup
  else do
    let fillsize ← subU 32 tableBits codesize
    let minCode ← idx minCodes (codesize - 1)
    let maxCode ← unshiftedMaxCode maxCodes codesize
    let vp ← idx valPtrs (codesize - 1)
    let valPtr := asUI 32 vp
    Res.forRange (maxCode + 1 - minCode) (fun q (lookup : List Nat) => do
      let code := minCode + q
      let a ← addU 32 valPtr code
      let p ← subU 32 a minCode
      let sym ← idx sorted p
      let c ← idx sizes sym
      if c ≠ codesize then Res.fail ""
      else fillCode tableBits codesize fillsize sym code lookup) lookup

/-- The lookup table: `src/crunch/crn_static_huffman_data_model.rs:122-153` -/
def fillTable (numCodes sizes minCodes maxCodes : List Nat) (valPtrs : List Int)
    (sorted : List Nat) (tableBits : Nat) (lookup : List Nat) : Res (List Nat) :=
  Res.forRange tableBits (fun k lookup =>
    fillLength numCodes sizes minCodes maxCodes valPtrs sorted tableBits (k + 1) lookup) lookup

/-- `*val_ptr -= min_code as i32`: `src/crunch/crn_static_huffman_data_model.rs:156-158` -/
def shiftValPtrs (minCodes : List Nat) (valPtrs : List Int) : Res (List Int) :=
  Res.forRange 16 (fun i (valPtrs : List Int) => do
    let v ← idx valPtrs i
    let m ← idx minCodes i
    let v ← subI 32 v (asI 32 m)
    setIdx valPtrs i v) valPtrs

/-- The largest used code length up to `i`, or 0: `src/crunch/crn_static_huffman_data_model.rs:164-172` -/
def lastUsed (numCodes : List Nat) : Nat → Res Nat
  | 0 => pure 0
  | i + 1 => do
    let n ← idx numCodes (i + 1)
    if n ≠ 0 then pure (i + 1) else lastUsed numCodes i

/-- The first used code length among the `n` lengths from `j`, or `dflt`:
`src/crunch/crn_static_huffman_data_model.rs:175-181` -/
def firstUsed (numCodes : List Nat) (dflt : Nat) : Nat → Nat → Res Nat
  | _, 0 => pure dflt
  | j, n + 1 => do
    let c ← idx numCodes j
    if c ≠ 0 then pure j else firstUsed numCodes dflt (j + 1) n

/-- `table_max_code` and `decode_start_code_size`: `src/crunch/crn_static_huffman_data_model.rs:160-187` -/
def startCode (numCodes maxCodes : List Nat) (tableBits minCodeSize maxSize : Nat) :
    Res (Nat × Nat) :=
  if tableBits ≠ 0 then do
    let i ← lastUsed numCodes tableBits
    if i ≥ 1 then do
      let m ← idx maxCodes (i - 1)
      let s ← firstUsed numCodes (tableBits + 1) (tableBits + 1) (maxSize - tableBits)
      pure (m, s)
    else pure (0, minCodeSize)
  else pure (0, minCodeSize)

/-- `DecoderTables::init(num_syms, p_codesizes, table_bits)`:
`src/crunch/crn_static_huffman_data_model.rs:29-194` -/
def Tables.init (t : Tables) (numSyms : Nat) (sizes : List Nat) (tableBits : Nat) : Res Tables :=
  if numSyms = 0 ∨ tableBits > 11 then Res.fail ""
  else do
    let numCodes ← countCodes (sizes.take numSyms)
    let r ← codeRanges t numCodes
    let grow := r.totalUsed > t.curSortedSize
    let curSortedSize := if grow then sortedSize numSyms r.totalUsed else t.curSortedSize
    let sorted := if grow then List.replicate curSortedSize 0 else t.sorted
    let minCodeSize := asU 8 r.minSize
    let maxCodeSize := asU 8 r.maxSize
    let (_, sorted) ← sortSymbols numCodes sizes numSyms r.totalUsed r.sortedPositions sorted
    let tableBits := if tableBits ≤ minCodeSize then 0 else tableBits
    let growT := tableBits ≠ 0 ∧ 2 ^ tableBits > t.curLookupSize
    let curLookupSize := if growT then 2 ^ tableBits else t.curLookupSize
    let lookup := if growT then List.replicate curLookupSize 0 else t.lookup
    let lookup ← fillTable numCodes sizes r.minCodes r.maxCodes r.valPtrs sorted tableBits lookup
    let valPtrs ← shiftValPtrs r.minCodes r.valPtrs
    let (tableMaxCode, start) ← startCode numCodes r.maxCodes tableBits minCodeSize r.maxSize
    let maxCodes ← setIdx r.maxCodes 16 4294967295
    let valPtrs ← setIdx valPtrs 16 0xFFFFF
    let tableShift ← subU 32 32 tableBits
    pure { numSyms, totalUsedSyms := r.totalUsed, tableBits, tableShift, tableMaxCode,
           decodeStartCodeSize := start, minCodeSize, maxCodeSize, maxCodes, valPtrs,
           curLookupSize, lookup, curSortedSize, sorted }

/-! ## `StaticHuffmanDataModel` -/

/-- `StaticHuffmanDataModel`: `src/crunch/crn_static_huffman_data_model.rs:210-214` -/
structure DataModel where
  totalSyms : Nat := 0
  codeSizes : List Nat := []
  tables : Tables := {}
deriving DecidableEq, Repr

/-- `compute_decoder_table_bits()`: `src/crunch/crn_static_huffman_data_model.rs:245-251` -/
def tableBitsFor (totalSyms : Nat) : Out Nat :=
  if totalSyms > 16 then do
    let l ← ceilLog2i totalSyms
    let l ← addU 32 1 l
    pure (min l 11)
  else pure 0

/-- `prepare_decoder_tables()`: `src/crunch/crn_static_huffman_data_model.rs:253-262` -/
def DataModel.prepare (m : DataModel) : Res DataModel :=
  let totalSyms := m.codeSizes.length
  if ¬ (totalSyms ≥ 1 ∧ asU 32 totalSyms ≤ 8192) then Res.fail ""
  else do
    let totalSyms := asU 32 totalSyms
    let bits ← tableBitsFor totalSyms
    let tables ← m.tables.init totalSyms m.codeSizes bits
    pure { m with totalSyms, tables }

/-! ## `symbol_codec` -/

/-- `symbol_codec`: `src/crunch/crn_symbol_codec.rs:6-13`.
`p_decode_buf_next` is always a tail of `p_decode_buf`; `next` is its start. `p_decode_buf_end`
is a pointer to the byte `last` of `p_decode_buf`. `bit_count` is an `i32` that is never negative:
at most `bit_count` bits are taken. -/
structure Codec where
  buf : List UInt8 := []
  next : Nat := 0
  last : Nat := 0
  bitBuf : Nat := 0
  bitCount : Nat := 0
deriving DecidableEq, Repr

/-- `start_decoding(p_buf, buf_size)`: `src/crunch/crn_symbol_codec.rs:29-39` -/
def Codec.start (buf : List UInt8) (bufSize : Nat) : Res Codec :=
  if bufSize = 0 then Res.fail ""
  else do
    let _ ← idx buf (bufSize - 1)
    pure { buf, next := 0, last := bufSize - 1, bitBuf := 0, bitCount := 0 }

/-- The loop of `get_bits`: `src/crunch/crn_symbol_codec.rs:255-268`. The test
`self.p_decode_buf_next[0] as *const u8 <= self.p_decode_buf_end` compares the *value* of the
byte, as an address, with a pointer into the data. It is modelled as always true (also with `<`),
assuming that no slice lies within the first 256 addresses. Each iteration adds 8 to a count that
may not exceed 32, so five iterations are never reached. -/
def Codec.fill (c : Codec) (numBits : Nat) : Nat → Res Codec
  | 0 => Res.panic
  | n + 1 =>
    if c.bitCount < numBits then do
      let b ← byte c.buf c.next
      let next := c.next + 1
      let bitCount := c.bitCount + 8
      if bitCount > 32 then Res.fail ""
      else do
        let v ← shlU 32 b (32 - bitCount)
        Codec.fill { c with next, bitCount, bitBuf := c.bitBuf ||| v } numBits n
    else pure c

/-- `get_bits(num_bits)`: `src/crunch/crn_symbol_codec.rs:251-273` -/
def Codec.getBits (c : Codec) (numBits : Nat) : Res (Nat × Codec) :=
  if numBits > 32 then Res.fail ""
  else do
    let c ← c.fill numBits 6
    let k ← subU 64 32 numBits
    let result ← shrU 32 c.bitBuf k
    let bitBuf ← shlU 32 c.bitBuf numBits
    let bitCount ← subU 31 c.bitCount numBits
    pure (result, { c with bitBuf, bitCount })

/-- `decode_bits(num_bits)`: `src/crunch/crn_symbol_codec.rs:155-172` -/
def Codec.decodeBits (c : Codec) (numBits : Nat) : Res (Nat × Codec) :=
  if numBits = 0 then pure (0, c)
  else if numBits > 16 then do
    let (a, c) ← c.getBits (numBits - 16)
    let (b, c) ← c.getBits 16
    let a ← shlU 32 a 16
    pure (a ||| b, c)
  else c.getBits numBits

/-- Reads the next byte and advances unless it is the last one; 0 behind the end:
`src/crunch/crn_symbol_codec.rs:181-186`, `187-192` and `199-206`. Here the addresses are compared. -/
def takeByte (buf : List UInt8) (last p : Nat) : Out (Nat × Nat) := do
  let b ← byte buf p
  if p ≤ last then pure (b, if p < last then p + 1 else p)
  else pure (0, p)

/-- The refilling of the bit buffer in `decode`: `src/crunch/crn_symbol_codec.rs:176-210` -/
def Codec.refill (c : Codec) : Out Codec :=
  if c.bitCount < 24 then
    if c.bitCount < 16 then do
      let (c0, p) ← takeByte c.buf c.last c.next
      let (c1, p) ← takeByte c.buf c.last p
      let bitCount := c.bitCount + 16
      let hi ← shlU 32 c0 8
      let v ← shlU 32 (hi ||| c1) (32 - bitCount)
      pure { c with next := p, bitCount, bitBuf := c.bitBuf ||| v }
    else do
      let (b, p) ← takeByte c.buf c.last c.next
      let bitCount := c.bitCount + 8
      let v ← shlU 32 b (32 - bitCount)
      pure { c with next := p, bitCount, bitBuf := c.bitBuf ||| v }
  else pure c

/-- The loop that looks for the code length: `src/crunch/crn_symbol_codec.rs:225-230`. `max_codes` has 17
entries, so 18 iterations from any length end at the sentinel or with an index out of range. -/
def findLen (maxCodes : List Nat) (k : Nat) : Nat → Nat → Res Nat
  | _, 0 => Res.panic
  | len, n + 1 => do
    let i ← subU 32 len 1
    let m ← idx maxCodes i
    if k ≤ m then pure len
    else do
      let len ← addU 32 len 1
      findLen maxCodes k len n

/-- The symbol at the front of the bit buffer and its code length: `src/crunch/crn_symbol_codec.rs:211-239` -/
def lookupSymbol (m : DataModel) (bitBuf : Nat) : Res (Nat × Nat) := do
  let t := m.tables
  let k ← addU 32 (bitBuf >>> 16) 1
  if k ≤ t.tableMaxCode then do
    let sh ← subU 32 32 t.tableBits
    let i ← shrU 32 bitBuf sh
    let e ← idx t.lookup i
    if e = 4294967295 then Res.fail ""
    else do
      let sym := e &&& 0xffff
      let len := e >>> 16
      let c ← idx m.codeSizes sym
      if c ≠ len then Res.fail "" else pure (sym, len)
  else do
    let len ← findLen t.maxCodes k t.decodeStartCodeSize 18
    let vp ← idx t.valPtrs (len - 1)
    let sh ← subU 32 32 len
    let top ← shrU 32 bitBuf sh
    let valPtr ← addI 32 vp (asI 32 top)
    if asUI 32 valPtr ≥ m.totalSyms then Res.fail ""
    else do
      let sym ← idx t.sorted (asUI 64 valPtr)
      pure (sym, len)

/-- `decode(model)`: `src/crunch/crn_symbol_codec.rs:174-242` -/
def Codec.decode (c : Codec) (m : DataModel) : Res (Nat × Codec) := do
  let c ← c.refill
  let (sym, len) ← lookupSymbol m c.bitBuf
  let bitBuf ← shlU 32 c.bitBuf len
  let bitCount ← subU 31 c.bitCount len
  pure (sym, { c with bitBuf, bitCount })

/-- `MOST_PROBABLE_CODELENGTH_CODES`: `src/crunch/crn_consts.rs:45-67` -/
def mostProbable : List Nat :=
  [17, 18, 19, 20, 0, 8, 7, 9, 6, 10, 5, 11, 4, 12, 3, 13, 2, 14, 1, 15, 16]

/-- The lengths of the code length codes: `src/crunch/crn_symbol_codec.rs:65-76` -/
def readLengthCodes (c : Codec) (n : Nat) : Res (List Nat × Codec) :=
  Res.forList (mostProbable.take n) (fun code (s : List Nat × Codec) => do
    let (sizes, c) := s
    let (v, c) ← c.decodeBits 3
    let sizes ← setIdx sizes code (asU 8 v)
    pure (sizes, c)) (List.replicate 21 0, c)

/-- `while ofs < end { code_sizes[ofs] = prev; ofs += 1 }`: `src/crunch/crn_symbol_codec.rs:142-146` -/
def repeatSize (sizes : List Nat) (ofs len prev : Nat) : Res (List Nat) :=
  Res.forRange len (fun i (sizes : List Nat) => setIdx sizes (ofs + i) prev) sizes

/-- One iteration of the loop over the code lengths: `src/crunch/crn_symbol_codec.rs:84-150`.
The state is (`ofs`, `code_sizes`, codec). -/
def lengthStep (dm : DataModel) (total : Nat) (s : Nat × List Nat × Codec) :
    Res (Nat × List Nat × Codec) := do
  let (ofs, sizes, c) := s
  let remaining := total - ofs
  let (code, c) ← c.decode dm
  if code ≤ 16 then do
    let sizes ← setIdx sizes ofs (asU 8 code)
    pure (ofs + 1, sizes, c)
  else if code = 17 then do
    let (v, c) ← c.decodeBits 3
    let len := v + 3
    if len > remaining then Res.fail "" else pure (ofs + len, sizes, c)
  else if code = 18 then do
    let (v, c) ← c.decodeBits 7
    let len := v + 11
    if len > remaining then Res.fail "" else pure (ofs + len, sizes, c)
  else if code = 19 ∨ code = 20 then do
    let (v, c) ← (if code = 19 then c.decodeBits 2 else c.decodeBits 6)
    let len := if code = 19 then v + 3 else v + 7
    if ofs = 0 ∨ len > remaining then Res.fail ""
    else do
      let prev ← idx sizes (ofs - 1)
      if prev = 0 then Res.fail ""
      else do
        let sizes ← repeatSize sizes ofs len prev
        pure (ofs + len, sizes, c)
  else Res.fail ""

/-- `while ofs < total_used_syms`: `src/crunch/crn_symbol_codec.rs:82-151`. Every iteration advances `ofs`, so
`total` iterations are enough; the first argument counts them. -/
def lengthLoop (dm : DataModel) (total : Nat) : Nat → Nat × List Nat × Codec →
    Res (List Nat × Codec)
  | 0, (_, sizes, c) => pure (sizes, c)
  | n + 1, s =>
    if s.1 < total then do
      let s ← lengthStep dm total s
      lengthLoop dm total n s
    else pure (s.2.1, s.2.2)

/-- `decode_receive_static_data_model(model)`: `src/crunch/crn_symbol_codec.rs:41-153`. Every caller passes a
fresh model; the model received is returned. -/
def Codec.receiveModel (c : Codec) : Res (DataModel × Codec) := do
  let (total, c) ← c.decodeBits (totalBits 8192)
  let (n, c) ← c.decodeBits 5
  if n < 1 ∨ n > 21 then Res.fail ""
  else do
    let (lengthSizes, c) ← readLengthCodes c n
    let dm ← DataModel.prepare { codeSizes := lengthSizes }
    let (sizes, c) ← lengthLoop dm total total (0, List.replicate total 0, c)
    let m ← DataModel.prepare { codeSizes := sizes }
    pure (m, c)

end Verif.Model.Crn
