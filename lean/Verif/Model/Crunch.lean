import Verif.Model.CrnHeader
import Verif.Model.Huffman
import Verif.Model.Bcn

/-!
# Model of the Crunch unpacker

`src/crunch/crn_unpacker.rs`, `src/crunch/crn_decomp.rs` and `src/crunch.rs`.

The unpacker writes its tables and palettes into `self`; here they are values handed from one
function to the next. `self.codec` is started anew by every function that uses it.
-/

namespace Verif.Model.Crn

open Verif Verif.Model

variable [Build]

/-! ## The tables -/

/-- The five prefix codes of `CrnUnpacker`: `chunk_encoding_dm` (in Unity's variant
`reference_encoding_dm`), `endpoint_delta_dm` and `selector_delta_dm`:
`src/crunch/crn_unpacker.rs:18-20` -/
structure CodeTables where
  encoding : DataModel := {}
  endpoint0 : DataModel := {}
  selector0 : DataModel := {}
  endpoint1 : DataModel := {}
  selector1 : DataModel := {}

/-- Two codes, read one after the other: `src/crunch/crn_unpacker.rs:85-96` and `98-110`.
Without entries in the palette the codes keep their default. -/
def receivePair (c : Codec) (num : Nat) : Res (DataModel × DataModel × Codec) :=
  if num ≠ 0 then do
    let (e, c) ← c.receiveModel
    let (s, c) ← c.receiveModel
    pure (e, s, c)
  else pure ({}, {}, c)

/-- `init_tables()`: `src/crunch/crn_unpacker.rs:64-114` -/
def initTables (data : List UInt8) (h : CrnHeader) : Res CodeTables := do
  let buf ← sliceFrom data h.tablesOfs
  let c ← Codec.start buf h.tablesSize
  let (encoding, c) ← c.receiveModel
  if h.colorEndpoints.num = 0 ∧ h.alphaEndpoints.num = 0 then Res.fail ""
  else do
    let (endpoint0, selector0, c) ← receivePair c h.colorEndpoints.num
    let (endpoint1, selector1, _) ← receivePair c h.alphaEndpoints.num
    pure { encoding, endpoint0, selector0, endpoint1, selector1 }

/-! ## The palettes -/

/-- `x = (x + decode(dm)) & mask`: `src/crunch/crn_unpacker.rs:166-177` -/
def deltaComponent (c : Codec) (dm : DataModel) (x mask : Nat) : Res (Nat × Codec) := do
  let (d, c) ← c.decode dm
  let v ← addU 32 x d
  pure (v &&& mask, c)

/-- The six components `a` to `f` of a pair of colours: `src/crunch/crn_unpacker.rs:159-160`. -/
structure Components where
  a : Nat := 0
  b : Nat := 0
  c : Nat := 0
  d : Nat := 0
  e : Nat := 0
  f : Nat := 0
deriving DecidableEq, Repr

/-- One pair of colours: `src/crunch/crn_unpacker.rs:164-177` -/
def colorEndpointStep (dm0 dm1 : DataModel) (s : Components) (k : Codec) :
    Res (Components × Codec) := do
  let (a, k) ← deltaComponent k dm0 s.a 31
  let (b, k) ← deltaComponent k dm1 s.b 63
  let (c, k) ← deltaComponent k dm0 s.c 31
  let (d, k) ← deltaComponent k dm0 s.d 31
  let (e, k) ← deltaComponent k dm1 s.e 63
  let (f, k) ← deltaComponent k dm0 s.f 31
  pure ({ a, b, c, d, e, f }, k)

/-- `c | (b << 5) | (a << 11) | (f << 16) | (e << 21) | (d << 27)`:
`src/crunch/crn_unpacker.rs:179`, on a little-endian target. -/
def packEndpoints (s : Components) : Out Nat := do
  let b ← shlU 32 s.b 5
  let a ← shlU 32 s.a 11
  let f ← shlU 32 s.f 16
  let e ← shlU 32 s.e 21
  let d ← shlU 32 s.d 27
  pure (s.c ||| b ||| a ||| f ||| e ||| d)

/-- `decode_color_endpoints()`: `src/crunch/crn_unpacker.rs:136-187`. Every entry of the vector of
`num` entries is written once, in order; the model appends them. -/
def decodeColorEndpoints (data : List UInt8) (h : CrnHeader) : Res (List Nat) := do
  let buf ← sliceFrom data h.colorEndpoints.ofs
  let k ← Codec.start buf h.colorEndpoints.size
  let (dm0, k) ← k.receiveModel
  let (dm1, k) ← k.receiveModel
  let (_, _, l) ← Res.forRange h.colorEndpoints.num
    (fun _ (st : Components × Codec × List Nat) => do
      let (s, k, l) := st
      let (s, k) ← colorEndpointStep dm0 dm1 s k
      let v ← packEndpoints s
      pure (s, k, l ++ [v])) ({}, k, [])
  pure l

/-- The tables of selector deltas: `src/crunch/crn_unpacker.rs:205-219` for `mx = 3` and `324-338`
for `mx = 7`. The state is (`l`, `m`, `delta0`, `delta1`). -/
def deltaTables (mx : Int) (n : Nat) : List Int × List Int :=
  let s := n.fold (fun _ _ (s : Int × Int × List Int × List Int) =>
    let (l, m, d0, d1) := s
    let d0 := d0 ++ [l]
    let d1 := d1 ++ [m]
    let l := l + 1
    if l > mx then (-mx, m + 1, d0, d1) else (l, m, d0, d1)) (-mx, -mx, [], [])
  (s.2.2.1, s.2.2.2)

/-- One selector value, `cur[i] = ((delta[sym] + cur[i] as i32) & mask) as u32`:
`src/crunch/crn_unpacker.rs:230-231` and `349-350` -/
def updateSelector (delta : List Int) (sym mask i : Nat) (cur : List Nat) : Out (List Nat) := do
  let d ← idx delta sym
  let c ← idx cur i
  let v ← addI 32 d (asI 32 c)
  setIdx cur i (asUI 32 (andI 32 v mask))

/-- The eight symbols of one entry: `src/crunch/crn_unpacker.rs:225-232` and `344-351` -/
def selectorStep (dm : DataModel) (d0 d1 : List Int) (mask : Nat) (cur : List Nat) (k : Codec) :
    Res (List Nat × Codec) :=
  Res.forRange 8 (fun j (st : List Nat × Codec) => do
    let (cur, k) := st
    let (sym, k) ← k.decode dm
    let cur ← updateSelector d0 sym mask (j * 2) cur
    let cur ← updateSelector d1 sym mask (j * 2 + 1) cur
    pure (cur, k)) (cur, k)

/-- `DXT1_FROM_LINEAR`: `src/crunch/crn_consts.rs:93` -/
def dxt1FromLinear : List Nat := [0, 2, 3, 1]

/-- `DXT5_FROM_LINEAR`: `src/crunch/crn_consts.rs:95` -/
def dxt5FromLinear : List Nat := [0, 2, 3, 4, 5, 6, 7, 1]

/-- `p_from_linear[cur[i] as usize] as u32`: `src/crunch/crn_unpacker.rs:234` and `353` -/
def fromLinear (table cur : List Nat) (i : Nat) : Out Nat := do
  let c ← idx cur i
  idx table c

/-- The 16 selectors of two bits in one word: `src/crunch/crn_unpacker.rs:233-250`. The terms of
the big `|` expression are combined in a loop. -/
def packColorSelectors (cur : List Nat) : Out Nat :=
  forRange 16 (fun i (acc : Nat) => do
    let v ← fromLinear dxt1FromLinear cur i
    let v ← shlU 32 v (2 * i)
    pure (acc ||| v)) 0

/-- `decode_color_selectors()`: `src/crunch/crn_unpacker.rs:188-271` -/
def decodeColorSelectors (data : List UInt8) (h : CrnHeader) : Res (List Nat) := do
  let buf ← sliceFrom data h.colorSelectors.ofs
  let k ← Codec.start buf h.colorSelectors.size
  let (dm, k) ← k.receiveModel
  let (d0, d1) := deltaTables 3 49
  let (_, _, l) ← Res.forRange h.colorSelectors.num
    (fun _ (st : List Nat × Codec × List Nat) => do
      let (cur, k, l) := st
      let (cur, k) ← selectorStep dm d0 d1 3 cur k
      let v ← packColorSelectors cur
      pure (cur, k, l ++ [v])) (List.replicate 16 0, k, [])
  pure l

/-- `decode_alpha_endpoints()`: `src/crunch/crn_unpacker.rs:272-306` -/
def decodeAlphaEndpoints (data : List UInt8) (h : CrnHeader) : Res (List Nat) := do
  let buf ← sliceFrom data h.alphaEndpoints.ofs
  let k ← Codec.start buf h.alphaEndpoints.size
  let (dm, k) ← k.receiveModel
  let (_, _, _, l) ← Res.forRange h.alphaEndpoints.num
    (fun _ (st : Nat × Nat × Codec × List Nat) => do
      let (a, b, k, l) := st
      let (sa, k) ← k.decode dm
      let (sb, k) ← k.decode dm
      let a ← addU 32 sa a
      let b ← addU 32 sb b
      let a := a &&& 0xff
      let b := b &&& 0xff
      let hi ← shlU 32 b 8
      pure (a, b, k, l ++ [asU 16 (a ||| hi)])) (0, 0, k, [])
  pure l

/-- The three words with the 16 selectors of three bits: `src/crunch/crn_unpacker.rs:352-370`.
The shifted values are below 8, so nothing is lost before the conversion to `u16`. -/
def packAlphaSelectors (cur : List Nat) : Out (List Nat) := do
  let t ← forRange 16 (fun i (t : List Nat) => do
    let v ← fromLinear dxt5FromLinear cur i
    pure (t ++ [v])) []
  match t with
  | [t0, t1, t2, t3, t4, t5, t6, t7, t8, t9, t10, t11, t12, t13, t14, t15] =>
    pure [
      asU 16 (t0 ||| (t1 <<< 3) ||| (t2 <<< 6) ||| (t3 <<< 9) ||| (t4 <<< 12) ||| (t5 <<< 15)),
      asU 16 ((t5 >>> 1) ||| (t6 <<< 2) ||| (t7 <<< 5) ||| (t8 <<< 8) ||| (t9 <<< 11)
        ||| (t10 <<< 14)),
      asU 16 ((t10 >>> 2) ||| (t11 <<< 1) ||| (t12 <<< 4) ||| (t13 <<< 7) ||| (t14 <<< 10)
        ||| (t15 <<< 13))]
  | _ => .panic

/-- `decode_alpha_selectors()`: `src/crunch/crn_unpacker.rs:307-375` -/
def decodeAlphaSelectors (data : List UInt8) (h : CrnHeader) : Res (List Nat) := do
  let buf ← sliceFrom data h.alphaSelectors.ofs
  let k ← Codec.start buf h.alphaSelectors.size
  let (dm, k) ← k.receiveModel
  let (d0, d1) := deltaTables 7 225
  let (_, _, l) ← Res.forRange h.alphaSelectors.num
    (fun _ (st : List Nat × Codec × List Nat) => do
      let (cur, k, l) := st
      let (cur, k) ← selectorStep dm d0 d1 7 cur k
      let v ← packAlphaSelectors cur
      pure (cur, k, l ++ v)) (List.replicate 16 0, k, [])
  pure l

/-! ## The unpacker -/

/-- `CrnUnpacker` after `init`: `src/crunch/crn_unpacker.rs:10-25` -/
structure Unpacker where
  data : List UInt8
  dataSize : Nat
  header : CrnHeader
  tables : CodeTables
  colorEndpoints : List Nat
  colorSelectors : List Nat
  alphaEndpoints : List Nat
  alphaSelectors : List Nat

/-- `init(p_data, data_size)` with `decode_palettes()`: `src/crunch/crn_unpacker.rs:49-63` and
`115-135` -/
def Unpacker.init (data : List UInt8) (dataSize : Nat) : Res Unpacker := do
  match ← crndGetHeader data dataSize with
  | none => Res.fail ""
  | some header => do
    let tables ← initTables data header
    let (colorEndpoints, colorSelectors) ← (if header.colorEndpoints.num ≠ 0 then do
        let e ← decodeColorEndpoints data header
        let s ← decodeColorSelectors data header
        pure (e, s)
      else pure ([], []))
    let (alphaEndpoints, alphaSelectors) ← (if header.alphaEndpoints.num ≠ 0 then do
        let e ← decodeAlphaEndpoints data header
        let s ← decodeAlphaSelectors data header
        pure (e, s)
      else pure ([], []))
    pure { data, dataSize, header, tables, colorEndpoints, colorSelectors, alphaEndpoints,
           alphaSelectors }

/-- `WRITE_TO_INT_BUFFER!(buf, index, val)`: `src/macros.rs:55-67`, on a little-endian target. -/
def writeInt (buf : List UInt8) (index val : Nat) : Out (List UInt8) := do
  let t ← mulU 64 index 4
  let buf ← setIdx buf t (UInt8.ofNat val)
  let t1 ← addU 64 t 1
  let buf ← setIdx buf t1 (UInt8.ofNat (val >>> 8))
  let t2 ← addU 64 t 2
  let buf ← setIdx buf t2 (UInt8.ofNat (val >>> 16))
  let t3 ← addU 64 t 3
  setIdx buf t3 (UInt8.ofNat (val >>> 24))

/-- `CRND_CHUNK_ENCODING_NUM_TILES`: `src/crunch/crn_consts.rs:149` -/
def numTilesTable : List Nat := [1, 2, 2, 3, 3, 3, 3, 4]

/-- `CRND_CHUNK_ENCODING_TILES`: `src/crunch/crn_consts.rs:106-147` -/
def tilesTable : List (List Nat) :=
  [[0, 0, 0, 0], [0, 0, 1, 1], [0, 1, 0, 1], [0, 0, 1, 2], [1, 2, 0, 0], [0, 1, 0, 2],
   [1, 0, 2, 0], [0, 1, 2, 3]]

/-- What the `unpack_*` functions change: the codec, `chunk_encoding_bits`, the previous indices
(of the first and the second endpoint and selector palette in use) and the destination:
`src/crunch/crn_unpacker.rs:514-518` and the same variables in the other three. -/
structure LevelState where
  codec : Codec
  enc : Nat := 1
  e0 : Nat := 0
  s0 : Nat := 0
  e1 : Nat := 0
  s1 : Nat := 0
  dst : List UInt8

/-- The chunk encoding: `src/crunch/crn_unpacker.rs:540-548`, `709-717`, `865-873` and `988-996` -/
def nextEncoding (msg : String) (dm : DataModel) (st : LevelState) : Res (Nat × LevelState) := do
  let st ← (if st.enc = 1 then do
      let (b, codec) ← Res.orErr msg (st.codec.decode dm)
      pure { st with codec, enc := b ||| 512 }
    else pure st)
  pure (st.enc &&& 7, { st with enc := st.enc >>> 3 })

/-- A palette index, coded as the difference to the previous one:
`src/crunch/crn_unpacker.rs:552-557` and everywhere else. -/
def nextIndex (msg : String) (dm : DataModel) (num prev : Nat) (k : Codec) : Res (Nat × Codec) := do
  let (delta, k) ← Res.orErr msg (k.decode dm)
  let p ← addU 32 prev delta
  let p ← limit p num
  pure (p, k)

/-- The endpoints of the tiles of a chunk: `src/crunch/crn_unpacker.rs:551-559`, `723-732`,
`734-743`, `879-888`, `1002-1011` and `1012-1021`. The state is (endpoints, previous index, codec). -/
def tileEndpoints (msg : String) (dm : DataModel) (pal : List Nat) (n prev : Nat) (k : Codec) :
    Res (List Nat × Nat × Codec) :=
  Res.forRange n (fun i (st : List Nat × Nat × Codec) => do
    let (l, prev, k) := st
    let (p, k) ← nextIndex msg dm (asU 32 pal.length) prev k
    let e ← idx pal p
    let l ← setIdx l i e
    pure (l, p, k)) (List.replicate 4 0, prev, k)

/-- The loops over faces, chunk rows and chunks, the same in all four `unpack_*` functions:
`src/crunch/crn_unpacker.rs:522-538` and `664-668`, `690-706` and `825-830`, `848-862` and
`943-948`, `969-983` and `1109-1114`. `cb` is `c_bytes_per_block`. Odd rows run from right to
left. -/
def chunkLoop (faces chunksX chunksY rowPitch cb : Nat)
    (chunk : Nat → Nat → Nat → LevelState → Res LevelState) (st : LevelState) : Res LevelState := do
  let (_, st) ← Res.forRange faces (fun _ (s : Nat × LevelState) =>
    Res.forRange chunksY (fun y (s : Nat × LevelState) => do
      let (rowDst, st) := s
      let (blockDst, delta) ← (if y &&& 1 = 1 then do
          let n ← subI 32 (asI 32 chunksX) 1
          let n ← mulI 32 n cb
          let n ← mulI 32 n 2
          let b ← addU 64 rowDst (asUI 64 n)
          pure (b, -(cb : Int) * 2)
        else pure (rowDst, (cb : Int) * 2))
      let (_, st) ← Res.forRange chunksX (fun i (s : Nat × LevelState) => do
        let (blockDst, st) := s
        let x := if y &&& 1 = 1 then chunksX - 1 - i else i
        let st ← chunk x y blockDst st
        let b ← addI 32 (asI 32 blockDst) delta
        pure (asUI 64 b, st)) (blockDst, st)
      let p ← mulU 32 rowPitch 2
      let rowDst ← addU 64 rowDst p
      pure (rowDst, st)) s) (0, st)
  pure st

/-- The sizes of a level: `blocks_x`, `blocks_y`, `chunks_x`, `chunks_y` and the row pitch:
`src/crunch/crn_unpacker.rs:508-512`. -/
structure LevelSize where
  blocksX : Nat
  blocksY : Nat
  chunksX : Nat
  chunksY : Nat
  pitch : Nat

/-- `skip_bottom_row`: `src/crunch/crn_unpacker.rs:537` -/
def LevelSize.skipBottom (z : LevelSize) (y : Nat) : Out Bool := do
  let n ← subU 32 z.chunksY 1
  pure (y = n ∧ z.blocksY &&& 1 = 1)

/-- `skip_right_col`: `src/crunch/crn_unpacker.rs:564` -/
def LevelSize.skipRight (z : LevelSize) (x : Nat) : Out Bool := do
  let n ← subI 32 (asI 32 z.chunksX) 1
  pure (z.blocksX &&& 1 = 1 ∧ (x : Int) = n)

/-! ### DXT1 -/

/-- The error of `unpack_dxt1`: `src/crunch/crn_unpacker.rs:542`. -/
def msgDxt1 : String := "Failed to decord DXT1 Texture"

/-- One block on the path without skipped blocks: the endpoints, then the selectors:
`src/crunch/crn_unpacker.rs:567-584` and the three repetitions up to `635`. -/
def dxt1Block (u : Unpacker) (ends tiles : List Nat) (q pd : Nat) (st : LevelState) :
    Res LevelState := do
  let t ← idx tiles q
  let e ← idx ends t
  let dst ← writeInt st.dst pd e
  let (p, codec) ← nextIndex msgDxt1 u.tables.selector0 (asU 32 u.colorSelectors.length) st.s0
    st.codec
  let s ← idx u.colorSelectors p
  let pd1 ← addU 64 pd 1
  let dst ← writeInt dst pd1 s
  pure { st with codec, s0 := p, dst }

/-- All four blocks of a chunk: `src/crunch/crn_unpacker.rs:566-635` -/
def dxt1Full (u : Unpacker) (z : LevelSize) (ends tiles : List Nat) (pd : Nat) (st : LevelState) :
    Res LevelState := do
  let st ← dxt1Block u ends tiles 0 pd st
  let pd2 ← addU 64 pd 2
  let st ← dxt1Block u ends tiles 1 pd2 st
  let pdr ← addU 64 pd (z.pitch >>> 2)
  let st ← dxt1Block u ends tiles 2 pdr st
  let pdr2 ← addU 64 pd2 (z.pitch >>> 2)
  dxt1Block u ends tiles 3 pdr2 st

/-- One block on the path with skipped blocks: `src/crunch/crn_unpacker.rs:641-659` -/
def dxt1Skip (u : Unpacker) (ends tiles : List Nat) (skipRight skipBottom : Bool) (bx b pd : Nat)
    (st : LevelState) : Res LevelState := do
  let (p, codec) ← nextIndex msgDxt1 u.tables.selector0 (asU 32 u.colorSelectors.length) st.s0
    st.codec
  if ¬ ((bx ≠ 0 ∧ skipRight) ∨ (b ≠ 0 ∧ skipBottom)) then do
    let t ← idx tiles (bx + b * 2)
    let e ← idx ends t
    let dst ← writeInt st.dst pd e
    let s ← idx u.colorSelectors p
    let pd1 ← addU 64 pd 1
    let dst ← writeInt dst pd1 s
    pure { st with codec, s0 := p, dst }
  else pure { st with codec, s0 := p }

/-- The blocks of a chunk at the right or the bottom border: `src/crunch/crn_unpacker.rs:637-662` -/
def dxt1Border (u : Unpacker) (z : LevelSize) (ends tiles : List Nat) (skipRight skipBottom : Bool)
    (blockDst : Nat) (st : LevelState) : Res LevelState :=
  Res.forRange 2 (fun b st => do
    let r ← mulU 32 z.pitch b
    let pd ← addU 64 blockDst r
    let (_, st) ← Res.forRange 2 (fun bx (s : Nat × LevelState) => do
      let (pd, st) := s
      let st ← dxt1Skip u ends tiles skipRight skipBottom bx b pd st
      let pd ← addU 64 pd 2
      pure (pd, st)) (pd >>> 2, st)
    pure st) st

/-- One chunk of `unpack_dxt1`: `src/crunch/crn_unpacker.rs:538-663` -/
def dxt1Chunk (u : Unpacker) (z : LevelSize) (x y blockDst : Nat) (st : LevelState) :
    Res LevelState := do
  let skipBottom ← z.skipBottom y
  let (enc, st) ← nextEncoding msgDxt1 u.tables.encoding st
  let n ← idx numTilesTable enc
  let (ends, e0, codec) ← tileEndpoints msgDxt1 u.tables.endpoint0 u.colorEndpoints n st.e0 st.codec
  let st := { st with e0, codec }
  let tiles ← idx tilesTable enc
  let skipRight ← z.skipRight x
  if !skipBottom && !skipRight then dxt1Full u z ends tiles (blockDst >>> 2) st
  else dxt1Border u z ends tiles skipRight skipBottom blockDst st

/-! ### DXT5, DXT5A and DXN -/

/-- The two loops over the blocks of a chunk in `unpack_dxt5`, `unpack_dxt5a` and `unpack_dxn`:
`src/crunch/crn_unpacker.rs:745-824`, `889-942` and `1022-1108`. `block bx by visible pd st` is the
body of the inner loop, `words` the number of words of a block. -/
def blockLoop (z : LevelSize) (words cb : Nat) (skipRight skipBottom : Bool) (blockDst : Nat)
    (block : Nat → Bool → Nat → LevelState → Res LevelState) (st : LevelState) :
    Res LevelState := do
  let (_, st) ← Res.forRange 2 (fun b (s : Nat × LevelState) => do
    let (pd, st) ← Res.forRange 2 (fun bx (s : Nat × LevelState) => do
      let (pd, st) := s
      let visible := !(bx ≠ 0 && skipRight || b ≠ 0 && skipBottom)
      let st ← block (bx + b * 2) visible pd st
      let pd ← addU 64 pd words
      pure (pd, st)) s
    let pd ← shlU 64 pd 2
    let d ← addI 32 (-(cb : Int) * 2) (asI 32 z.pitch)
    let v ← addI 32 (asI 32 pd) d
    let pd ← shrU 64 (asUI 64 v) 2
    pure (pd, st)) (blockDst >>> 2, st)
  pure st

/-- The two words of a block of eight values, an alpha block: `src/crunch/crn_unpacker.rs:768-784`,
`909-924` and `1049-1075`. -/
def writeAlpha (u : Unpacker) (e p pd : Nat) (dst : List UInt8) : Out (List UInt8) := do
  let i ← mulU 32 p 3
  let sel ← sliceFrom u.alphaSelectors i
  let v0 ← idx sel 0
  let hi ← shlU 32 v0 16
  let dst ← writeInt dst pd (e ||| hi)
  let v1 ← idx sel 1
  let v2 ← idx sel 2
  let hi ← shlU 32 v2 16
  let pd1 ← addU 64 pd 1
  writeInt dst pd1 (v1 ||| hi)

/-- The error of `unpack_dxt5`: `src/crunch/crn_unpacker.rs:712`. -/
def msgDxt5 : String := "Failed to decord DXT5 Texture"

/-- One block of `unpack_dxt5`: `src/crunch/crn_unpacker.rs:749-816` -/
def dxt5Block (u : Unpacker) (alphaEnds colorEnds tiles : List Nat) (q : Nat) (visible : Bool)
    (pd : Nat) (st : LevelState) : Res LevelState := do
  let (p0, codec) ← nextIndex msgDxt5 u.tables.selector1 u.header.alphaSelectors.num st.s0 st.codec
  let (p1, codec) ← nextIndex msgDxt5 u.tables.selector0 (asU 32 u.colorSelectors.length) st.s1 codec
  if visible then do
    let t ← idx tiles q
    let e ← idx alphaEnds t
    let dst ← writeAlpha u e p0 pd st.dst
    let e ← idx colorEnds t
    let pd2 ← addU 64 pd 2
    let dst ← writeInt dst pd2 e
    let s ← idx u.colorSelectors p1
    let pd3 ← addU 64 pd 3
    let dst ← writeInt dst pd3 s
    pure { st with codec, s0 := p0, s1 := p1, dst }
  else pure { st with codec, s0 := p0, s1 := p1 }

/-- One chunk of `unpack_dxt5`: `src/crunch/crn_unpacker.rs:706-824` -/
def dxt5Chunk (u : Unpacker) (z : LevelSize) (x y blockDst : Nat) (st : LevelState) :
    Res LevelState := do
  let skipBottom ← z.skipBottom y
  let (enc, st) ← nextEncoding msgDxt5 u.tables.encoding st
  let n ← idx numTilesTable enc
  let tiles ← idx tilesTable enc
  let skipRight ← z.skipRight x
  let (alphaEnds, e0, codec) ←
    tileEndpoints msgDxt5 u.tables.endpoint1 u.alphaEndpoints n st.e0 st.codec
  let (colorEnds, e1, codec) ←
    tileEndpoints msgDxt5 u.tables.endpoint0 u.colorEndpoints n st.e1 codec
  blockLoop z 4 16 skipRight skipBottom blockDst (dxt5Block u alphaEnds colorEnds tiles)
    { st with e0, e1, codec }

/-- The error of `unpack_dxt5a`: `src/crunch/crn_unpacker.rs:869`. -/
def msgDxt5a : String := "Failed to decord DXT5A Texture"

/-- One block of `unpack_dxt5a`: `src/crunch/crn_unpacker.rs:892-933` -/
def dxt5aBlock (u : Unpacker) (ends tiles : List Nat) (q : Nat) (visible : Bool) (pd : Nat)
    (st : LevelState) : Res LevelState := do
  let (p0, codec) ← nextIndex msgDxt5a u.tables.selector1 u.header.alphaSelectors.num st.s0 st.codec
  if visible then do
    let t ← idx tiles q
    let e ← idx ends t
    let dst ← writeAlpha u e p0 pd st.dst
    pure { st with codec, s0 := p0, dst }
  else pure { st with codec, s0 := p0 }

/-- One chunk of `unpack_dxt5a`: `src/crunch/crn_unpacker.rs:862-942` -/
def dxt5aChunk (u : Unpacker) (z : LevelSize) (x y blockDst : Nat) (st : LevelState) :
    Res LevelState := do
  let skipBottom ← z.skipBottom y
  let (enc, st) ← nextEncoding msgDxt5a u.tables.encoding st
  let n ← idx numTilesTable enc
  let tiles ← idx tilesTable enc
  let skipRight ← z.skipRight x
  let (ends, e0, codec) ←
    tileEndpoints msgDxt5a u.tables.endpoint1 u.alphaEndpoints n st.e0 st.codec
  blockLoop z 2 8 skipRight skipBottom blockDst (dxt5aBlock u ends tiles) { st with e0, codec }

/-- The error of `unpack_dxn`: `src/crunch/crn_unpacker.rs:990`. -/
def msgDxn : String := "Failed to decord DXN Texture"

/-- One block of `unpack_dxn`: `src/crunch/crn_unpacker.rs:1026-1101` -/
def dxnBlock (u : Unpacker) (ends0 ends1 tiles : List Nat) (q : Nat) (visible : Bool) (pd : Nat)
    (st : LevelState) : Res LevelState := do
  let (p0, codec) ← nextIndex msgDxn u.tables.selector1 u.header.alphaSelectors.num st.s0 st.codec
  let (p1, codec) ← nextIndex msgDxn u.tables.selector1 u.header.alphaSelectors.num st.s1 codec
  if visible then do
    let t ← idx tiles q
    let e ← idx ends0 t
    let dst ← writeAlpha u e p0 pd st.dst
    let e ← idx ends1 t
    let pd2 ← addU 64 pd 2
    let dst ← writeAlpha u e p1 pd2 dst
    pure { st with codec, s0 := p0, s1 := p1, dst }
  else pure { st with codec, s0 := p0, s1 := p1 }

/-- One chunk of `unpack_dxn`: `src/crunch/crn_unpacker.rs:983-1108` -/
def dxnChunk (u : Unpacker) (z : LevelSize) (x y blockDst : Nat) (st : LevelState) :
    Res LevelState := do
  let skipBottom ← z.skipBottom y
  let (enc, st) ← nextEncoding msgDxn u.tables.encoding st
  let n ← idx numTilesTable enc
  let tiles ← idx tilesTable enc
  let skipRight ← z.skipRight x
  let (ends0, e0, codec) ←
    tileEndpoints msgDxn u.tables.endpoint1 u.alphaEndpoints n st.e0 st.codec
  let (ends1, e1, codec) ←
    tileEndpoints msgDxn u.tables.endpoint1 u.alphaEndpoints n st.e1 codec
  blockLoop z 4 16 skipRight skipBottom blockDst (dxnBlock u ends0 ends1 tiles)
    { st with e0, e1, codec }

/-! ### Levels -/

/-- The match on the format in `unpack_level_2`: `src/crunch/crn_unpacker.rs:444-501` -/
def unpackFormat (u : Unpacker) (z : LevelSize) (st : LevelState) : Res LevelState :=
  let f := u.header.format
  if f = 0 then chunkLoop u.header.faces z.chunksX z.chunksY z.pitch 8 (dxt1Chunk u z) st
  else if 2 ≤ f ∧ f ≤ 6 then
    chunkLoop u.header.faces z.chunksX z.chunksY z.pitch 16 (dxt5Chunk u z) st
  else if f = 9 then chunkLoop u.header.faces z.chunksX z.chunksY z.pitch 8 (dxt5aChunk u z) st
  else if f = 7 ∨ f = 8 then
    chunkLoop u.header.faces z.chunksX z.chunksY z.pitch 16 (dxnChunk u z) st
  else Res.fail "Invalid format for unpacking."

/-- `unpack_level_2(p_src, src_size, dst_size, row_pitch, level_index)`:
`src/crunch/crn_unpacker.rs:409-504` -/
def unpackLevel2 (u : Unpacker) (src : List UInt8) (srcSize dstSize rowPitch level : Nat) :
    Res (List UInt8) := do
  let w ← shrU 32 u.header.width level
  let h ← shrU 32 u.header.height level
  let w3 ← addU 32 (max w 1) 3
  let h3 ← addU 32 (max h 1) 3
  let blocksX := w3 >>> 2
  let blocksY := h3 >>> 2
  let blockSize := if u.header.format = 0 ∨ u.header.format = 9 then 8 else 16
  let minimal ← mulU 32 blockSize blocksX
  if rowPitch ≠ 0 ∧ (rowPitch < minimal ∨ rowPitch &&& 3 ≠ 0) then
    Res.fail "Crunch Row size is below the minimum allowed."
  else do
    let pitch := if rowPitch = 0 then minimal else rowPitch
    let size ← mulU 64 dstSize u.header.faces
    let need ← mulU 32 pitch blocksY
    if dstSize < need then
      Res.fail "Destination buffer size is smaller than what expected to decompress."
    else do
      let bx1 ← addU 32 blocksX 1
      let by1 ← addU 32 blocksY 1
      let codec ← Res.orErr "Failed to initialize the decoding process." (Codec.start src srcSize)
      let st ← unpackFormat u { blocksX, blocksY, chunksX := bx1 >>> 1, chunksY := by1 >>> 1, pitch }
        { codec, dst := List.replicate size 0 }
      pure st.dst

/-- The offset of the level after `level`: `src/crunch/crn_unpacker.rs:394-397` -/
def nextLevelOfs (u : Unpacker) (level : Nat) : Out Nat := do
  let l1 ← addU 32 level 1
  if l1 < u.header.levels then idx u.header.levelOfs l1 else pure u.dataSize

/-- `crnd_unpack_level` and `unpack_level`: `src/crunch/crn_unpacker.rs:376-408` -/
def unpackLevel (u : Unpacker) (dstSize rowPitch level : Nat) : Res (List UInt8) :=
  if dstSize < 8 ∨ level ≥ 16 then Res.fail "Destination buffer size is too small."
  else do
    let cur ← idx u.header.levelOfs level
    let next ← nextLevelOfs u level
    if next ≤ cur then Res.fail "Level offset mismatch."
    else do
      let src ← sliceFrom u.data cur
      let size ← subU 32 next cur
      unpackLevel2 u src size dstSize rowPitch level

/-- `crnd_unpack_begin(p_data, data_size)`: `src/crunch/crn_decomp.rs:191-200` -/
def unpackBegin (data : List UInt8) (dataSize : Nat) : Res Unpacker :=
  if dataSize < 62 then Res.fail "Data size is below the minimum allowed."
  else Res.orErr "Failed to initialize Crunch decompressor." (Unpacker.init data dataSize)

/-- `crnd_get_crn_format_bits_per_texel` and `crnd_get_bytes_per_dxt_block`:
`src/crunch/crn_decomp.rs:202-221` -/
def bytesPerDxtBlock (f : CrnFormat) : Res Nat :=
  match f with
  | .dxt1 | .dxt5a | .etc1 => pure ((4 <<< 4) >>> 3)
  | .dxt3 | .dxt5 | .dxnXy | .dxnYx | .dxt5CcxY | .dxt5XGxR | .dxt5XGbr | .dxt5Agbr =>
    pure ((8 <<< 4) >>> 3)
  | _ => Res.fail "Texture format is not supported."

/-- `CrunchDecodeHandler`: `src/crunch.rs:12-16` -/
structure Handler where
  format : CrnFormat
  dxtData : List UInt8
  faces : Nat

/-- `crunch_unpack_level(data, data_size, level_index)`: `src/crunch.rs:18-43` -/
def crunchUnpackLevel (data : List UInt8) (dataSize level : Nat) : Res Handler := do
  let (ok, info) ← crndGetTextureInfo CrnTextureInfo.default data dataSize
  if !ok then Res.fail "Invalid crunch texture encoding."
  else do
    let u ← unpackBegin data dataSize
    let w ← shrU 32 info.width level
    let h ← shrU 32 info.height level
    let w3 ← addU 32 (max 1 w) 3
    let h3 ← addU 32 (max 1 h) 3
    let blocksX := max 1 (w3 >>> 2)
    let blocksY := max 1 (h3 >>> 2)
    let bytes ← bytesPerDxtBlock info.format
    let rowPitch ← mulU 32 blocksX bytes
    let total ← mulU 32 rowPitch blocksY
    let dxtData ← unpackLevel u total rowPitch level
    pure { format := info.format, dxtData, faces := info.faces }

/-- `decode_crunch(data, width, height, image)`: `src/crunch.rs:45-68` -/
def decodeCrunch (data : List UInt8) (width height : Nat) (image : List UInt32) :
    Out (Except String Unit × List UInt32) :=
  match crunchUnpackLevel data (asU 32 data.length) 0 with
  | .panic => .panic
  | .fail msg => .ok (.error msg, image)
  | .ok h =>
    match h.format with
    | .dxt1 => decodeBc1 h.dxtData width height image
    | .dxt5 | .dxt5CcxY | .dxt5XGbr | .dxt5Agbr | .dxt5XGxR =>
      decodeBc3 h.dxtData width height image
    | .dxt5a => decodeBc4 h.dxtData width height image
    | .dxnXy | .dxnYx => decodeBc5 h.dxtData width height image
    | _ => .ok (.error "Invalid crunch format.", image)

end Verif.Model.Crn
