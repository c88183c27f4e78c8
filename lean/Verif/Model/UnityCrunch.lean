import Verif.Model.Crunch
import Verif.Model.Etc

/-!
# Model of the unpacker for Unity's variant of Crunch

`src/unitycrunch/crn_unpacker.rs`, `src/unitycrunch/crn_decomp.rs` and `src/unitycrunch.rs`.

Header, prefix codes, the tables (`init_tables`, `src/unitycrunch/crn_unpacker.rs:71-121`), the DXT
colour endpoints (`207-223`) and the alpha endpoints (`298-332`) are read by the same code as in
`src/crunch`; the model uses the same definitions for them.
-/

namespace Verif.Model.Crn.Unity

open Verif Verif.Model Verif.Model.Crn

variable [Build]

/-! ## The palettes -/

/-- `has_etc_color_blocks`: `src/unitycrunch/crn_unpacker.rs:154-159` -/
def hasEtc (format : Nat) : Bool :=
  format = 10 || format = 11 || format = 12 || format = 13 || format = 14

/-- `has_subblocks`: `src/unitycrunch/crn_unpacker.rs:161-163` -/
def hasSubblocks (format : Nat) : Bool := format = 10 || format = 11 || format = 12

/-- One ETC endpoint, four components in one word: `src/unitycrunch/crn_unpacker.rs:191-197` -/
def etcEndpointStep (dm : DataModel) (a : Nat) (k : Codec) : Res (Nat × Codec) := do
  let (a, k) ← Res.forRange 4 (fun i (st : Nat × Codec) => do
    let (a, k) := st
    let (s, k) ← k.decode dm
    let v ← shlU 32 s (8 * i)
    let a ← addU 32 a v
    pure (a, k)) (a, k)
  pure (a &&& 0x1F1F1F1F, k)

/-- The word stored for an ETC endpoint: `src/unitycrunch/crn_unpacker.rs:198-205` -/
def etcEndpointWord (sub : Bool) (a : Nat) : Out Nat :=
  if sub then pure a
  else do
    let x ← shlU 32 (a &&& 0x07000000) 5
    let y ← shlU 32 (a &&& 0x07000000) 2
    let z ← shlU 32 (a &&& 0x001F1F1F) 3
    pure (x ||| y ||| 0x02000000 ||| z)

/-- `decode_color_endpoints()` for the ETC formats: `src/unitycrunch/crn_unpacker.rs:152-227` -/
def decodeEtcEndpoints (data : List UInt8) (h : CrnHeader) : Res (List Nat) := do
  let buf ← sliceFrom data h.colorEndpoints.ofs
  let k ← Codec.start buf h.colorEndpoints.size
  let (dm, k) ← k.receiveModel
  let (_, _, l) ← Res.forRange h.colorEndpoints.num
    (fun _ (st : Nat × Codec × List Nat) => do
      let (a, k, l) := st
      let (a, k) ← etcEndpointStep dm a k
      let v ← etcEndpointWord (hasSubblocks h.format) a
      pure (a, k, l ++ [v])) (0, k, [])
  pure l

/-- The eight symbols of one entry of selectors, `s ^= decode(dm) << j`:
`src/unitycrunch/crn_unpacker.rs:264-269` -/
def xorWord (dm : DataModel) (s : Nat) (k : Codec) : Res (Nat × Codec) :=
  Res.forRange 8 (fun i (st : Nat × Codec) => do
    let (s, k) := st
    let (d, k) ← k.decode dm
    let v ← shlU 32 d (4 * i)
    pure (s ^^^ v, k)) (s, k)

/-- `!x` for `u32`, as in `src/unitycrunch/crn_unpacker.rs:271`. -/
def not32 (x : Nat) : Nat := x ^^^ 0xFFFFFFFF

/-- `((s ^ s << 1) & 0xAAAAAAAA) | (s >> 1 & 0x55555555)`:
`src/unitycrunch/crn_unpacker.rs:292` -/
def dxtSelectorWord (s : Nat) : Out Nat := do
  let l ← shlU 32 s 1
  pure (((s ^^^ l) &&& 0xAAAAAAAA) ||| ((s >>> 1) &&& 0x55555555))

/-- `(!s & 0xAAAAAAAA) | (!(s ^ s >> 1) & 0x55555555)`: `src/unitycrunch/crn_unpacker.rs:271` -/
def etcSelector (s : Nat) : Nat :=
  (not32 s &&& 0xAAAAAAAA) ||| (not32 (s ^^^ (s >>> 1)) &&& 0x55555555)

/-- The loops over the 4×4 texels that distribute the bits of `selector`:
`src/unitycrunch/crn_unpacker.rs:272-290`. The texel in row `h` and column `w` is taken from bit
`first h w`; `t` is `8 + 4 * w + h`, because it grows by 4 with every column and by `16 - 15` with
every row. -/
def etcSelectorWord (selector : Nat) (first : Nat → Nat → Nat) : Out Nat :=
  forRange 4 (fun h (word : Nat) =>
    forRange 4 (fun w (word : Nat) => do
      let s ← shrU 32 selector (first h w)
      let hi ← shlU 32 (s &&& 1) 16
      let v ← shlU 32 (((s >>> 1) &&& 1) ||| hi) ((8 + 4 * w + h) &&& 15)
      pure (word ||| v)) word) 0

/-- The words stored for one entry of selectors: `src/unitycrunch/crn_unpacker.rs:270-293` -/
def selectorWords (format s : Nat) : Out (List Nat) :=
  if hasEtc format then
    if hasSubblocks format then do
      let a ← etcSelectorWord (etcSelector s) (fun h w => (w <<< 3) ||| (h <<< 1))
      let b ← etcSelectorWord (etcSelector s) (fun h w => (h <<< 3) ||| (w <<< 1))
      pure [a, b]
    else do
      let b ← etcSelectorWord (etcSelector s) (fun h w => (h <<< 3) ||| (w <<< 1))
      pure [b]
  else do
    let v ← dxtSelectorWord s
    pure [v]

/-- `decode_color_selectors()`: `src/unitycrunch/crn_unpacker.rs:228-297`. Every entry of the vector
is written once (or starts at 0), in order; the model appends them. -/
def decodeSelectors (data : List UInt8) (h : CrnHeader) : Res (List Nat) := do
  let buf ← sliceFrom data h.colorSelectors.ofs
  let k ← Codec.start buf h.colorSelectors.size
  let (dm, k) ← k.receiveModel
  let (_, _, l) ← Res.forRange h.colorSelectors.num
    (fun _ (st : Nat × Codec × List Nat) => do
      let (s, k, l) := st
      let (s, k) ← xorWord dm s k
      let v ← selectorWords h.format s
      pure (s, k, l ++ v)) (0, k, [])
  pure l

/-- `dxt5_from_linear`: `src/unitycrunch/crn_unpacker.rs:350-353` -/
def dxt5Pairs : List Nat :=
  (List.range 64).map fun i =>
    dxt5FromLinear.getD (i &&& 7) 0 ||| (dxt5FromLinear.getD (i >>> 3) 0 <<< 3)

/-- Eight selectors of three bits: `src/unitycrunch/crn_unpacker.rs:360-366` and `367-373`; the
state is (`s0_linear`, `s0`). -/
def linearHalf (dm : DataModel) (lin : Nat) (k : Codec) : Res (Nat × Nat × Codec) :=
  Res.forRange 4 (fun i (st : Nat × Nat × Codec) => do
    let (lin, s, k) := st
    let (d, k) ← k.decode dm
    let v ← shlU 32 d (6 * i)
    let lin := lin ^^^ v
    let r ← shrU 32 lin (6 * i)
    let t ← idx dxt5Pairs (r &&& 0x3F)
    let t ← shlU 32 t (6 * i)
    pure (lin, s ||| t, k)) (lin, 0, k)

/-- `decode_alpha_selectors()`: `src/unitycrunch/crn_unpacker.rs:333-383` -/
def decodeAlphaSelectors (data : List UInt8) (h : CrnHeader) : Res (List Nat) := do
  let buf ← sliceFrom data h.alphaSelectors.ofs
  let k ← Codec.start buf h.alphaSelectors.size
  let (dm, k) ← k.receiveModel
  let (_, _, _, l) ← Res.forRange h.alphaSelectors.num
    (fun _ (st : Nat × Nat × Codec × List Nat) => do
      let (lin0, lin1, k, l) := st
      let (lin0, s0, k) ← linearHalf dm lin0 k
      let (lin1, s1, k) ← linearHalf dm lin1 k
      let m ← shlU 32 s1 8
      pure (lin0, lin1, k, l ++ [asU 16 s0, asU 16 ((s0 >>> 16) ||| m), asU 16 (s1 >>> 8)]))
    (0, 0, k, [])
  pure l

/-- `WRITE_OR_U8_INTO_U16_BUFFER!(buf, index, val)`: `src/macros.rs:69-79`, for `val < 256` -/
def orByte (buf : List Nat) (index val : Nat) : Out (List Nat) := do
  let v ← idx buf (index >>> 1)
  let hi := v >>> 8
  let lo := v &&& 0xff
  if index &&& 1 ≠ 1 then setIdx buf (index >>> 1) ((hi <<< 8) ||| (lo ||| val))
  else setIdx buf (index >>> 1) (((hi ||| val) <<< 8) ||| lo)

/-- The three bits `s` that end before bit `d`, counted from byte `base` with the highest bit of
each byte first: `src/unitycrunch/crn_unpacker.rs:423-436`, `438-451` and `494-507` -/
def orBits (buf : List Nat) (base d s : Nat) : Out (List Nat) := do
  let byteOfs := d >>> 3
  let bitOfs := d &&& 7
  let i ← addU 64 base byteOfs
  let buf ← orByte buf i ((s <<< (8 - bitOfs)) &&& 0xff)
  if bitOfs < 3 then do
    let i ← addU 64 base byteOfs
    let i ← subU 64 i 1
    orByte buf i (s >>> bitOfs)
  else pure buf

/-- The selector of texel `p` and the symbol it comes from: `src/unitycrunch/crn_unpacker.rs:409-421`
and `480-492`; the state is (`s_linear`, `s_group`). -/
def etcAlphaSelector (dm : DataModel) (p : Nat) (lin : List Nat) (group : Nat) (k : Codec) :
    Res (Nat × List Nat × Nat × Codec) := do
  let (lin, group, k) ← (if p &&& 1 = 1 then pure (lin, group >>> 3, k)
    else do
      let (d, k) ← k.decode dm
      let v ← idx lin (p >>> 1)
      let lin ← setIdx lin (p >>> 1) (v ^^^ asU 8 d)
      pure (lin, v ^^^ asU 8 d, k) : Res (List Nat × Nat × Codec))
  let s := group &&& 7
  pure (if s ≤ 3 then 3 - s else s, lin, group, k)

/-- The 16 texels of an entry in `decode_alpha_selectors_etc`: `d` is `3 * (p + 1)` for the first
six bytes, and for the second six bytes `9 * ((p & 3) - (p >> 2))` is added:
`src/unitycrunch/crn_unpacker.rs:407-452` -/
def etcAlphaEntry (dm : DataModel) (base : Nat) (lin buf : List Nat) (k : Codec) :
    Res (List Nat × List Nat × Codec) := do
  let (lin, _, buf, k) ← Res.forRange 16 (fun p (st : List Nat × Nat × List Nat × Codec) => do
    let (lin, group, buf, k) := st
    let (s, lin, group, k) ← etcAlphaSelector dm p lin group k
    let buf ← orBits buf base (3 * (p + 1)) s
    let buf ← orBits buf (base + 6) (3 * (p + 1) + 9 * (p &&& 3) - 9 * (p >>> 2)) s
    pure (lin, group, buf, k)) (lin, 0, buf, k)
  pure (lin, buf, k)

/-- `decode_alpha_selectors_etc()`: `src/unitycrunch/crn_unpacker.rs:384-457` -/
def decodeAlphaSelectorsEtc (data : List UInt8) (h : CrnHeader) : Res (List Nat) := do
  let b ← sliceFrom data h.alphaSelectors.ofs
  let k ← Codec.start b h.alphaSelectors.size
  let (dm, k) ← k.receiveModel
  let (_, buf, _) ← Res.forRange h.alphaSelectors.num
    (fun i (st : List Nat × List Nat × Codec) => do
      let (lin, buf, k) := st
      etcAlphaEntry dm (12 * i) lin buf k)
    (List.replicate 8 0, List.replicate (h.alphaSelectors.num * 6 + 1) 0, k)
  pure buf

/-- The 16 texels of an entry in `decode_alpha_selectors_etcs`:
`src/unitycrunch/crn_unpacker.rs:478-508` -/
def etcsAlphaEntry (dm : DataModel) (base : Nat) (lin buf : List Nat) (k : Codec) :
    Res (List Nat × List Nat × Codec) := do
  let (lin, _, buf, k) ← Res.forRange 16 (fun p (st : List Nat × Nat × List Nat × Codec) => do
    let (lin, group, buf, k) := st
    let (s, lin, group, k) ← etcAlphaSelector dm p lin group k
    let buf ← orBits buf base (3 * (p + 1) + 9 * (p &&& 3) - 9 * (p >>> 2)) s
    pure (lin, group, buf, k)) (lin, 0, buf, k)
  pure (lin, buf, k)

/-- `decode_alpha_selectors_etcs()`: `src/unitycrunch/crn_unpacker.rs:458-512` -/
def decodeAlphaSelectorsEtcs (data : List UInt8) (h : CrnHeader) : Res (List Nat) := do
  let b ← sliceFrom data h.alphaSelectors.ofs
  let k ← Codec.start b h.alphaSelectors.size
  let (dm, k) ← k.receiveModel
  let (_, buf, _) ← Res.forRange h.alphaSelectors.num
    (fun i (st : List Nat × List Nat × Codec) => do
      let (lin, buf, k) := st
      etcsAlphaEntry dm (6 * i) lin buf k)
    (List.replicate 8 0, List.replicate (h.alphaSelectors.num * 3 + 1) 0, k)
  pure buf

/-- The choice between the alpha selector functions: `src/unitycrunch/crn_unpacker.rs:137-148` -/
def decodeAlphaSelectorsAny (data : List UInt8) (h : CrnHeader) : Res (List Nat) :=
  if h.format = 14 then decodeAlphaSelectorsEtcs data h
  else if h.format = 12 then decodeAlphaSelectorsEtc data h
  else decodeAlphaSelectors data h

/-- `init(p_data, data_size)` with `decode_palettes()`: `src/unitycrunch/crn_unpacker.rs:56-70` and
`122-151` -/
def init (data : List UInt8) (dataSize : Nat) : Res Unpacker := do
  match ← crndGetHeader data dataSize with
  | none => Res.fail ""
  | some header => do
    let tables ← initTables data header
    let (colorEndpoints, colorSelectors) ← (if header.colorEndpoints.num ≠ 0 then do
        let e ← (if hasEtc header.format then decodeEtcEndpoints data header
          else decodeColorEndpoints data header)
        let s ← decodeSelectors data header
        pure (e, s)
      else pure ([], []))
    let (alphaEndpoints, alphaSelectors) ← (if header.alphaEndpoints.num ≠ 0 then do
        let e ← decodeAlphaEndpoints data header
        let s ← decodeAlphaSelectorsAny data header
        pure (e, s)
      else pure ([], []))
    pure { data, dataSize, header, tables, colorEndpoints, colorSelectors, alphaEndpoints,
           alphaSelectors }

/-! ## Blocks -/

/-- The endpoint indices: `color_endpoint_index`, `alpha0_endpoint_index` and
`alpha1_endpoint_index`: `src/unitycrunch/crn_unpacker.rs:912-913` and the other functions. -/
structure Idx where
  c : Nat := 0
  a0 : Nat := 0
  a1 : Nat := 0
deriving DecidableEq, Repr

/-- The conversion of the indices to `u16`, as in `src/unitycrunch/crn_unpacker.rs:680`. -/
def Idx.u16 (i : Idx) : Idx := ⟨asU 16 i.c, asU 16 i.a0, asU 16 i.a1⟩

/-- `BlockBufferElement`: `src/unitycrunch/crn_unpacker.rs:9-16` -/
structure BufElem where
  ref : Nat := 0
  idx : Idx := {}
deriving DecidableEq, Repr

/-- The variables of the unpack functions: `src/unitycrunch/crn_unpacker.rs:647-649`, and the same in
the others. A function uses only the indices of its format; the
others keep the value 0, here and in the buffer, so it does not matter that the model copies
them. -/
structure UState where
  codec : Codec
  buffer : List BufElem
  cur : Idx := {}
  diag : Idx := {}
  group : Nat := 0
  pos : Nat := 0
  dst : List UInt8

/-- `index += decode(dm); if index >= num { index -= num }`:
`src/unitycrunch/crn_unpacker.rs:672-679` -/
def nextEndpoint (msg : String) (dm : DataModel) (num prev : Nat) (k : Codec) :
    Res (Nat × Codec) := do
  let (d, k) ← Res.orErr msg (k.decode dm)
  let i ← addU 64 prev d
  let i ← (if i ≥ num then subU 64 i num else pure i : Out Nat)
  pure (i, k)

/-- What differs between the unpack functions: how the indices of a block with new endpoints are
read, how the selector indices are read, and how a block is written:
`src/unitycrunch/crn_unpacker.rs:671-702`, and the same place in the others. -/
structure Kind where
  msg : String
  fresh : Idx → Codec → Res (Idx × Codec)
  select : Codec → Res ((Nat × Nat) × Codec)
  write : Idx → Nat × Nat → Nat → List UInt8 → Out (List UInt8)

/-- The reference of a block and the state after it: `src/unitycrunch/crn_unpacker.rs:655-670`, and
the same text in the other three functions -/
def reference (msg : String) (dm : DataModel) (y x : Nat) (st : UState) : Res (Nat × UState) := do
  let (group, codec) ← (if y &&& 1 = 0 ∧ x &&& 1 = 0 then do
      let (s, k) ← Res.orErr msg (st.codec.decode dm)
      pure (asU 8 s, k)
    else pure (st.group, st.codec) : Res (Nat × Codec))
  let b ← idx st.buffer x
  if y &&& 1 = 1 then pure (asU 8 b.ref, { st with codec, group })
  else do
    let buffer ← setIdx st.buffer x { b with ref := (group >>> 2) &&& 3 }
    pure (group &&& 3, { st with codec, group := group >>> 4, buffer })

/-- The endpoint indices of a block with the given reference:
`src/unitycrunch/crn_unpacker.rs:671-685`, `750-776`, `856-870` and `937-963` -/
def endpoints (kind : Kind) (x ref : Nat) (st : UState) : Res UState := do
  let b ← idx st.buffer x
  if ref = 0 then do
    let (cur, codec) ← kind.fresh st.cur st.codec
    let buffer ← setIdx st.buffer x { b with idx := cur.u16 }
    pure { st with cur, codec, buffer }
  else if ref = 1 then do
    let buffer ← setIdx st.buffer x { b with idx := st.cur.u16 }
    pure { st with buffer }
  else pure { st with cur := b.idx }

/-- One block: `src/unitycrunch/crn_unpacker.rs:652-702`, `731-810`, `837-890` and `918-1000`.
`visible` starts as `y < output_height` and stays false once `x` is `output_width`. -/
def block (kind : Kind) (dm : DataModel) (words ow oh y x : Nat) (st : UState) : Res UState := do
  let (ref, st) ← reference kind.msg dm y x st
  let st ← endpoints kind x ref st
  let (sel, codec) ← kind.select st.codec
  let dst ← (if y < oh ∧ x < ow then kind.write st.cur sel st.pos st.dst else pure st.dst
    : Out (List UInt8))
  let pos ← addU 64 st.pos words
  pure { st with codec, dst, pos }

/-- The loops over faces, rows and columns: `src/unitycrunch/crn_unpacker.rs:640-706`, and the same
in the other functions. `bufWidth` is the number of buffer elements per block column. -/
def loop (bufWidth words faces pitch ow oh : Nat) (step : Nat → Nat → UState → Res UState)
    (codec : Codec) (dst : List UInt8) : Res UState := do
  let w1 ← addU 32 ow 1
  let h1 ← addU 32 oh 1
  let width := w1 &&& 0xFFFFFFFE
  let height := h1 &&& 0xFFFFFFFE
  let w ← shlU 32 width (words / 2)
  let delta ← subU 32 (pitch >>> 2) w
  let delta := asI 32 delta
  let n ← shlU 32 width (bufWidth - 1)
  Res.forRange faces (fun _ st =>
    Res.forRange height (fun y st => do
      let st ← Res.forRange width (fun x st => step y x st) st
      let pos ← addU 64 st.pos (asUI 64 delta)
      pure { st with pos }) st)
    { codec, buffer := List.replicate n {}, dst }

/-- A selector index: `src/unitycrunch/crn_unpacker.rs:686-689` -/
def selector (msg : String) (dm : DataModel) (k : Codec) : Res (Nat × Codec) :=
  Res.orErr msg (k.decode dm)

/-- The two words of an alpha block: `src/unitycrunch/crn_unpacker.rs:787-798` and others; `first`
is `alpha0_selector_index * 3`. -/
def writeAlphaWords (u : Unpacker) (e first pd : Nat) (dst : List UInt8) : Out (List UInt8) := do
  let sel ← sliceFrom u.alphaSelectors first
  let ev ← idx u.alphaEndpoints e
  let v0 ← idx sel 0
  let hi ← shlU 32 v0 16
  let dst ← writeInt dst pd (ev ||| hi)
  let v1 ← idx sel 1
  let v2 ← idx sel 2
  let hi ← shlU 32 v2 16
  let pd1 ← addU 64 pd 1
  writeInt dst pd1 (v1 ||| hi)

/-- What is particular in `unpack_dxt1`: `src/unitycrunch/crn_unpacker.rs:632-708` -/
def dxt1Kind (u : Unpacker) : Kind where
  msg := "Failed to decode DXT1 Texture."
  fresh i k := do
    let (c, k) ← nextEndpoint "Failed to decode DXT1 Texture." u.tables.endpoint0
      u.colorEndpoints.length i.c k
    pure ({ i with c }, k)
  select k := do
    let (s, k) ← selector "Failed to decode DXT1 Texture." u.tables.selector0 k
    pure ((s, 0), k)
  write i s pd dst := do
    let e ← idx u.colorEndpoints i.c
    let dst ← writeInt dst pd e
    let pd1 ← addU 64 pd 1
    let v ← idx u.colorSelectors s.1
    writeInt dst pd1 v

/-- What is particular in `unpack_dxt5`: `src/unitycrunch/crn_unpacker.rs:709-816` -/
def dxt5Kind (u : Unpacker) : Kind where
  msg := "Failed to decode DXT5 Texture."
  fresh i k := do
    let (c, k) ← nextEndpoint "Failed to decode DXT5 Texture." u.tables.endpoint0
      u.colorEndpoints.length i.c k
    let (a0, k) ← nextEndpoint "Failed to decode DXT5 Texture." u.tables.endpoint1
      u.alphaEndpoints.length i.a0 k
    pure ({ i with c, a0 }, k)
  select k := do
    let (s, k) ← selector "Failed to decode DXT5 Texture." u.tables.selector0 k
    let (t, k) ← selector "Failed to decode DXT5 Texture." u.tables.selector1 k
    pure ((s, t), k)
  write i s pd dst := do
    let f ← mulU 64 s.2 3
    let dst ← writeAlphaWords u i.a0 f pd dst
    let e ← idx u.colorEndpoints i.c
    let pd2 ← addU 64 pd 2
    let dst ← writeInt dst pd2 e
    let v ← idx u.colorSelectors s.1
    let pd3 ← addU 64 pd 3
    writeInt dst pd3 v

/-- What is particular in `unpack_dxt5a`: `src/unitycrunch/crn_unpacker.rs:817-896` -/
def dxt5aKind (u : Unpacker) : Kind where
  msg := "Failed to decode DXT5A Texture."
  fresh i k := do
    let (a0, k) ← nextEndpoint "Failed to decode DXT5A Texture." u.tables.endpoint1
      u.alphaEndpoints.length i.a0 k
    pure ({ i with a0 }, k)
  select k := do
    let (t, k) ← selector "Failed to decode DXT5A Texture." u.tables.selector1 k
    pure ((t, 0), k)
  write i s pd dst := do
    let f ← mulU 64 s.1 3
    writeAlphaWords u i.a0 f pd dst

/-- What is particular in `unpack_dxn`: `src/unitycrunch/crn_unpacker.rs:897-1006` -/
def dxnKind (u : Unpacker) : Kind where
  msg := "Failed to decode DXN Texture."
  fresh i k := do
    let (a0, k) ← nextEndpoint "Failed to decode DXN Texture." u.tables.endpoint1
      u.alphaEndpoints.length i.a0 k
    let (a1, k) ← nextEndpoint "Failed to decode DXN Texture." u.tables.endpoint1
      u.alphaEndpoints.length i.a1 k
    pure ({ i with a0, a1 }, k)
  select k := do
    let (s, k) ← selector "Failed to decode DXN Texture." u.tables.selector1 k
    let (t, k) ← selector "Failed to decode DXN Texture." u.tables.selector1 k
    pure ((s, t), k)
  write i s pd dst := do
    let f0 ← mulU 64 s.1 3
    let f1 ← mulU 64 s.2 3
    let dst ← writeAlphaWords u i.a0 f0 pd dst
    let pd2 ← addU 64 pd 2
    writeAlphaWords u i.a1 f1 pd2 dst

/-! ## Blocks with subblocks -/

/-- The reference of a block: `src/unitycrunch/crn_unpacker.rs:1034-1044` and `1152-1162` -/
def etcReference (msg : String) (dm : DataModel) (y x : Nat) (st : UState) :
    Res (Nat × UState) := do
  let b ← idx st.buffer (2 * x)
  if y &&& 1 = 1 then pure (asU 8 b.ref, st)
  else do
    let (s, codec) ← Res.orErr msg (st.codec.decode dm)
    let g := asU 8 s
    let buffer ← setIdx st.buffer (2 * x)
      { b with ref := ((g >>> 2) &&& 3) ||| ((g >>> 4) &&& 12) }
    pure ((g &&& 3) ||| ((g >>> 2) &&& 12), { st with codec, buffer })

/-- The first endpoint indices: `src/unitycrunch/crn_unpacker.rs:1045-1062` and `1163-1193` -/
def etcEndpoints (kind : Kind) (x ref : Nat) (st : UState) : Res UState := do
  let b ← idx st.buffer (2 * x)
  if ref &&& 3 = 0 then do
    let (cur, codec) ← kind.fresh st.cur st.codec
    let buffer ← setIdx st.buffer (2 * x) { b with idx := cur.u16 }
    pure { st with cur, codec, buffer }
  else if ref &&& 3 = 1 then do
    let buffer ← setIdx st.buffer (2 * x) { b with idx := st.cur.u16 }
    pure { st with buffer }
  else if ref &&& 3 = 3 then do
    let buffer ← setIdx st.buffer (2 * x) { b with idx := st.diag.u16 }
    pure { st with cur := st.diag, buffer }
  else pure { st with cur := b.idx }

/-- `to_le_bytes()` of a word, as in `src/unitycrunch/crn_unpacker.rs:1064`. -/
def leBytes4 (v : Nat) : List Nat :=
  [v &&& 0xff, (v >>> 8) &&& 0xff, (v >>> 16) &&& 0xff, (v >>> 24) &&& 0xff]

/-- `diff`: `src/unitycrunch/crn_unpacker.rs:1087-1095` and `1227-1235` -/
def etcDiff (e0 e1 : List Nat) : Out Nat :=
  forRange 3 (fun c (diff : Nat) =>
    if diff = 0 then pure diff
    else do
      let a ← idx e0 c
      let b ← idx e1 c
      let a3 ← addU 8 a 3
      if ¬ (a3 ≥ b) then pure 0
      else do
        let b4 ← addU 8 b 4
        if ¬ (b4 ≥ a) then pure 0 else pure diff) 1

/-- A byte of the endpoints: `src/unitycrunch/crn_unpacker.rs:1097-1102` and `1237-1242` -/
def etcColourByte (diff : Nat) (a b : Nat) : Out Nat := do
  let hi ← shlU 8 a 3
  if diff ≠ 0 then do
    let d ← subI 32 (asI 32 b) (asI 32 a)
    pure (hi ||| asUI 8 (andI 32 d 7))
  else pure ((hi &&& 0xF0) ||| (b >>> 1))

/-- The four bytes of the endpoints of an ETC block: `src/unitycrunch/crn_unpacker.rs:1087-1104` and
`1227-1244` -/
def etcBlockEndpoint (e0 e1 : List Nat) (flip : Nat) : Out (List UInt8) := do
  let diff ← etcDiff e0 e1
  let a0 ← idx e0 0
  let b0 ← idx e1 0
  let r ← etcColourByte diff a0 b0
  let a1 ← idx e0 1
  let b1 ← idx e1 1
  let g ← etcColourByte diff a1 b1
  let a2 ← idx e0 2
  let b2 ← idx e1 2
  let b ← etcColourByte diff a2 b2
  let a3 ← idx e0 3
  let b3 ← idx e1 3
  let t0 ← shlU 8 a3 5
  let t1 ← shlU 8 b3 2
  let df ← shlU 8 diff 1
  pure [UInt8.ofNat r, UInt8.ofNat g, UInt8.ofNat b, UInt8.ofNat (t0 ||| t1 ||| df ||| flip)]

/-- Four bytes at word `pd`: `src/unitycrunch/crn_unpacker.rs:1105-1108` and `1261-1264` -/
def writeBytes4 (dst : List UInt8) (pd : Nat) (b : List UInt8) : Out (List UInt8) := do
  let t ← mulU 64 pd 4
  let b0 ← idx b 0
  let dst ← setIdx dst t b0
  let t1 ← addU 64 t 1
  let b1 ← idx b 1
  let dst ← setIdx dst t1 b1
  let t2 ← addU 64 t 2
  let b2 ← idx b 2
  let dst ← setIdx dst t2 b2
  let t3 ← addU 64 t 3
  let b3 ← idx b 3
  setIdx dst t3 b3

/-- The colour part of a block at word `pd`: the endpoints, and the selectors of the orientation:
`src/unitycrunch/crn_unpacker.rs:1105-1113` and `1261-1269` -/
def writeEtcColour (u : Unpacker) (e0 e1 : List Nat) (flip sel pd : Nat) (dst : List UInt8) :
    Out (List UInt8) := do
  let be ← etcBlockEndpoint e0 e1 flip
  let dst ← writeBytes4 dst pd be
  let pd1 ← addU 64 pd 1
  let v ← idx u.colorSelectors ((sel <<< 1) ||| flip)
  writeInt dst pd1 v

/-- What `unpack_etc1` and `unpack_etc2a` do with a visible block: first and second colour endpoint,
alpha endpoint, flip, selectors and position: `src/unitycrunch/crn_unpacker.rs:1085-1114` and
`1225-1270`. -/
abbrev EtcWrite := List Nat → List Nat → Nat → Nat → Nat × Nat → Nat → List UInt8 → Out (List UInt8)

/-- One block: `src/unitycrunch/crn_unpacker.rs:1028-1115` and `1146-1271`. (`unpack_etc2a` looks up
the second endpoint before the buffer instead of after it.) -/
def etcBlock (u : Unpacker) (kind : Kind) (write : EtcWrite) (words ow oh y x : Nat)
    (st : UState) : Res UState := do
  let (ref, st) ← etcReference kind.msg u.tables.encoding y x st
  let st ← etcEndpoints kind x ref st
  let ref := ref >>> 2
  let v0 ← idx u.colorEndpoints st.cur.c
  let (sel, codec) ← kind.select st.codec
  let (c, codec) ← (if ref ≠ 0 then
      nextEndpoint kind.msg u.tables.endpoint0 u.colorEndpoints.length st.cur.c codec
    else pure (st.cur.c, codec))
  let cur := { st.cur with c }
  let b ← idx st.buffer (2 * x + 1)
  let buffer ← setIdx st.buffer (2 * x + 1) { b with idx := cur.u16 }
  let v1 ← idx u.colorEndpoints c
  let dst ← (if y < oh ∧ x < ow then
      write (leBytes4 v0) (leBytes4 v1) cur.a0 ((ref >>> 1) ^^^ 1) sel st.pos st.dst
    else pure st.dst : Out (List UInt8))
  let pos ← addU 64 st.pos words
  pure { st with codec, cur, diag := b.idx, buffer, dst, pos }

/-- What is particular in `unpack_etc1`: `src/unitycrunch/crn_unpacker.rs:1007-1121` -/
def etc1Kind (u : Unpacker) : Kind where
  msg := "Failed to decode ETC1 Texture."
  fresh i k := do
    let (c, k) ← nextEndpoint "Failed to decode ETC1 Texture." u.tables.endpoint0
      u.colorEndpoints.length i.c k
    pure ({ i with c }, k)
  select k := do
    let (s, k) ← selector "Failed to decode ETC1 Texture." u.tables.selector0 k
    pure ((s, 0), k)
  write _ _ _ dst := pure dst

/-- The writes of `unpack_etc1`: `src/unitycrunch/crn_unpacker.rs:1086-1113` -/
def etc1Write (u : Unpacker) : EtcWrite := fun e0 e1 _ flip s pd dst =>
  writeEtcColour u e0 e1 flip s.1 pd dst

/-- What is particular in `unpack_etc2a`: `src/unitycrunch/crn_unpacker.rs:1122-1277` -/
def etc2aKind (u : Unpacker) : Kind where
  msg := "Failed to decode ETC2 Texture."
  fresh i k := do
    let (c, k) ← nextEndpoint "Failed to decode ETC2 Texture." u.tables.endpoint0
      u.colorEndpoints.length i.c k
    let (a0, k) ← nextEndpoint "Failed to decode ETC2 Texture." u.tables.endpoint1
      u.alphaEndpoints.length i.a0 k
    pure ({ i with c, a0 }, k)
  select k := do
    let (s, k) ← selector "Failed to decode ETC2 Texture." u.tables.selector0 k
    let (t, k) ← selector "Failed to decode ETC2 Texture." u.tables.selector1 k
    pure ((s, t), k)
  write _ _ _ dst := pure dst

/-- The writes of `unpack_etc2a`: `src/unitycrunch/crn_unpacker.rs:1226-1269`. The bytes of the
colour endpoints are computed first there; nothing in between depends on it. -/
def etc2aWrite (u : Unpacker) : EtcWrite := fun e0 e1 a0 flip s pd dst => do
  let be ← etcBlockEndpoint e0 e1 flip
  let f ← mulU 64 s.2 6
  let f ← (if flip ≠ 0 then addU 64 f 3 else pure f : Out Nat)
  let dst ← writeAlphaWords u a0 f pd dst
  let pd2 ← addU 64 pd 2
  let dst ← writeBytes4 dst pd2 be
  let pd3 ← addU 64 pd 3
  let v ← idx u.colorSelectors ((s.1 <<< 1) ||| flip)
  writeInt dst pd3 v

/-! ## Levels -/

/-- The match on the format in `unpack_level_2`: `src/unitycrunch/crn_unpacker.rs:582-628` -/
def unpackFormat (u : Unpacker) (pitch bx by' : Nat) (k : Codec) (dst : List UInt8) :
    Res UState :=
  let f := u.header.format
  let dm := u.tables.encoding
  if f = 0 ∨ f = 13 then
    loop 1 2 u.header.faces pitch bx by' (block (dxt1Kind u) dm 2 bx by') k dst
  else if (2 ≤ f ∧ f ≤ 6) ∨ f = 14 then
    loop 1 4 u.header.faces pitch bx by' (block (dxt5Kind u) dm 4 bx by') k dst
  else if f = 9 then
    loop 1 2 u.header.faces pitch bx by' (block (dxt5aKind u) dm 2 bx by') k dst
  else if f = 7 ∨ f = 8 then
    loop 1 4 u.header.faces pitch bx by' (block (dxnKind u) dm 4 bx by') k dst
  else if f = 10 ∨ f = 11 then
    loop 2 2 u.header.faces pitch bx by' (etcBlock u (etc1Kind u) (etc1Write u) 2 bx by') k dst
  else if f = 12 then
    loop 2 4 u.header.faces pitch bx by' (etcBlock u (etc2aKind u) (etc2aWrite u) 4 bx by') k dst
  else Res.fail "Invalid format for unpacking."

/-- `unpack_level_2(p_src, src_size, dst_size, row_pitch, level_index)`:
`src/unitycrunch/crn_unpacker.rs:546-631` -/
def unpackLevel2 (u : Unpacker) (src : List UInt8) (srcSize dstSize rowPitch level : Nat) :
    Res (List UInt8) := do
  let w ← shrU 32 u.header.width level
  let h ← shrU 32 u.header.height level
  let w3 ← addU 32 (max w 1) 3
  let h3 ← addU 32 (max h 1) 3
  let blocksX := w3 >>> 2
  let blocksY := h3 >>> 2
  let f := u.header.format
  let blockSize := if f = 0 ∨ f = 9 ∨ f = 10 ∨ f = 11 ∨ f = 13 then 8 else 16
  let minimal ← mulU 32 blockSize blocksX
  if rowPitch ≠ 0 ∧ (rowPitch < minimal ∨ rowPitch &&& 3 ≠ 0) then
    Res.fail "Crunch Row size is below the minimum allowed."
  else do
    let pitch := if rowPitch = 0 then minimal else rowPitch
    let size ← mulU 64 dstSize u.header.faces
    let need ← mulU 32 pitch blocksY
    if dstSize < need then
      Res.fail "Destination buffer size is smaller than what expected to decompress."
    else do
      let codec ← Res.orErr "Failed to initialize the decoding process." (Codec.start src srcSize)
      let st ← unpackFormat u pitch blocksX blocksY codec (List.replicate size 0)
      pure st.dst

/-- `crnd_unpack_level` and `unpack_level`: `src/unitycrunch/crn_unpacker.rs:513-545` -/
def unpackLevel (u : Unpacker) (dstSize rowPitch level : Nat) : Res (List UInt8) :=
  if dstSize < 8 ∨ level ≥ 16 then Res.fail "Destination buffer size is too small."
  else do
    let cur ← idx u.header.levelOfs level
    let next ← nextLevelOfs u level
    if next ≤ cur then Res.fail "Level offset mismatch."
    else do
      let src ← sliceFrom u.data cur
      let size ← subU 32 next cur
      unpackLevel2 u src size dstSize rowPitch level

/-- `crnd_unpack_begin(p_data, data_size)`: `src/unitycrunch/crn_decomp.rs:6-15` -/
def unpackBegin (data : List UInt8) (dataSize : Nat) : Res Unpacker :=
  if dataSize < 62 then Res.fail "Data size is below the minimum allowed."
  else Res.orErr "Failed to initialize Crunch decompressor." (init data dataSize)

/-- `crnd_get_crn_format_bits_per_texel` and `crnd_get_bytes_per_dxt_block`:
`src/unitycrunch/crn_decomp.rs:17-42` -/
def bytesPerDxtBlock (f : CrnFormat) : Res Nat :=
  match f with
  | .dxt1 | .dxt5a | .etc1 | .etc2 | .etc1s => pure ((4 <<< 4) >>> 3)
  | .dxt3 | .dxt5 | .dxnXy | .dxnYx | .dxt5CcxY | .dxt5XGxR | .dxt5XGbr | .dxt5Agbr | .etc2a
  | .etc2as => pure ((8 <<< 4) >>> 3)
  | _ => Res.fail "Texture format is not supported."

/-- `unity_crunch_unpack_level(data, data_size, level_index)`: `src/unitycrunch.rs:9-34` -/
def unityCrunchUnpackLevel (data : List UInt8) (dataSize level : Nat) : Res Handler := do
  let (ok, info) ← crndGetTextureInfo CrnTextureInfo.default data dataSize
  if !ok then Res.fail "Invalid crunch texture encoding."
  else do
    let u ← unpackBegin data dataSize
    let w ← shrU 32 info.width level
    let h ← shrU 32 info.height level
    let w3 ← addU 32 (max 1 w) 3
    let h3 ← addU 32 (max 1 h) 3
    let blocksX := max 1 (w3 >>> 2)
    let blocksY := max 1 (h3 >>> 2)
    let bytes ← bytesPerDxtBlock info.format
    let rowPitch ← mulU 32 blocksX bytes
    let total ← mulU 32 rowPitch blocksY
    let dxtData ← unpackLevel u total rowPitch level
    pure { format := info.format, dxtData, faces := info.faces }

/-- `decode_unity_crunch(data, width, height, image)`: `src/unitycrunch.rs:36-68` -/
def decodeUnityCrunch (data : List UInt8) (width height : Nat) (image : List UInt32) :
    Out (Except String Unit × List UInt32) :=
  match unityCrunchUnpackLevel data (asU 32 data.length) 0 with
  | .panic => .panic
  | .fail msg => .ok (.error msg, image)
  | .ok h =>
    match h.format with
    | .dxt1 => decodeBc1 h.dxtData width height image
    | .etc1 | .etc1s => decodeEtc1 h.dxtData width height image
    | .dxt5 | .dxt5CcxY | .dxt5XGbr | .dxt5Agbr | .dxt5XGxR =>
      decodeBc3 h.dxtData width height image
    | .dxt5a => decodeBc4 h.dxtData width height image
    | .dxnXy | .dxnYx => decodeBc5 h.dxtData width height image
    | .etc2 => decodeEtc2Rgb h.dxtData width height image
    | .etc2a | .etc2as => decodeEtc2Rgba8 h.dxtData width height image
    | _ => .ok (.error "Invalid crunch format.", image)

end Verif.Model.Crn.Unity
