import Verif.Spec.CrnHeader
import Verif.Spec.CrnStream

/-!
# Specification: what a Crunch file contains

A Crunch file holds DXT blocks in a compressed form: palettes of endpoints and of selectors, and
for every chunk of 2×2 blocks the palette indices, all written with prefix codes. The result of
unpacking are the bytes of the DXT blocks.
-/

namespace Verif.Spec.Crn

/-- The `n` bytes of `v`, lowest byte first. -/
def leBytes (n v : Nat) : List UInt8 := (List.range n).map fun i => UInt8.ofNat (v / 256 ^ i)

/-- The bits of the `size` bytes of the file at offset `ofs`. -/
def sectionBits (file : List UInt8) (ofs size : Nat) : Option (List Bool) :=
  if 0 < size ∧ ofs + size ≤ file.length then some (byteBits ((file.drop ofs).take size)) else none

/-- The value of a reader for a section. -/
def readSection {α : Type} (file : List UInt8) (ofs size : Nat) (r : Reader α) : Option α := do
  let bits ← sectionBits file ofs size
  let (a, _) ← r bits
  pure a

/-! ## Palettes -/

/-- A number that changes by a symbol of `code`, modulo `m`. -/
def change (code : List Nat) (m prev : Nat) : Reader Nat := do
  let d ← symbol code
  pure ((prev + d) % m)

/-- A colour of 5, 6 and 5 bits. -/
structure Colour where
  r : Nat := 0
  g : Nat := 0
  b : Nat := 0
deriving DecidableEq, Repr

/-- The two bytes of a colour in a DXT block. -/
def Colour.bytes (c : Colour) : List UInt8 := leBytes 2 (c.b + 32 * c.g + 2048 * c.r)

/-- A colour as the change of the colour `p`; green has its own code. -/
def colour (rb g : List Nat) (p : Colour) : Reader Colour := do
  let r ← change rb 32 p.r
  let gr ← change g 64 p.g
  let b ← change rb 32 p.b
  pure ⟨r, gr, b⟩

/-- The palette of `n` pairs of colours, the first half of a DXT1 block. -/
def colourEndpointPalette (n : Nat) : Reader (List (List UInt8)) := do
  let rb ← prefixCode
  let g ← prefixCode
  let l ← scan (fun p => do
    let c0 ← colour rb g p.1
    let c1 ← colour rb g p.2
    pure (c0, c1)) n (({} : Colour), ({} : Colour))
  pure (l.map fun p => p.1.bytes ++ p.2.bytes)

/-- The palette of `n` pairs of bytes, the start of an alpha block. -/
def alphaEndpointPalette (n : Nat) : Reader (List (List UInt8)) := do
  let code ← prefixCode
  let l ← scan (fun p => do
    let a ← change code 256 p.1
    let b ← change code 256 p.2
    pure (a, b)) n (0, 0)
  pure (l.map fun p => leBytes 1 p.1 ++ leBytes 1 p.2)

/-- The change of selectors with `k` values: one symbol for two of them, which codes two
differences from `1 - k` to `k - 1`. -/
def selectors (code : List Nat) (k : Nat) : List Nat → Reader (List Nat)
  | a :: b :: l => do
    let s ← symbol code
    require (s < (2 * k - 1) * (2 * k - 1))
    let d0 : Int := (s % (2 * k - 1) : Nat) - (k - 1 : Nat)
    let d1 : Int := (s / (2 * k - 1) : Nat) - (k - 1 : Nat)
    let l ← selectors code k l
    pure (((a + d0) % k).toNat :: ((b + d1) % k).toNat :: l)
  | l => pure l

/-- The selectors of a block as one number, the first one lowest; `order` has the code of every
selector value in a DXT block. -/
def packSelectors (order : List Nat) (l : List Nat) : Nat :=
  l.foldr (fun v n => order.getD v 0 + order.length * n) 0

/-- The order of the selector values of a colour block along the line between the endpoints. -/
def colourOrder : List Nat := [0, 2, 3, 1]

/-- The order of the selector values of an alpha block. -/
def alphaOrder : List Nat := [0, 2, 3, 4, 5, 6, 7, 1]

/-- A palette of `n` times 16 selectors; each entry has `bytes` bytes. -/
def selectorPalette (order : List Nat) (bytes n : Nat) : Reader (List (List UInt8)) := do
  let code ← prefixCode
  let l ← scan (selectors code order.length) n (List.replicate 16 0)
  pure (l.map fun v => leBytes bytes (packSelectors order v))

/-! ## Chunks -/

/-- What belongs to one half of the blocks (or to the whole of them): the palettes, and the codes
for the changes of the palette indices. -/
structure Plane where
  endpoints : List (List UInt8)
  selectors : List (List UInt8)
  endpointCode : List Nat
  selectorCode : List Nat
deriving DecidableEq, Repr

/-- The bytes of a block with the given palette indices. -/
def Plane.block (p : Plane) (e s : Nat) : List UInt8 :=
  p.endpoints.getD e [] ++ p.selectors.getD s []

/-- The next index into a palette of `num` entries: the change is added, around the end of the
palette. -/
def nextPaletteIndex (code : List Nat) (num prev : Nat) : Reader Nat := do
  let d ← symbol code
  require (prev + d < 2 * num)
  pure ((prev + d) % num)

/-- The eight ways to divide a chunk of four blocks into tiles. -/
def chunkTiles : List (List Nat) :=
  [[0, 0, 0, 0], [0, 0, 1, 1], [0, 1, 0, 1], [0, 0, 1, 2], [1, 2, 0, 0], [0, 1, 0, 2],
   [1, 0, 2, 0], [0, 1, 2, 3]]

/-- The tile of block `q`. -/
def tileOf (enc q : Nat) : Nat := (chunkTiles.getD enc []).getD q 0

/-- The number of tiles. -/
def tileCount (enc : Nat) : Nat := (chunkTiles.getD enc []).foldl max 0 + 1

/-- The same for every plane: `r` gets the plane and the value that belongs to it. -/
def forPlanes {α β : Type} (r : Plane → α → Reader β) : List Plane → List α → Reader (List β)
  | p :: ps, a :: as => do
    let b ← r p a
    let bs ← forPlanes r ps as
    pure (b :: bs)
  | _, _ => pure []

/-- A chunk and what has to be known to read the next one: the encodings already read, the last
endpoint and selector index of every plane. -/
structure Chunk where
  pending : List Nat
  endpoint : List Nat
  selector : List Nat
  blocks : List (List UInt8)
deriving DecidableEq, Repr

/-- The encodings of the next chunks; one symbol is for three chunks. -/
def encodings (code : List Nat) : List Nat → Reader (List Nat)
  | [] => do
    let s ← symbol code
    require (s < 512)
    pure [s % 8, s / 8 % 8, s / 64]
  | l => pure l

/-- The chunk after the chunk `c`: its encoding, the endpoint indices of its tiles, plane by plane,
and the selector indices of its blocks. -/
def chunk (code : List Nat) (planes : List Plane) (c : Chunk) : Reader Chunk := do
  let pending ← encodings code c.pending
  let enc := pending.headD 0
  let es ← forPlanes (fun p e =>
    scan (nextPaletteIndex p.endpointCode p.endpoints.length) (tileCount enc) e) planes c.endpoint
  let ss ← scan (forPlanes (fun p s =>
    nextPaletteIndex p.selectorCode p.selectors.length s) planes) 4 c.selector
  pure {
    pending := pending.tail
    endpoint := es.map fun l => l.getLastD 0
    selector := ss.getLastD []
    blocks := (List.range 4).map fun q =>
      (List.range planes.length).flatMap fun i =>
        (planes.getD i ⟨[], [], [], []⟩).block
          ((es.getD i []).getD (tileOf enc q) 0) ((ss.getD q []).getD i 0) }

/-- The state before the first chunk. -/
def firstChunk (planes : List Plane) : Chunk :=
  ⟨[], planes.map fun _ => 0, planes.map fun _ => 0, []⟩

/-! ## Levels -/

/-- The number of blocks along a side of `n` texels. -/
def blocksOf (n : Nat) : Nat := (max n 1 + 3) / 4

/-- The number of the chunk with block (`x`, `y`) of face `f`: chunks are in rows, and every second
row runs from right to left. -/
def chunkNumber (nx ny f y x : Nat) : Nat :=
  let cx := (nx + 1) / 2
  let cy := (ny + 1) / 2
  (f * cy + y / 2) * cx + if y / 2 % 2 = 1 then cx - 1 - x / 2 else x / 2

/-- The blocks of a level, row by row, from the chunks. -/
def levelBlocks (faces nx ny : Nat) (chunks : List Chunk) : List (List UInt8) :=
  (List.range faces).flatMap fun f => (List.range ny).flatMap fun y =>
    (List.range nx).map fun x =>
      ((chunks.map Chunk.blocks).getD (chunkNumber nx ny f y x) []).getD (y % 2 * 2 + x % 2) []

/-! ## Files -/

/-- The prefix codes of the tables section. -/
structure Codes where
  encoding : List Nat
  colourEndpoint : List Nat := []
  colourSelector : List Nat := []
  alphaEndpoint : List Nat := []
  alphaSelector : List Nat := []
deriving DecidableEq, Repr

/-- The codes for the changes of endpoint and selector indices, if there is such a palette. -/
def codePair (num : Nat) : Reader (List Nat × List Nat) :=
  if num = 0 then pure ([], [])
  else do
    let e ← prefixCode
    let s ← prefixCode
    pure (e, s)

/-- The codes of the tables section: for the encodings, the colour indices and the alpha
indices. -/
def codes (colours alphas : Nat) : Reader Codes := do
  let encoding ← prefixCode
  require (¬ (colours = 0 ∧ alphas = 0))
  let c ← codePair colours
  let a ← codePair alphas
  pure ⟨encoding, c.1, c.2, a.1, a.2⟩

/-- The codes of a file. -/
def fileCodes (file : List UInt8) : Option Codes :=
  readSection file (tablesOfs file) (tablesSize file)
    (codes (colorEndpoints file).num (alphaEndpoints file).num)

/-- The palette described by `p`, read with `r`. -/
def filePalette (file : List UInt8) (p : Palette) (r : Nat → Reader (List (List UInt8))) :
    Option (List (List UInt8)) :=
  readSection file p.ofs p.size (r p.num)

/-- The colour plane of a file, empty without colour palettes. -/
def colourPlane (file : List UInt8) (c : Codes) : Option Plane :=
  if (colorEndpoints file).num = 0 then some ⟨[], [], [], []⟩
  else do
    let e ← filePalette file (colorEndpoints file) colourEndpointPalette
    let s ← filePalette file (colorSelectors file) (selectorPalette colourOrder 4)
    some ⟨e, s, c.colourEndpoint, c.colourSelector⟩

/-- The alpha plane of a file, empty without alpha palettes. -/
def alphaPlane (file : List UInt8) (c : Codes) : Option Plane :=
  if (alphaEndpoints file).num = 0 then some ⟨[], [], [], []⟩
  else do
    let e ← filePalette file (alphaEndpoints file) alphaEndpointPalette
    let s ← filePalette file (alphaSelectors file) (selectorPalette alphaOrder 6)
    some ⟨e, s, c.alphaEndpoint, c.alphaSelector⟩

/-- The planes of the blocks of a format: DXT1 has a colour block, DXT5 an alpha block and a colour
block, DXN two alpha blocks and DXT5A one. -/
def planesOf (format : Nat) (colour alpha : Plane) : Option (List Plane) :=
  if format = 0 then some [colour]
  else if 2 ≤ format ∧ format ≤ 6 then some [alpha, colour]
  else if format = 7 ∨ format = 8 then some [alpha, alpha]
  else if format = 9 then some [alpha]
  else none

/-- The end of the first level: the start of the second one or the end of the file. -/
def levelEnd (file : List UInt8) : Nat := if 1 < levels file then levelOfs file 1 else file.length

/-- The number of blocks of the first level, per row and per column. -/
def blocksX (file : List UInt8) : Nat := blocksOf (width file)
def blocksY (file : List UInt8) : Nat := blocksOf (height file)

/-- The number of chunks of the first level, of all faces. -/
def chunkCount (file : List UInt8) : Nat :=
  faces file * ((blocksY file + 1) / 2) * ((blocksX file + 1) / 2)

/-- The DXT blocks of the first level of a Crunch file, of all faces. -/
def unpack (file : List UInt8) : Option (List UInt8) :=
  if HeaderOk file file.length ∧ 0 < levels file ∧ headerBytes file ≤ file.length then do
    let c ← fileCodes file
    let colour ← colourPlane file c
    let alpha ← alphaPlane file c
    let planes ← planesOf (format file) colour alpha
    let chunks ← readSection file (levelOfs file 0) (levelEnd file - levelOfs file 0)
      (scan (chunk c.encoding planes) (chunkCount file) (firstChunk planes))
    some (levelBlocks (faces file) (blocksX file) (blocksY file) chunks).flatten
  else none

end Verif.Spec.Crn
