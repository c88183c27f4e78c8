import Verif.Spec.CrnLimits

/-!
# Specification: what a file of Unity's variant of Crunch contains

The header, the prefix codes and the sections are those of a Crunch file. The palettes of selectors
are coded differently, the palette indices are coded block by block, with references to the blocks
before, and there are ETC formats besides the DXT formats.
-/

namespace Verif.Spec.Crn.Unity

open Verif.Spec.Crn

/-- The `n` bytes of `v`, highest byte first. -/
def beBytes (n v : Nat) : List UInt8 := (leBytes n v).reverse

/-! ## Palettes -/

/-- The change of selectors with `k` values: one symbol for two of them, each half of which is
combined with the old value by exclusive or. -/
def xorSelectors (code : List Nat) (k : Nat) : List Nat → Reader (List Nat)
  | a :: b :: l => do
    let s ← symbol code
    require (s < k * k)
    let l ← xorSelectors code k l
    pure ((a ^^^ s % k) :: (b ^^^ s / k) :: l)
  | l => pure l

/-- A palette of `n` times 16 selectors with `k` values. -/
def selectorEntries (k n : Nat) : Reader (List (List Nat)) := do
  let code ← prefixCode
  scan (xorSelectors code k) n (List.replicate 16 0)

/-- A palette of selectors as they are in a DXT block; each entry has `bytes` bytes. -/
def dxtSelectorPalette (order : List Nat) (bytes n : Nat) : Reader (List (List UInt8)) := do
  let l ← selectorEntries order.length n
  pure (l.map fun v => leBytes bytes (packSelectors order v))

/-- The selectors of the texels column by column, from the selectors row by row (or the other way
round). -/
def transpose (l : List Nat) : List Nat := (List.range 16).map fun i => l.getD (i % 4 * 4 + i / 4) 0

/-- The number with the given bits, the first one lowest. -/
def bitNumber (l : List Nat) : Nat := l.foldr (fun b n => b + 2 * n) 0

/-- The codes in an ETC block of the four modifiers, from the lowest one to the highest one. -/
def etcOrder : List Nat := [3, 2, 0, 1]

/-- The selectors of the texels, column by column, in an ETC block: the upper bits of the codes and
then the lower bits. -/
def etcSelectorBytes (l : List Nat) : List UInt8 :=
  beBytes 2 (bitNumber (l.map fun v => etcOrder.getD v 0 / 2)) ++
  beBytes 2 (bitNumber (l.map fun v => etcOrder.getD v 0 % 2))

/-- The codes in an EAC block of the eight modifiers, from the lowest one to the highest one. -/
def eacOrder : List Nat := [3, 2, 1, 0, 4, 5, 6, 7]

/-- The selectors of the texels, column by column, in an EAC block: three bits each, the first one
highest. -/
def eacSelectorBytes (l : List Nat) : List UInt8 :=
  beBytes 6 (l.foldl (fun n v => 8 * n + eacOrder.getD v 0) 0)

/-- The colour of 5, 5 and 5 bits and the number of the modifier table of an ETC block. -/
structure EtcColour where
  r : Nat := 0
  g : Nat := 0
  b : Nat := 0
  table : Nat := 0
deriving DecidableEq, Repr

/-- A component that changes by a symbol of `code`. -/
def etcChange (code : List Nat) (prev : Nat) : Reader Nat := do
  let d ← symbol code
  require (d < 32)
  pure ((prev + d) % 32)

/-- A colour as the change of the colour `p`. -/
def etcColour (code : List Nat) (p : EtcColour) : Reader EtcColour := do
  let r ← etcChange code p.r
  let g ← etcChange code p.g
  let b ← etcChange code p.b
  let t ← etcChange code p.table
  require (t < 8)
  pure ⟨r, g, b, t⟩

/-- A palette of `n` ETC colours. -/
def etcColours (n : Nat) : Reader (List EtcColour) := do
  let code ← prefixCode
  scan (etcColour code) n {}

/-- `b` can be written as a difference from `a`, three bits with a sign. -/
def near (a b : Nat) : Bool := a ≤ b + 4 && b ≤ a + 3

/-- The first half of an ETC block with the colours `e0` and `e1` of its halves: the differential
mode if all differences are small, the individual mode with four bits per component otherwise. -/
def etcEndpointBytes (e0 e1 : EtcColour) (flip : Nat) : List UInt8 :=
  let diff := near e0.r e1.r && near e0.g e1.g && near e0.b e1.b
  let byte (a b : Nat) : UInt8 :=
    if diff then UInt8.ofNat (8 * a + (b + 8 - a) % 8) else UInt8.ofNat (16 * (a / 2) + b / 2)
  [byte e0.r e1.r, byte e0.g e1.g, byte e0.b e1.b,
   UInt8.ofNat (32 * e0.table + 4 * e1.table + (if diff then 2 else 0) + flip)]

/-! ## Palette indices -/

/-- `n` values, each read with the knowledge of all the ones before it. -/
def grow {α : Type} (r : List α → Reader α) : Nat → List α → Reader (List α)
  | 0, l => pure l
  | n + 1, l => do
    let a ← r l
    grow r n (l ++ [a])

/-- The same for every element: `r` gets it and the value that belongs to it. -/
def forEach {σ α β : Type} (r : σ → α → Reader β) : List σ → List α → Reader (List β)
  | p :: ps, a :: as => do
    let b ← r p a
    let bs ← forEach r ps as
    pure (b :: bs)
  | _, _ => pure []

/-- How the indices into a palette of endpoints and a palette of selectors are coded: the codes and
the sizes of the palettes. -/
structure Indices where
  endpointCode : List Nat
  endpoints : Nat
  selectorCode : List Nat
  selectors : Nat
deriving DecidableEq, Repr

/-- The endpoint index after the index `e`. -/
def nextEndpoint (p : Indices) (e : Nat) : Reader Nat :=
  nextPaletteIndex p.endpointCode p.endpoints e

/-- A selector index. -/
def selectorIndex (p : Indices) : Reader Nat := do
  let s ← symbol p.selectorCode
  require (s < p.selectors)
  pure s

/-- A block of a DXT format or of an ETC format with one colour per block: the references of the
2×2 blocks it belongs to, and its palette indices. -/
structure Block where
  refs : Nat := 0
  endpoint : List Nat := []
  selector : List Nat := []
deriving DecidableEq, Repr

/-- The block after the blocks in `before`, in rows of `w` blocks. Two bits of the references of its
2×2 blocks tell where its endpoints come from: 0 for new ones, 1 for those of the block before it,
2 and 3 for those of the block above it. -/
def block (code : List Nat) (planes : List Indices) (w : Nat) (before : List Block) :
    Reader Block := do
  let n := before.length
  let x := n % w
  let y := n / w
  let zero := planes.map fun _ => 0
  let left := if n = 0 then zero else (before.getD (n - 1) {}).endpoint
  let above := if n < w then zero else (before.getD (n - w) {}).endpoint
  let refs ← (if x % 2 = 0 ∧ y % 2 = 0 then do
      let s ← symbol code
      require (s < 256)
      pure s
    else pure (before.getD (y / 2 * 2 * w + x / 2 * 2) {}).refs)
  let ref := refs / 4 ^ (2 * (x % 2) + y % 2) % 4
  let endpoint ← (if ref = 0 then forEach nextEndpoint planes left
    else pure (if ref = 1 then left else above))
  let selector ← forEach (fun p _ => selectorIndex p) planes zero
  pure ⟨refs, endpoint, selector⟩

/-- A block of an ETC format with two colours per block: the references of this block and the block
below it, the palette indices (colour first), the index of the second colour, and the flip bit. -/
structure EtcBlock where
  refs : Nat := 0
  endpoint : List Nat := []
  second : Nat := 0
  flip : Nat := 0
  selector : List Nat := []
deriving DecidableEq, Repr

/-- The indices at the end of a block. -/
def EtcBlock.last (b : EtcBlock) : List Nat := b.second :: b.endpoint.tail

/-- The block after the blocks in `before`, in rows of `w` blocks. The first endpoints are new ones,
or those at the end of the block before, or the first ones of the block above, or those at the end
of the block above the one before. The second colour is the first one or a new one, and with a new
one there is a choice of the flip bit. -/
def etcBlock (code : List Nat) (colour : Indices) (others : List Indices) (w : Nat)
    (before : List EtcBlock) : Reader EtcBlock := do
  let n := before.length
  let y := n / w
  let zero := (colour :: others).map fun _ => 0
  let left := if n = 0 then zero else (before.getD (n - 1) {}).last
  let above := if n < w then zero else (before.getD (n - w) {}).endpoint
  let diagonal := if n < w + 1 then zero else (before.getD (n - 1 - w) {}).last
  let refs ← (if y % 2 = 0 then do
      let s ← symbol code
      require (s < 256)
      pure s
    else pure (before.getD (n - w) {}).refs)
  let ref := refs / 4 ^ (y % 2) % 4
  let ref2 := refs / 16 / 4 ^ (y % 2) % 4
  let endpoint ← (if ref = 0 then forEach nextEndpoint (colour :: others) left
    else pure (if ref = 1 then left else if ref = 2 then above else diagonal))
  let selector ← forEach (fun p _ => selectorIndex p) (colour :: others) zero
  let second ← (if ref2 = 0 then pure (endpoint.headD 0) else nextEndpoint colour (endpoint.headD 0))
  pure ⟨refs, endpoint, second, if ref2 < 2 then 1 else 0, selector⟩

/-! ## Levels -/

/-- A number of blocks, made even. -/
def even (n : Nat) : Nat := (n + 1) / 2 * 2

/-- The blocks of a level, row by row, without the ones that only make the number of blocks in a row
or of rows even. -/
def levelBlocks {β : Type} (d : β) (faces nx ny : Nat) (blocks : List β) : List β :=
  (List.range faces).flatMap fun f => (List.range ny).flatMap fun y =>
    (List.range nx).map fun x => blocks.getD ((f * even ny + y) * even nx + x) d

/-- The number of blocks in the stream. -/
def blockCount (file : List UInt8) : Nat :=
  faces file * even (blocksY file) * even (blocksX file)

/-- What the first level of a file holds, read with `r`. -/
def readLevel {β : Type} (file : List UInt8) (d : β) (r : Nat → List β → Reader β) :
    Option (List β) := do
  let l ← readSection file (levelOfs file 0) (levelEnd file - levelOfs file 0)
    (grow (r (even (blocksX file))) (blockCount file) [])
  some (levelBlocks d (faces file) (blocksX file) (blocksY file) l)

/-! ## Files -/

/-- The ETC formats with one colour per block are 13 and 14; 10, 11 and 12 have two. -/
def colourPalettes (file : List UInt8) : Option (List (List UInt8) × List (List UInt8)) :=
  if format file = 13 ∨ format file = 14 then do
    let e ← filePalette file (colorEndpoints file) (fun n => do
      let l ← etcColours n
      pure (l.map fun c => etcEndpointBytes c c 0))
    let s ← filePalette file (colorSelectors file) (fun n => do
      let l ← selectorEntries 4 n
      pure (l.map fun v => etcSelectorBytes (transpose v)))
    some (e, s)
  else do
    let e ← filePalette file (colorEndpoints file) colourEndpointPalette
    let s ← filePalette file (colorSelectors file) (dxtSelectorPalette colourOrder 4)
    some (e, s)

/-- The colour plane of a file, empty without colour palettes. -/
def colourPlane (file : List UInt8) (c : Codes) : Option Plane :=
  if (colorEndpoints file).num = 0 then some ⟨[], [], [], []⟩
  else do
    let (e, s) ← colourPalettes file
    some ⟨e, s, c.colourEndpoint, c.colourSelector⟩

/-- The alpha plane of a file, empty without alpha palettes. -/
def alphaPlane (file : List UInt8) (c : Codes) : Option Plane :=
  if (alphaEndpoints file).num = 0 then some ⟨[], [], [], []⟩
  else do
    let e ← filePalette file (alphaEndpoints file) alphaEndpointPalette
    let s ← filePalette file (alphaSelectors file) (if format file = 14 then (fun n => do
        let l ← selectorEntries 8 n
        pure (l.map fun v => eacSelectorBytes (transpose v)))
      else dxtSelectorPalette alphaOrder 6)
    some ⟨e, s, c.alphaEndpoint, c.alphaSelector⟩

/-- The coding of the indices of a plane. -/
def _root_.Verif.Spec.Crn.Plane.indices (p : Plane) : Indices :=
  ⟨p.endpointCode, p.endpoints.length, p.selectorCode, p.selectors.length⟩

/-- The planes of a format in the order of their indices, and the order in which they are in a
block. -/
def planesOf (format : Nat) (colour alpha : Plane) : Option (List Plane × List Nat) :=
  if format = 0 ∨ format = 13 then some ([colour], [0])
  else if (2 ≤ format ∧ format ≤ 6) ∨ format = 14 then some ([colour, alpha], [1, 0])
  else if format = 7 ∨ format = 8 then some ([alpha, alpha], [0, 1])
  else if format = 9 then some ([alpha], [0])
  else none

/-- The bytes of a block. -/
def blockBytes (planes : List Plane) (order : List Nat) (b : Block) : List UInt8 :=
  order.flatMap fun i =>
    (planes.getD i ⟨[], [], [], []⟩).block (b.endpoint.getD i 0) (b.selector.getD i 0)

/-- The blocks of a file with one colour per block. -/
def wholeBlocks (file : List UInt8) (c : Codes) : Option (List (List UInt8)) := do
  let colour ← colourPlane file c
  let alpha ← alphaPlane file c
  let (planes, order) ← planesOf (format file) colour alpha
  let l ← readLevel file {} (block c.encoding (planes.map Plane.indices))
  some (l.map (blockBytes planes order))

/-- The bytes of an ETC block with the given palettes. -/
def etcColourBytes (colours : List EtcColour) (selectors : List (List Nat)) (b : EtcBlock) :
    List UInt8 :=
  let s := selectors.getD (b.selector.getD 0 0) []
  etcEndpointBytes (colours.getD (b.endpoint.getD 0 0) {}) (colours.getD b.second {}) b.flip ++
    etcSelectorBytes (if b.flip = 0 then s else transpose s)

/-- The bytes of an EAC block with the given palettes. -/
def eacBytes (alphas : List (List UInt8)) (selectors : List (List Nat)) (b : EtcBlock) :
    List UInt8 :=
  let s := selectors.getD (b.selector.getD 1 0) []
  alphas.getD (b.endpoint.getD 1 0) [] ++ eacSelectorBytes (if b.flip = 0 then s else transpose s)

/-- The blocks of a file with two colours per block; only format 12 has alpha. -/
def halfBlocks (file : List UInt8) (c : Codes) : Option (List (List UInt8)) := do
  require' ((colorEndpoints file).num ≠ 0)
  let colours ← readSection file (colorEndpoints file).ofs (colorEndpoints file).size
    (etcColours (colorEndpoints file).num)
  let sels ← readSection file (colorSelectors file).ofs (colorSelectors file).size
    (selectorEntries 4 (colorSelectors file).num)
  let colour : Indices := ⟨c.colourEndpoint, colours.length, c.colourSelector, sels.length⟩
  if format file = 12 then do
    require' ((alphaEndpoints file).num ≠ 0)
    let alphas ← filePalette file (alphaEndpoints file) alphaEndpointPalette
    let asels ← readSection file (alphaSelectors file).ofs (alphaSelectors file).size
      (selectorEntries 8 (alphaSelectors file).num)
    let alpha : Indices := ⟨c.alphaEndpoint, alphas.length, c.alphaSelector, asels.length⟩
    let l ← readLevel file {} (etcBlock c.encoding colour [alpha])
    some (l.map fun b => eacBytes alphas asels b ++ etcColourBytes colours sels b)
  else do
    require' ((alphaEndpoints file).num = 0)
    let l ← readLevel file {} (etcBlock c.encoding colour [])
    some (l.map (etcColourBytes colours sels))
where
  /-- Refuses unless `p` holds. -/
  require' (p : Prop) [Decidable p] : Option Unit := if p then some () else none

/-- The blocks of the first level of a file of Unity's variant of Crunch, of all faces. -/
def unpack (file : List UInt8) : Option (List UInt8) :=
  if HeaderOk file file.length ∧ 0 < levels file ∧ headerBytes file ≤ file.length then do
    let c ← fileCodes file
    let l ← (if format file = 10 ∨ format file = 11 ∨ format file = 12 then halfBlocks file c
      else wholeBlocks file c)
    some l.flatten
  else none

end Verif.Spec.Crn.Unity
