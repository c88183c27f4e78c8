# Formal model of texture2ddecoder

Source: `/repo` (Rust crate `texture2ddecoder`, pinned commit), read as text.
Prover: Lean 4.33.0 (core library; single Mathlib modules only where noted in a file's imports).

## 1. How the code is modelled

* **Integers.** Every Rust integer (`u8 u16 u32 u64 usize`, `i8 i16 i32 isize`) is a
  Lean `Nat`/`Int` together with operations that carry the Rust width
  (`Verif/Rust.lean`: `addU w a b`, `subU`, `mulU`, `shlU`, `addI`, ...). An operation whose
  exact result does not fit **panics** when the build has overflow checks
  (`Build.overflowChecks = true`, `cargo build`/debug) and **wraps** otherwise (release).
  All definitions take the build as an instance argument `[Build]`, so a theorem without further
  hypothesis holds for debug and release builds alike.
* **Panics** are data: every fallible function returns `Out α = ok a | panic`. Out-of-range
  indexing, slicing, `copy_from_slice` length mismatch, division by zero, arithmetic overflow,
  shift overflow and explicit `panic!` all yield `Out.panic`.
* **`Result<(), &str>`** stays data (`Except String Unit`); decoders return the pair of the
  result and the new image, so "the image is unchanged on error" can be stated.
* **Slices** are `List UInt8` / `List UInt32`. `&mut [u32]` parameters become an argument and
  a returned value. `&data[k..]` is `List.drop k` guarded by `k ≤ length`.
* **Loops** become structural recursion on the iteration count (`forRange`).
* **Target**: 64-bit `usize`, little endian, feature `alloc` (the configuration the crate is
  published with). Slices obey Rust's guarantee that their byte size is at most `isize::MAX`;
  where it matters this appears as an explicit hypothesis.
* **Floats** occur in the conversion of half floats to bytes (BC6H, ASTC HDR). An `f32` is its bit
  pattern; multiplication, comparison, rounding and the casts are IEEE 754 binary32 with
  round-to-nearest-even, computed exactly on integers (`Verif/Model/F16.lean`). Nothing is rounded
  away or simplified. The payload of a NaN is the only thing not represented; no result depends on it.
* **Memory.** Most of the model treats a decoder as a function from the old image to the new one, so
  it says nothing about the image after a panic. `Verif/Model/Memory.lean` models the same functions
  as programs that write to the image step by step and log each write; C59 proves that both models
  agree.
* **Crunch.** The unpackers work on byte buffers held as lists; `Res α = ok | fail msg | panic`
  separates the functions' own failures (`false`, `Err`) from panics.

## 2. Layout

* `Verif/Rust.lean` – Rust semantics (outcomes, checked arithmetic, slices, loops) and lemmas.
* `Verif/Model/*.lean` – the model, function by function, each definition citing file and lines.
* `Verif/Spec/*.lean` – the specifications: formulas from the format standards, per texel,
  in `/`, `%`, `+`, `*`; they mention no model function.
* `Verif/Proofs/*.lean` – helper lemmas.
* `Verif/Props/*.lean` – the property theorems, named `C01_...` after `properties.jsonl`, each
  followed by an `example` that its hypotheses are met by a concrete case.

## 3. Trusted base

* Lean's kernel, and the axioms `propext`, `Classical.choice`, `Quot.sound` (the only ones
  any property theorem depends on; no `sorry`, `native_decide`, `bv_decide`, own axioms).
  `decide +kernel` is used for complete finite tables and for concrete examples; it is evaluated by the
  kernel.
* The reading of the Rust source: nothing checks mechanically that the model is the code.
  The whole of `/repo/src` was read against the model a second time after the model was complete, and
  no difference was found. As a test of the model (not a proof; `/repo` itself was neither built nor
  run) the compiled model decoded the textures in `/repo/resources/tests/textures`, and the result was
  compared with the picture they were made from: 26–64 dB per channel for the BC, ETC, ATC, PVRTC and ASTC textures,
  and 17 dB for EAC R11, which is the finding of C29.
* Rust's language semantics as encoded in `Verif/Rust.lean` (checked arithmetic, slices, loops) and
  `Verif/Res.lean`.
* The specifications in `Verif/Spec`, transcribed from the S3TC/BPTC/ETC2/EAC/ATC/PVRTC/ASTC
  documents, and from the Crunch format as its original decoder defines it (there is no standard).

### What is modelled

Every function of `/repo/src` that the public decoders reach:

| source | model |
|--------|-------|
| `color.rs`, `macros.rs` | `Model/Image.lean`, `Model/Memory.lean` |
| `bitreader.rs` | `Model/BitReader.lean` |
| `f16.rs` | `Model/F16.lean` |
| `bcn/bc1.rs` … `bc5.rs` | `Model/Bcn.lean` |
| `bcn/bc6.rs`, `bc7.rs`, `consts.rs` | `Model/Bc6.lean`, `Model/Bc7.lean`, `Model/BptcTables.lean` |
| `etc.rs` | `Model/Etc.lean` |
| `atc.rs` | `Model/Atc.lean` |
| `pvrtc.rs` | `Model/Pvrtc.lean` |
| `astc.rs` | `Model/Astc.lean`, `Model/AstcTables.lean` |
| `crunch.rs`, `crunch/*` | `Model/CrnHeader.lean`, `Model/Huffman.lean`, `Model/Crunch.lean` |
| `unitycrunch.rs`, `unitycrunch/*` | `Model/UnityCrunch.lean` |
| `bindings/python/src/lib.rs` | `Model/Python.lean` |
| `color.rs`, `macros.rs`, `bcn/bc3.rs`, `etc/eac.rs`, `etc/etc2.rs` on 32-bit targets | `Model/Target32.lean` |
| `pvrtc.rs`, `astc.rs`, `crunch.rs`, `unitycrunch.rs` (whole-image functions) on 32-bit targets | `Model/Target32More.lean` |

### What is not modelled, and what is assumed

* Other targets: 32-bit `usize` is modelled only for C64 (`Model/Target32.lean`,
  `Model/Target32More.lean`, whose comments list what is taken over from the 64-bit model). Big-endian
  builds: there are none, since `crunch/crn_unpacker.rs:765-791,904-919,1044-1072` then use names
  (`pDst`, `pAlpha_selectors`, `m_color_selectors`) that are not defined. Builds without the feature `alloc`: there are none, since
  `lib.rs:104,107` re-exports functions that need it and the second version of `decode_pvrtc`
  (`pvrtc.rs:453-525`) uses variables it does not define.
* Running out of memory or stack, and time. `Vec` allocation in Crunch always succeeds (C76 says how much is asked for).
* `tests/`, the build scripts and the type stubs `texture2ddecoder_rs.pyi`.
* PyO3 and CPython: a new `bytes` object is zero; allocation is an arbitrary oracle `alloc`; a panic
  becomes a Python exception; arguments arrive as `usize`. The over-long slice that `transmute` makes is
  undefined behaviour in itself; the model gives it the meaning a compiler gives it in practice (a
  longer slice over the same memory) and tracks which elements are written.
* Crunch compares byte *values* through references where the original compares pointers; the model
  has the comparison the Rust code makes. `bit_count` of the symbol codec is a `Nat`: that it never goes
  below zero is proved where it is subtracted.
* The straight-line reads of the BC6H modes are represented by a table of bit fields (`Model/Bc6.lean`),
  read by one loop in the order of the source.

## 4. Plan per property

| id | modelled | proof |
|----|----------|-------|
| C01–C09 | `block_decoder!` and `copy_block_buffer` generically in the block function | One refinement theorem: for every block function meeting a per-block contract, the whole-image decoder meets the image specification (loop invariant over blocks in raster order, inner invariant over rows). Each format instantiates it; C02–C09 are corollaries of the image specification alone. C02 and C03 also hold for all 37 functions and any arguments: errors are returned before the first write, and C59 with C65 bounds the writes. C05–C08 also hold for blocks of any contents: each block either decodes to the same colours into every buffer or always panics. |
| C10 | same, and ASTC, PVRTC, Crunch | negation with a concrete witness; the exact outcome for sizes beyond `usize` in both builds; the positive part is C01. |
| C11 | `color` | arithmetic. |
| C12–C18 | `rgb565_le`, BC1–BC5 block functions | block contract: each texel equals the specification formula; loop invariant over texels; no overflow shown at each checked operation. |
| C19–C21 | `BitReader`, `decode_bc7_block`, all tables | bit-reader lemma (reads are slices of the little-endian integer), table bounds by evaluation of the complete tables, then symbolic execution per mode. |
| C22–C23 | `decode_bc6_block` | symbolic execution per mode; mode 15 panic witness generalised to all mode-15 blocks and to all images that contain one (an exact condition); without overflow checks every block decodes. |
| C24–C28 | ETC1/ETC2/EAC-alpha block functions | block contract as for BC1. |
| C29 | `decode_eac_block` etc. | negation witness against the standard, refinement to the little-endian reading. |
| C30–C31 | ATC | as BC1; negation witness for the alternate mode. |
| C32–C34 | PVRTC | size check witness; bit-interleaving lemma; range analysis of the interpolation. |
| C35–C40 | ASTC | image framework; complete tables by evaluation; range lemmas. C40: exact conditions for the panic in both builds, `Panics` and `PanicsUnchecked` in `Spec/Astc.lean`; one direction runs the decoder, the other inverts a successful run. |
| C41–C42 | Crunch header | direct. |
| C43 | Huffman model and symbol codec | canonical-code lemma; invariant of the bit buffer. |
| C44 | Unity unpackers | witness in the debug build, and generally for every odd number of columns. |
| C45 | `bitreader.rs` | arithmetic on the little-endian value. |
| C46 | `f16.rs` and users | exact IEEE model of the conversion, compared with `⌊255·v⌋` on all 65536 halves by evaluation. |
| C47 | `decode_bc6_block` | as C21, with a second specification for what the code computes (a third clause for mode 15 without overflow checks); negation witnesses in both variants. |
| C48 | `decode_etc2_rgba1_block` | negation witness; the other pixels through C27. |
| C49 | `decode_pvrtc` | loop invariants of the three passes; interpolation as a function of four neighbours; block order from C33. |
| C50 | `decode_astc_block` | specification of the standard next to the one of the code; they agree outside two sets of blocks; witness in each set. |
| C51 | `decode_crunch` with everything below it | the format is specified as a pure parser `Spec.Crn.unpack`; stage by stage refinement (code tables, palettes, four block loops), then C01 for the blocks. |
| C52, C53 | same | a concrete file each, evaluated by the kernel; C51 for the rest. For C52 also the converse of C51: every complete file with several faces and an odd number of block rows panics (`C52_odd_rows_panic`), by a loop invariant saying that every row visited so far lies inside the buffer. For C53 and C57 `Spec/CrnMoved.lean` says what it means to move the sections of a file; readers do not look behind what they read, because the codes are prefix codes (`Proofs/Crn/Extend.lean`). |
| C54 | `decode_crunch` | case analysis of the checks. |
| C55–C58 | `decode_unity_crunch` | as C51–C54, with six block loops. |
| C59 | the decoders as programs with memory | simulation with the functional model; an invariant of programs ("writes only before `n`") closed under sequencing and loops. |
| C60 | the Python bindings | C59's simulation and the contracts of the Rust functions. |
| C61 | same | symbolic execution of the first block with wrapping sizes; C59 for the sizes that do not wrap; PVRTC panics before its first write when the number of blocks wraps, because it is then zero. |
| C62 | `decode_astc` of the Python module | case analysis; errors come before the first write. |
| C63 | the public block functions on buffers of any length | the block contracts behind C12–C31, C35, with the words behind the block. |
| C64 | the block formats, PVRTC, ASTC and Crunch with a 32-bit `usize` | the affected block functions equal the 64-bit ones on a block with some bytes set to zero; then the framework of C01 with the other limits. PVRTC and ASTC: each 32-bit function equals the 64-bit one on all values that are reached. |
| C65 | the size checks with products that overflow | in a run that does not panic `data_offset` counts the blocks without wrapping, so the last block lies inside the data; for Crunch and any file the buffer of blocks keeps the length it was created with (an invariant of all unpack functions). |
| C66 | ASTC images of arbitrary blocks | reading the data is monotone in its length: whatever decodes, decodes the same when more bytes follow (a relation `Keeps` carried through all functions); with C40 the blocks that depend on what follows. |
| C67 | BC2 and BC3 | the colour formula of the extension (`Spec/S3tc.lean`) compared with the one of C14, C15 channel by channel; witness by evaluation. DXT5 in Crunch files by C51 and C55, with two of their sample files as witnesses. |
| C68 | the block formats and ASTC | the number of a block in the second band is the number of blocks of the first plus its own; with C05–C08 for arbitrary blocks and `Keeps` of C66. |
| C69 | Crunch, Unity Crunch | `Spec/CrnUsed.lean` has the checksum of the format (checked against the real files of the test data); witnesses by evaluation; independence from the checksums is an instance of C70. |
| C70 | Crunch, Unity Crunch | `Spec.Crn.Used` lists the bytes; `unpack` of the specification agrees on two files that agree there (header fields and sections one by one), then C51 and C55. |
| C71 | Crunch, Unity Crunch | witnesses by evaluation of the model on a small file; the true part from C54 and C58, since the header of a file that was cut off is unchanged. |
| C72 | all functions in both builds | the relation "panics, or has the same outcome" between the two builds holds for the checked operations of `Verif/Rust.lean` and is carried through every definition of the model (`Proofs/Builds/*.lean`); `Model/Astc.lean` has the only two other definitions that ask for the build. The Python functions follow because the decoders that record their writes have the same outcome as the plain ones. |
| C73 | PVRTC | from C49: the formula of a texel reads only the blocks of `Spec/PvrtcUsed.lean`; also the neighbouring modulation values of the 2 bits per pixel variant lie in these. |
| C74 | PVRTC | from C49: the formula of a texel in terms of its block and the eight around it, whose positions are moved along. |
| C75 | all `while` and `loop` loops | `Spec.LoopEnds` is a loop without a bound; `Model/LoopBodies.lean` has one iteration of each loop; a measure for each loop shows that it ends with the outcome of the bounded loop of the model. Partial: that a whole call ends also needs that the source has no recursion and no other unbounded loops, which is read off the source. `__builtin_clz` (`src/f16.rs:30-44`) also has a loop, but nothing calls it. |
| C76 | both Crunch functions | `Model/CrnMemory.lean` is everything the functions do before they allocate the buffer for the blocks, with the number of bytes as value; it ends before the allocation exactly when the function does (`C76_crunch_buffer`). The size is compared with the dimensions in the header. Violated: a small file can ask for 510 GiB. Not counted are the code tables (at most 8192 entries each), the palettes (counts of 16 bits) and one row of blocks, which are all small. |
| C77 | formats without alpha, or with fewer channels | `Spec/Channels.lean` lists the formats; from the texel functions that C12 to C31 prove of the decoders, with bounds for all channels. |
| C78 | BC1 to BC5, ATC, ETC | `Spec/Move.lean` says what it means that the indices of a block are rearranged; the texels then move, and with them the pixels of the image. `Spec/MoveEtc.lean` says the same for rows and columns of ETC blocks, mode by mode, and `Spec/FlipEtc.lean` for flipped and mirrored ETC blocks. That the mirror image of a planar block is out of reach: the red of the first texel of a planar block has six bits, the other blocks show at most eight colours. |
| C79 | both Crunch functions | From C51 and C55 (the file's blocks are decoded by the block decoder) and C02/C03 at any dimensions. Violated: every size that needs no more blocks than the file has is accepted, with witnesses whose pixels are in the wrong places. What remains: too many blocks are refused, and an equal number of block columns gives the same pixels. |
| C80 | `decode_crunch`, `decode_unity_crunch` | Violated: witnesses with one changed byte of the header (number of colour endpoints; format). What remains: if the header, codes and palettes are good and no code has a symbol outside its palette (`Spec.Crn.GoodTables`, `Spec.Crn.Unity.GoodTables`), then all level data are harmless; an invariant over the whole unpacking loop says that the symbol decoder never reads outside its tables and no palette index leaves its palette. |
| C81 | BC1 to BC5, BC7, ASTC | `Spec.Shows` says that some data of the right size decodes to a picture. The proof is an encoder for flat and two-coloured blocks (`Proofs/Store.lean`), whose blocks are shown to have the wanted texels; the colour tables of BC7 mode 5 are checked for all 256 values. Gradients are in `Proofs/StoreGradient.lean` (BC1 to BC5, the larger endpoint is stored first) and `Proofs/StoreBc7.lean` (mode 6). ASTC blocks with a weight for every texel are in `Proofs/StoreAstc.lean`. If in BC7 the first index does not fit into its three bits, the endpoints change places. |
| C82 | `decode_crunch` | `Spec.Crn.Stores` says that some file is decoded as the given block data are. The proof is a Crunch encoder: `Enc.Writes` relates a reader of the specification to the bits it reads (`Proofs/Crn/Write.lean`), and palettes, level and header are written with it (`WritePalettes.lean`, `WriteLevel.lean`, `WriteFile.lean`). C51 carries the result to the code. |
| C83 | `decode_unity_crunch` | As C82, with an encoder for the palettes, the block stream and the file of Unity's variant (`WriteUnity.lean`, `WriteUnityFile.lean`). The negation rests on `C44_never_decoded`: with overflow checks no file with an odd number of block columns is decoded, whatever it holds (`UnityOddAny.lean`). |
| C84 | ETC, EAC, ATC, PVRTC | As C81, with encoders in `Proofs/StoreEtc.lean`, `StoreEac.lean` and `StorePvrtc.lean`; the terms of the statements are in `Spec/Gradient.lean` and `Spec/EacLevels.lean`. The levels of EAC come from a table over all base values, multipliers and modifier tables; in the little-endian reading some indices overlap these fields, so they are not free (`StoreEacTable.lean`). |
| C85 | BC6H | As C81, with blocks of mode 11 whose two endpoints differ by at most 1 and whose indices are all 7 (`Proofs/StoreBc6.lean`); the endpoints for the 256 levels come from a table that is checked by the kernel. |
| C86 | `decode_unity_crunch`, ETC formats | As C83, with an encoder for the ETC palettes and the two block streams (`WriteEtc.lean`, `WriteEtcLevel.lean`, `WriteEtcFile.lean`, `WriteEtcUnpack.lean`); `WriteEtcParts.lean` finds base colours of five bits from which the decoder makes the wanted bytes. `Spec/UnityEtcData.lean` says which blocks these are. |
| C87 | `decode_unity_crunch`, ETC formats | The bytes that the specification `Unity.unpack` makes of two base colours satisfy `Unity.TwoColours` of `Spec/UnityEtcData.lean` (`UnityEtcOnly.lean`); the blocks are found in the data by their lengths. With C25 and C55 the result equals that of `decode_etc1`. |
| C88 | `decode_crunch`, `decode_unity_crunch` | `Ships` of `Spec/CrnPictures.lean`: one file, its dimensions and its format code, and every pixel of the result. Composition of the encoders of C81 and C84 with those of C82, C83 and C86; the decoder contract shows that the data of a picture do not depend on the build. |
| C89 | `decode_crunch`, `decode_unity_crunch` | One file against both specifications, `Crn.unpack` and `Unity.unpack`. The negation has a concrete file, the pixels come from C51 and C55. What holds follows from the lengths of the unpacked blocks and the contract of the block decoders. |
| C90 | the whole-image decoders of BC1 - BC5, BC7, ETC, EAC and ATC | `limits`, `AtMost` and `SeenIn` of `Spec/FewColours.lean`: lists of different values that pixels of one block have. Every texel is an entry of a table of `n` values that depends on the block only, so a list without duplicates is no longer than `n`. The limits are reached by concrete blocks, found by search and checked by the kernel. |
| C91 | `decode_bc1`, `decode_bc5`, `decode_etc1`, `decode_etc2_rgb`, `decode_eacrg(_signed)`, `decode_atc_rgb4` | Relations between two blocks in `Spec/Recolour.lean`, in terms of bit fields. The colours of both blocks are compared by the block specifications; the whole-image contract lifts the law to pictures. |
| C92 | the block formats, ASTC | `Spec/Cut.lean` says which blocks are copied and what a part of a picture is. The blocks of the copy are found by arithmetic on the block numbers; the pictures follow from the whole-image contract, for ASTC from C66. |
| C93 | the block formats with two halves | `Spec/Halves.lean` says how the blocks are put together and which channels come from which picture. The texel specifications read each half for its own channels only; the blocks of the new data are found as for C92, the pictures follow from the whole-image contract. |

No property is considered inexpressible. Properties marked "violated" are properties a user would
expect and the code does not have; for these the theorem is the negation with a witness, plus the
strongest true variant.

## 5. Where the code and the expected property disagree

Each line is a theorem about the model (negation or exact behaviour), not a guess.

| property | finding |
|----------|---------|
| C10 | Sizes whose byte or pixel count overflows `usize` panic (with overflow checks) instead of giving an error. |
| C22 | BC6H: with overflow checks each block of mode 15 panics: `(1 << 16) - 1` is computed in `u16`. Without the checks the mask is 0 and the second endpoint is lost. |
| C29 | EAC R11 and RG11 read the indices from a little-endian word instead of a big-endian one. |
| C30 | ATC: index 1 of the alternate mode is computed as `(c0-c1)/4` with wrapping, instead of `max(0, c0-c1/4)`. |
| C32 | PVRTC 4bpp accepts half the bytes it needs and then panics; width 0 panics with overflow checks. |
| C35 | ASTC blocks of width or height 1 panic for blocks with texels; size 0 panics (division by zero). |
| C36 | ASTC: the half float minus infinity panics with overflow checks and gives 255 without. |
| C40 | ASTC: blocks whose weights and configuration need more bits than the block has panic with overflow checks; `C40_block_panics_iff` says exactly which. Without overflow checks most of them decode to arbitrary colours, but some still panic; `C40_release_block_panics_iff` says exactly which. |
| C42 | Crunch headers: buffers that end within the header panic. |
| C44 | Unity Crunch: with overflow checks every texture with an odd number of block columns panics. |
| C83 | Unity Crunch: for the same reason no file of a texture with an odd number of block columns can be decoded with overflow checks, so the data of such textures cannot be shipped in this format. |
| C84 | EAC R11: because of C29, 145 of the 256 red levels (241 for signed data) cannot be shown as a flat picture by any data. |
| C47 | BC6H: the unsigned unquantisation has the wrong upper limit, and negative endpoints of the signed variant all become -0x7fff. |
| C48 | ETC2 RGBA1: transparent pixels keep a colour instead of being (0,0,0,0). |
| C50 | ASTC: negative offsets of HDR endpoints, and illegal blocks, give other colours than the standard. |
| C52, C56 | Crunch with several faces and an odd number of block rows panics: all such files, not only the witness (`C52_odd_rows_panic`, `C56_odd_rows_panic`). |
| C53, C57 | Crunch files that end with a section of codes can panic. |
| C61 | Python: sizes that wrap make all functions except the two for PVRTC write behind the `bytes` object. |
| C62 | Python: `decode_astc` panics on success and returns zeros on failure. |
| C63 | The block functions for BC3, BC4, BC5 and ATC RGBA8 change all words of a longer buffer; those for BC4 and BC5 keep old channels. |
| C64 | On 32-bit targets BC3, BC4, BC5, ATC RGBA8, ETC2 RGBA8 and EAC lose 16 of the 48 index bits: the last (BC, ATC) or first (ETC2, EAC) texels of each block are wrong. Crunch files that hold such blocks inherit this. |
| C66 | ASTC: malformed blocks whose colour values do not fit take them from the bytes behind the block: the next block changes their pixels, and trailing data turns the panic into a success. |
| C67 | BC2, BC3: blocks whose first colour is not larger than the second use the three-colour palette of BC1 (index 2 is the mean, index 3 black); the S3TC extension always takes four colours. DXT5 textures in Crunch files of both variants are affected, too. |
| C69 | Crunch, Unity Crunch: the checksums of the header and of the data are never compared; damaged files decode to other images. |
| C71 | Crunch, Unity Crunch: data that ends too early is continued with the byte behind it, so that incomplete files decode; files that end within the tables panic. |
| C76 | Crunch, Unity Crunch: the buffer for the blocks has the size that the header claims, up to 510 GiB for a file of 151 bytes; the caller's dimensions do not limit it. |
| C79 | Crunch, Unity Crunch: the dimensions in the file are not compared with those of the caller, so wrong dimensions give an `Ok` image with the blocks in the wrong places. |
| C80 | Crunch, both variants: palette indices are not compared with the size of the palette, so one wrong byte in the header (number of palette entries, format) makes the decoder panic. |
| C89 | Crunch: nothing tells the two variants apart, and a file can be well-formed in both: `decode_crunch` then gives an `Ok` image with other colours than `decode_unity_crunch`. |

## 6. A cross-check on the project's sample textures

This section reports a test, not a proof. It was made to find mistakes in the model that no theorem about
the model can show.

The sample textures in `/repo/resources/tests/textures` are all made from `ferris_512.png`. The Lean model
was run on them and its output compared with the picture, channel by channel, on the opaque pixels.
The figures are peak signal-to-noise ratios in dB for red/green/blue; above 30 the picture is clearly the
right one, and a wrong channel or a wrong block order gives less than 15.

| Textures | Result |
|---|---|
| BC1, BC1A, BC2, BC3 | about 32/40/46 |
| BC4, BC5 | red 41; red/green 41/51 |
| BC6H | 32/39/43 |
| BC7 | 45/48/49 |
| ETC1 | 32/38/32 |
| ETC2 RGB, RGB A1, RGBA | about 35/43/42 |
| ASTC, all 14 block sizes | from 45 (4×4) down to 30 (12×12) |
| PVRTC 4 bpp RGB | 36/44/45 |
| PVRTC 2 bpp RGBA | 31/38/41 |
| ATC RGB | 29/26/39 |
| EAC R11, RG11 | 18; 18/26 |
| Crunch DXT1, DXT5 | 37/42/43 |
| Crunch DXN | red/green 43/46 |
| Unity Crunch DXT1, DXT5 | 37/42/43 |
| Unity Crunch DXN | red/green 43/46 |
| Unity Crunch ETC1, ETC2, ETC2A | 34/39/32 |
| Unity Crunch ETC1S, ETC2AS | 32/37/28 |

- The poor results for ATC and EAC are those of the code, not of the model: the specification of the format
  (`Verif/Spec`), run on the same textures, gives 37/41/44 for ATC RGB, 45 for EAC R11 and 45/52 for RG11.
  These are the disagreements C47, C29 and C30 of section 5. BC6H gives 34/39/43 with the specification.
- DXT5A files (Crunch and Unity Crunch) keep the alpha channel of the picture in the red channel, so there
  is no figure for them.
- Some of the texture files hold the picture in linear light. Each texture was compared with the picture as it is
  and converted to linear light, and the better figure is given.
- The tests of the project only run the decoders on these textures and do not compare the results.

## 7. Wrong programs

`seeded/LOG.jsonl` has one line per edit of the model in a scratch copy.

- `failed` lists the declarations for which the build reported an error. Lake does not build the modules
  that import a broken one, so more proofs may be broken than are listed.
- `property_theorems_no_longer_proved` lists the theorems of the properties under `breaks` that are in
  `failed` or depend on a declaration in `failed`, computed from the dependencies of the constants in the
  compiled project. It is a lower bound. For the first 349 lines it was computed afterwards, on a later state
  of the project; before, the field held all theorems of the properties under `breaks`, which was too much
  for some lines and too little for others. Ten lines named a property that no failing theorem belongs to and
  that the edit does not make false; it was taken out of `breaks`.
- From line 350 on, lines without a `note` come from runs in which the proofs that fail were replaced by
  `sorry` in the scratch copy and the build was continued, so that `failed` is complete. For lines with a
  `note` the build was stopped at the first failing modules, to save time.
