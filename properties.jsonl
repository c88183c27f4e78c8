{"id": "C01", "title": "Whole-image decoders: outcome is decided by the two buffer sizes only", "statement": "For each generated whole-image block decoder (decode_bc1, decode_bc1a, decode_bc2, decode_bc3, decode_bc4, decode_bc5, decode_bc6_signed, decode_bc6_unsigned, decode_bc7, decode_etc1, decode_etc2_rgb, decode_etc2_rgba1, decode_etc2_rgba8, decode_eacr, decode_eacr_signed, decode_eacrg, decode_eacrg_signed, decode_atc_rgb4, decode_atc_rgba8): if ceil(w/4)*ceil(h/4)*blocksize and w*h fit in usize, the call returns Err(\"Not enough data to decode image!\") exactly when data is shorter than ceil(w/4)*ceil(h/4)*blocksize, otherwise Err(\"Image buffer is too small!\") exactly when image has fewer than w*h pixels, and otherwise Ok(()). It never panics. (For BC6 the no-panic part excludes blocks of mode 15, see C22.)", "quantifier": "every width, height, data slice and image slice (any length and any contents), debug and release builds", "why_tests_cant": "infinitely many sizes and every byte content; a test samples a handful of textures of friendly sizes", "anchors": ["src/macros.rs: block_decoder!", "src/color.rs: copy_block_buffer", "src/bcn.rs", "src/etc.rs", "src/atc.rs"]}
{"id": "C02", "title": "Failed decode leaves the image untouched", "statement": "When a whole-image block decoder returns Err, the caller's image buffer is bit-for-bit what it was before the call.", "quantifier": "every input for which the decoder returns Err", "why_tests_cant": "must hold for every size combination and every prior image content", "anchors": ["src/macros.rs: block_decoder!"]}
{"id": "C03", "title": "Successful decode writes only the first width*height pixels", "statement": "When a whole-image block decoder returns Ok, the image buffer keeps its length and every pixel at index >= width*height keeps its previous value.", "quantifier": "every width, height, data and over-long image buffer", "why_tests_cant": "out-of-range writes appear only for particular remainders of width/height modulo the block size", "anchors": ["src/macros.rs: block_decoder!", "src/color.rs: copy_block_buffer"]}
{"id": "C04", "title": "Pixel placement", "statement": "On Ok, the pixel at column x, row y (index y*width+x) is the value the format assigns to texel (x mod 4, y mod 4) of compressed block number (y/4)*ceil(width/4)+(x/4), read at byte offset blocknumber*blocksize. Every one of the width*height pixels is written.", "quantifier": "every width, height (including non-multiples of 4), every x < width, y < height", "why_tests_cant": "off-by-one errors at the right and bottom edges depend on the remainder and on image size", "anchors": ["src/macros.rs: block_decoder!", "src/color.rs: copy_block_buffer"]}
{"id": "C05", "title": "Trailing data is ignored", "statement": "Appending any bytes after the first ceil(w/4)*ceil(h/4)*blocksize bytes of data changes neither the result nor the image.", "quantifier": "every input long enough to decode and every suffix", "why_tests_cant": "block decoders receive an unbounded tail of the data; a read past the block would only show for particular following bytes", "anchors": ["src/macros.rs: block_decoder!"]}
{"id": "C06", "title": "Block locality", "statement": "If two data buffers agree on the bytes of block (bx,by), the decoded pixels inside that block's 4x4 rectangle agree, whatever the other blocks contain. (So corrupting one block damages only its own rectangle.)", "quantifier": "every pair of data buffers, every block position", "why_tests_cant": "quantifies over pairs of inputs (a 2-safety property)", "anchors": ["src/macros.rs: block_decoder!"]}
{"id": "C07", "title": "Decoding does not depend on the previous image contents or on earlier blocks", "statement": "The first width*height pixels after Ok are a function of data, width and height only. In particular the scratch block buffer, which is initialised once and reused for all blocks, never leaks values from one block into another, not even for the formats that only write one or two colour channels (BC4, BC5, EAC R, EAC RG).", "quantifier": "every pair of prior image contents, every history of preceding blocks", "why_tests_cant": "2-safety property over all block histories", "anchors": ["src/macros.rs: block_decoder! (buffer)", "src/bcn/bc3.rs: decode_bc3_alpha", "src/etc/eac.rs"]}
{"id": "C08", "title": "Partial edge blocks decode like full blocks", "statement": "Decoding a w x h image gives the top-left crop of decoding any larger w2 x h2 image from the same data, as long as both have the same number of block columns.", "quantifier": "every w <= w2 with equal ceil(./4), every h <= h2", "why_tests_cant": "relates two runs with different sizes, for all sizes", "anchors": ["src/color.rs: copy_block_buffer"]}
{"id": "C09", "title": "Empty images", "statement": "With width = 0 or height = 0 every whole-image block decoder returns Ok and changes nothing, for any data, including empty data.", "quantifier": "every data, image and the other dimension", "why_tests_cant": "degenerate sizes over all data", "anchors": ["src/macros.rs: block_decoder!"]}
{"id": "C10", "title": "Oversized dimensions must be rejected, not panic (violated)", "statement": "For every width and height a whole-image decoder called with an empty data slice and an empty image returns an Err or Ok, never panics. FALSE for the code: the size products are unchecked usize arithmetic. The largest true part is C01 (products representable).", "quantifier": "every width and height in usize", "why_tests_cant": "needs astronomically large dimensions", "anchors": ["src/macros.rs:14-20"]}
{"id": "C11", "title": "Pixel packing", "statement": "A pixel is the 32-bit little-endian word B,G,R,A: packing four 8-bit channels is injective and each channel can be recovered by shifting by 16 (R), 8 (G), 0 (B), 24 (A).", "quantifier": "all 2^32 channel combinations", "why_tests_cant": "2^32 combinations", "anchors": ["src/color.rs: color"]}
{"id": "C12", "title": "BC1 decodes exactly the S3TC colour", "statement": "decode_bc1: each pixel equals the S3TC DXT1 (opaque) formula computed from the block: endpoints expanded from RGB565 by bit replication; if the first 16-bit endpoint is larger than the second the palette is c0, c1, (2c0+c1)/3, (c0+2c1)/3, else c0, c1, (c0+c1)/2, black; index = bits 2i..2i+1 of the last 4 bytes little-endian; alpha always 255.", "quantifier": "every block content (2^64), every texel, every image", "why_tests_cant": "2^64 blocks", "anchors": ["src/bcn/bc1.rs", "src/color.rs: rgb565_le"]}
{"id": "C13", "title": "BC1A differs from BC1 only in punch-through alpha", "statement": "decode_bc1a gives the same R, G, B as decode_bc1 for every pixel; its alpha is 0 exactly for texels with index 3 in blocks whose first endpoint is not larger than the second, and 255 otherwise.", "quantifier": "every data, size and pixel", "why_tests_cant": "2^64 blocks", "anchors": ["src/bcn/bc1.rs"]}
{"id": "C14", "title": "BC2 is BC1 colour with explicit 4-bit alpha", "statement": "decode_bc2: R,G,B of each pixel equal the BC1 decode of bytes 8..16 of its block; alpha is 17 times the i-th nibble of bytes 0..8 (low nibble first).", "quantifier": "every block, texel, image", "why_tests_cant": "2^128 blocks", "anchors": ["src/bcn/bc2.rs"]}
{"id": "C15", "title": "BC3 is BC1 colour with interpolated alpha", "statement": "decode_bc3: R,G,B of each pixel equal the BC1 decode of bytes 8..16; alpha is the entry selected by the i-th 3-bit index (bits 16+3i..) in the 8-entry table of a0,a1: (a0*(7-k)+a1*k)/7 when a0>a1, else (a0*(5-k)+a1*k)/5, 0, 255.", "quantifier": "every block, texel, image", "why_tests_cant": "2^128 blocks", "anchors": ["src/bcn/bc3.rs"]}
{"id": "C16", "title": "BC4 puts one interpolated channel in red", "statement": "decode_bc4: red is the BC3-style interpolated value of the 8-byte block, green = blue = 0, alpha = 255, for every pixel of the image.", "quantifier": "every data, size, pixel", "why_tests_cant": "2^64 blocks and all block histories (the code reuses its scratch buffer)", "anchors": ["src/bcn/bc4.rs", "src/bcn/bc3.rs"]}
{"id": "C17", "title": "BC5 puts two interpolated channels in red and green", "statement": "decode_bc5: red comes from bytes 0..8, green from bytes 8..16, blue = 0, alpha = 255.", "quantifier": "every data, size, pixel", "why_tests_cant": "2^128 blocks and all block histories", "anchors": ["src/bcn/bc5.rs", "src/bcn/bc3.rs"]}
{"id": "C18", "title": "Interpolated values stay between their endpoints", "statement": "Every BC1 four-colour-mode channel and every BC3/BC4/BC5 interpolated value lies between the two endpoint values of its block (except the constants 0 and 255/black of the alternate modes). No 8/16-bit intermediate overflows.", "quantifier": "every pair of endpoints, every index", "why_tests_cant": "all endpoint pairs and all overflow possibilities", "anchors": ["src/bcn/bc1.rs", "src/bcn/bc3.rs"]}
{"id": "C19", "title": "BC7 never panics and consumes at most 128 bits", "statement": "decode_bc7_block on any 16 or more bytes with an output of at least 16 pixels returns normally (no out-of-range table index, no bit read past byte 16, no arithmetic overflow) and its result depends only on the first 16 bytes.", "quantifier": "all 2^128 blocks", "why_tests_cant": "2^128 blocks; a missing table bound shows only on rare partition/rotation combinations", "anchors": ["src/bcn/bc7.rs", "src/bitreader.rs: BitReader"]}
{"id": "C20", "title": "BC7 reserved mode gives transparent black", "statement": "If the first byte of a block is 0 (no mode bit), decode_bc7 writes 0 (R=G=B=A=0) to all 16 texels.", "quantifier": "every block whose first byte is 0", "why_tests_cant": "2^120 blocks", "anchors": ["src/bcn/bc7.rs"]}
{"id": "C21", "title": "BC7 decodes exactly the BPTC value", "statement": "For every block each texel equals the BPTC specification's value: mode from the position of the lowest set bit, fields in specification order, endpoints with p-bits expanded by bit replication, anchor indices one bit short, interpolation (a*(64-w)+b*w+32)/64 with the standard weight tables, then channel rotation; alpha is 255 in modes 0-3.", "quantifier": "every block, every texel", "why_tests_cant": "2^128 blocks", "anchors": ["src/bcn/bc7.rs", "src/bcn/consts.rs"]}
{"id": "C22", "title": "BC6H: mode 15 is decodable in every build (violated)", "statement": "decode_bc6_block on 16 bytes never panics. FALSE: every block whose mode field is 15 (a valid BC6H mode) panics in builds with overflow checks, because (1 << 16) - 1 is computed in u16. For all other modes it never panics and depends only on the first 16 bytes.", "quantifier": "all 2^128 blocks, signed and unsigned, both builds", "why_tests_cant": "2^128 blocks; requires a specific mode and an overflow-checked build", "anchors": ["src/bcn/bc6.rs"]}
{"id": "C23", "title": "BC6H reserved modes give transparent black, valid modes are opaque", "statement": "For reserved mode fields every texel is 0; for every other block (in which no panic occurs) every texel has alpha 255.", "quantifier": "all 2^128 blocks, signed and unsigned", "why_tests_cant": "2^128 blocks", "anchors": ["src/bcn/bc6.rs"]}
{"id": "C24", "title": "ETC1 decodes exactly the ETC1 value", "statement": "decode_etc1: each texel equals clamp(base + modifier): base colour individual (4-bit replicated) or differential (5-bit replicated plus 3-bit signed delta), sub-block chosen by the flip bit, modifier from the standard intensity table, alpha 255.", "quantifier": "every block without differential overflow, every texel", "why_tests_cant": "2^64 blocks", "anchors": ["src/etc/etc1.rs", "src/etc/consts.rs"]}
{"id": "C25", "title": "ETC2 RGB is backward compatible with ETC1", "statement": "For every block that is in individual mode or whose differential base colours do not overflow in any channel, decode_etc2_rgb gives the same 16 pixels as decode_etc1.", "quantifier": "all such blocks", "why_tests_cant": "relates two decoders on 2^64 blocks", "anchors": ["src/etc/etc1.rs", "src/etc/etc2.rs"]}
{"id": "C26", "title": "ETC2 RGB decodes T, H and planar blocks exactly", "statement": "Blocks whose differential red, green or blue overflows (in this priority) are decoded as T, H, planar mode as in the ETC2 specification. The result never depends on anything but the 8 bytes and is always opaque.", "quantifier": "all 2^64 blocks", "why_tests_cant": "2^64 blocks", "anchors": ["src/etc/etc2.rs"]}
{"id": "C27", "title": "ETC2 RGBA1 punch-through", "statement": "decode_etc2_rgba1: alpha of every pixel is 0 or 255; if the opaque bit is set the result is the same as decode_etc2_rgb of the block with the differential bit set; a pixel is transparent exactly when its 2-bit index is 2, the opaque bit is clear and the block is not planar. (The standard also zeroes the colour of transparent pixels; this code keeps the colour: recorded as a disagreement.)", "quantifier": "all 2^64 blocks", "why_tests_cant": "2^64 blocks", "anchors": ["src/etc/etc2.rs"]}
{"id": "C28", "title": "ETC2 RGBA8 is ETC2 RGB plus EAC alpha", "statement": "decode_etc2_rgba8: R,G,B equal decode_etc2_rgb of bytes 8..16; alpha equals clamp(base + modifier*multiplier) of the EAC alpha block in bytes 0..8, read big-endian.", "quantifier": "all 2^128 blocks", "why_tests_cant": "2^128 blocks", "anchors": ["src/etc/etc2.rs"]}
{"id": "C29", "title": "EAC R11/RG11 follow the EAC standard (violated)", "statement": "decode_eacr / decode_eacrg: each value is clamp(base*8+4+modifier*multiplier*8) of the EAC block with 3-bit indices taken big-endian. FALSE for the code: the indices are read from a little-endian word. What holds: the exact value for the little-endian reading, other channels constant, alpha 255.", "quantifier": "all 2^64 blocks", "why_tests_cant": "2^64 blocks", "anchors": ["src/etc/eac.rs"]}
{"id": "C30", "title": "ATC RGB decodes exactly the ATC value (violated in the alternate mode)", "statement": "decode_atc_rgb4: for blocks with bit 15 of the first endpoint clear the palette is c0, (5c0+3c1)/8, (3c0+5c1)/8, c1 (c0 in 555, c1 in 565). For blocks with the bit set the palette is black, max(0, c0 - c1/4), c0, c1: FALSE for the code, which computes (c0-c1)/4 and wraps.", "quantifier": "all 2^64 blocks", "why_tests_cant": "2^64 blocks", "anchors": ["src/atc.rs"]}
{"id": "C31", "title": "ATC RGBA8 is ATC RGB plus BC3 alpha", "statement": "decode_atc_rgba8: R,G,B equal decode_atc_rgb4 of bytes 8..16, alpha equals the BC3 alpha of bytes 0..8.", "quantifier": "all 2^128 blocks", "why_tests_cant": "2^128 blocks", "anchors": ["src/atc.rs"]}
{"id": "C32", "title": "PVRTC checks the data size (violated)", "statement": "decode_pvrtc returns Err when data holds fewer bytes than the blocks of the image need, and never panics. FALSE: the check multiplies by the block width instead of 8, so a 4bpp buffer between half and full size panics; a zero width or height also panics. What holds: at least 8 bytes per block and nonzero size never panic.", "quantifier": "every width, height, data, image", "why_tests_cant": "all sizes and lengths", "anchors": ["src/pvrtc.rs: decode_pvrtc"]}
{"id": "C33", "title": "PVRTC block order is a bijection", "statement": "On every power-of-two grid of blocks the twiddled block order visits every block exactly once and stays inside the data: block index < number of blocks.", "quantifier": "all power-of-two grids", "why_tests_cant": "all grid sizes", "anchors": ["src/pvrtc.rs: morton_index"]}
{"id": "C34", "title": "PVRTC colours never overflow", "statement": "For every block neighbourhood the bilinear colour interpolation yields channels in 0..255 without integer overflow and every pixel blends the two colours with a weight between 0 and 8.", "quantifier": "all block contents, 2bpp and 4bpp", "why_tests_cant": "2^(9*64) neighbourhoods", "anchors": ["src/pvrtc.rs"]}
{"id": "C35", "title": "ASTC whole-image contract", "statement": "decode_astc and the fourteen decode_astc_x_y functions: exact Ok/Err classification by sizes (with the extra block-size error), pixel placement, untouched tail, untouched image on error, for images made of blocks the block decoder accepts.", "quantifier": "every size and every block size up to 12x12, all accepted blocks", "why_tests_cant": "all sizes", "anchors": ["src/astc.rs: decode_astc"]}
{"id": "C36", "title": "ASTC void-extent and reserved blocks (violated for one value)", "statement": "A block with byte0=0xFC and bit 0 of byte1 set fills the footprint with one colour (UNORM16 high bytes or FP16 converted by floor(255*v) clamped); a reserved block mode fills it with opaque magenta. FALSE for the half float minus infinity: it panics with overflow checks and gives 255 without.", "quantifier": "all such blocks and block sizes", "why_tests_cant": "2^119 blocks", "anchors": ["src/astc.rs: decode_astc_block"]}
{"id": "C37", "title": "ASTC integer sequences decode as in the standard", "statement": "The bounded-integer-sequence decoder returns for trit and quint blocks exactly the values defined by the ASTC standard's unpacking equations; each trit is < 3, each quint < 5, each bit field < 2^b, forwards and bit-reversed.", "quantifier": "all bit patterns, ranges and counts", "why_tests_cant": "tables of 256*5 and 128*3 entries and all streams", "anchors": ["src/astc.rs: decode_intseq", "src/bitreader.rs: getbits64"]}
{"id": "C38", "title": "ASTC weights stay in 0..64", "statement": "Every unquantised and every bilinearly infilled texel weight lies in 0..=64, for every block mode the decoder reaches.", "quantifier": "all block modes, all weight data, all footprints", "why_tests_cant": "2^128 blocks", "anchors": ["src/astc.rs: decode_weights"]}
{"id": "C39", "title": "ASTC partition index is in range", "statement": "The partition chosen for a texel is smaller than the number of partitions, for every seed, footprint and texel.", "quantifier": "all seeds, footprints, texels", "why_tests_cant": "2^10 seeds x all footprints x texels", "anchors": ["src/astc.rs: select_partition"]}
{"id": "C40", "title": "ASTC never panics on malformed blocks (violated)", "statement": "decode_astc_block returns normally for every 16 bytes. FALSE: blocks whose weight grid needs more bits than available make a subtraction underflow with overflow checks; without them, some of these blocks still panic because a read begins before the first bit, a weight lies beyond the table or the colour values go beyond the data. What holds: exactly the blocks of a stated list panic, all others decode.", "quantifier": "all 2^128 blocks", "why_tests_cant": "2^128 blocks", "anchors": ["src/astc.rs: decode_block_params, decode_intseq, decode_weights"]}
{"id": "C41", "title": "Crunch header parsing", "statement": "CrnTextureInfo::crnd_get_texture_info returns true exactly for buffers of at least 74 bytes whose signature, header size and data size fields are consistent and whose format code is at most 15, and then reports the big-endian width, height, levels, faces and format.", "quantifier": "every byte buffer", "why_tests_cant": "all buffers", "anchors": ["src/crnlib.rs", "src/crunch/crn_decomp.rs"]}
{"id": "C42", "title": "Crunch header parsing never panics (violated)", "statement": "crnd_get_texture_info never panics. FALSE: the level offsets are sliced before the signature is verified, so 74 bytes with two or more levels panic. What holds: no panic when the buffer has 70+4*levels bytes.", "quantifier": "every byte buffer", "why_tests_cant": "all buffers", "anchors": ["src/crunch/crn_decomp.rs: crnd_get_header"]}
{"id": "C43", "title": "Crunch prefix codes decode what was coded", "statement": "For every table of code lengths the Huffman model accepts, the symbol decoder is a prefix decoder: a stream that starts with the canonical code of symbol s decodes to s and consumes exactly its length.", "quantifier": "all accepted code-length tables and all streams", "why_tests_cant": "unbounded tables and streams", "anchors": ["src/crunch/crn_static_huffman_data_model.rs", "src/crunch/crn_symbol_codec.rs"]}
{"id": "C44", "title": "Unity Crunch decodes textures with an odd number of block columns (violated in debug builds)", "statement": "decode_unity_crunch succeeds on every valid texture. FALSE with overflow checks: an odd number of 4x4 block columns makes an unsigned pitch difference underflow.", "quantifier": "all valid textures, both builds", "why_tests_cant": "depends on the build mode and parity of the size", "anchors": ["src/unitycrunch/crn_unpacker.rs: unpack_dxt1, unpack_dxt5, unpack_dxt5a, unpack_dxn, unpack_etc1, unpack_etc2a"]}
{"id": "C45", "title": "Bit-field reads are exact slices of the little-endian bit stream", "statement": "Wherever a block format is read bit by bit (BC6H, BC7, ASTC), reading n bits at position p yields floor(S / 2^p) mod 2^n, where S is the block as a little-endian integer, and consecutive reads consume consecutive bits.", "quantifier": "all data, positions and widths the readers accept", "why_tests_cant": "all data and positions", "anchors": ["src/bitreader.rs: getbits, getbits64, BitReader"]}
{"id": "C46", "title": "Half-float colours convert by floor(255*v) clamped", "statement": "A 16-bit float channel v (BC6H, ASTC HDR void extent) becomes the byte floor(255*v) clamped to 0..255; negative values give 0, +infinity 255 and NaN 0. (In ASTC, minus infinity is the one exception: see C36.)", "quantifier": "all 65536 half floats", "why_tests_cant": "floating-point corner cases (subnormals, infinities, NaN)", "anchors": ["src/f16.rs", "src/bcn/bc6.rs: f16_to_u8", "src/astc.rs: f16ptr_to_u8"]}
{"id": "C47", "title": "BC6H decodes exactly the BPTC value (violated)", "statement": "decode_bc6 (signed and unsigned): every texel is the BPTC FLOAT value of the block (modes, field layout, delta endpoints, sign extension, unquantisation, interpolation, final scaling) converted to 8 bits per channel. FALSE for the code: the unsigned unquantisation maps 2^(eb-1) instead of 2^eb-1 to 0xffff, and negative endpoints of the signed variant all unquantise to -0x7fff and are interpolated as unsigned words. What holds: the exact BPTC colour for every block without such endpoints, and the exact as-implemented value for all blocks (mode 15 only without overflow checks; with them it panics, see C22; without them its second endpoint is replaced by zero).", "quantifier": "all images, both variants", "why_tests_cant": "all 2^128 blocks", "anchors": ["src/bcn/bc6.rs: decode_bc6_block, unquantize, finish_unquantize", "src/bcn.rs: decode_bc6"]}
{"id": "C48", "title": "ETC2 RGBA1 decodes exactly the standard's value (violated for transparent pixels)", "statement": "decode_etc2_rgba1: every pixel has the colour and alpha of the ETC2 punch-through specification, in which a transparent pixel is (0,0,0,0). FALSE for the code: a transparent pixel keeps the colour of its paint entry. What holds: the exact value of every opaque pixel, and the exact alpha of every pixel.", "quantifier": "all images", "why_tests_cant": "all 2^64 blocks; needs an independent statement of the format", "anchors": ["src/etc/etc2.rs: decode_etc2_rgba1_block", "src/etc.rs: decode_etc2_rgba1"]}
{"id": "C49", "title": "PVRTC decodes exactly the PVRTC value", "statement": "decode_pvrtc_2bpp and decode_pvrtc_4bpp: for every nonzero size whose block grid has power-of-two sides and data with 8 bytes per block, the result is Ok, every pixel has the PVRTC colour (colours of the four surrounding blocks blended bilinearly with wrap-around, modulated by the stored or averaged weight, punch-through alpha) and nothing behind width*height pixels changes.", "quantifier": "every size with a power-of-two grid, all data, both variants", "why_tests_cant": "a pixel depends on up to nine blocks; needs an independent statement of the format", "anchors": ["src/pvrtc.rs: decode_pvrtc, get_texel_colors, get_texel_weights_4bpp, get_texel_weights_2bpp, applicate_color_4bpp, applicate_color_2bpp"]}
{"id": "C50", "title": "ASTC decodes to the standard's colours (violated for some blocks)", "statement": "decode_astc and the sized functions: every pixel has the colour the ASTC standard (HDR profile) defines, including the error colour for blocks it does not allow. FALSE: negative offsets of HDR direct endpoints come out as 0, blocks that are not allowed (other than reserved modes) are decoded as if they were, and extents of void-extent blocks are not checked. What holds: the standard's colours for all allowed blocks without negative HDR offsets, and the exact colours the code gives otherwise.", "quantifier": "every size and block size up to 144 texels, all blocks in the stated set", "why_tests_cant": "2^128 blocks; needs an independent statement of the format", "anchors": ["src/astc.rs: decode_astc, decode_astc_block, decode_endpoints, decode_endpoints_hdr11"]}
{"id": "C51", "title": "Crunch files decode to the texture they hold", "statement": "decode_crunch: for every file that is a Crunch file (header, prefix codes, endpoint and selector palettes and chunks as the format says) with one face or an even number of block rows, whose code and palette sections are followed by at least one byte and whose blocks have fewer than 2^30 bytes, decoding at the size in the header succeeds, every pixel has the colour of its texel in the DXT1, DXT5, DXN or DXT5A block the file holds, and nothing behind width*height pixels changes. Called with another size, the result is that of the block decoder on the unpacked blocks.", "quantifier": "every Crunch file in the four families of formats, every image buffer, both builds", "why_tests_cant": "unbounded files; a pixel depends on prefix codes, palettes and a chain of index differences; needs an independent statement of the format", "anchors": ["src/crunch.rs: decode_crunch, crunch_unpack_level", "src/crunch/crn_unpacker.rs", "src/crunch/crn_symbol_codec.rs", "src/crunch/crn_static_huffman_data_model.rs"]}
{"id": "C52", "title": "Crunch files with several faces decode (violated)", "statement": "decode_crunch succeeds on every valid Crunch file, also with several faces. FALSE: with an odd number of block rows each face after the first is written one more row too far, and the last one beyond the end of the buffer, which panics. What holds: C51, for one face or an even number of block rows.", "quantifier": "every valid file", "why_tests_cant": "depends on the parity of a size together with the number of faces", "anchors": ["src/crunch/crn_unpacker.rs: unpack_dxt1, unpack_dxt5, unpack_dxt5a, unpack_dxn"]}
{"id": "C53", "title": "The order of the sections of a Crunch file does not matter (violated)", "statement": "decode_crunch succeeds on every valid Crunch file wherever its sections are. FALSE: reading a section of codes can fetch the byte after its end, so a file that ends with such a section panics. What holds: when at least one byte follows each such section, the sections can be moved and reordered without any effect on the results.", "quantifier": "every valid file", "why_tests_cant": "depends on the layout of the file", "anchors": ["src/crunch/crn_symbol_codec.rs: get_bits"]}
{"id": "C54", "title": "Crunch accepts only Crunch files in its formats", "statement": "decode_crunch returns Ok only if the buffer has at least 74 bytes, holds the whole header, the header is acceptable and the format is DXT1, DXT5 (five kinds), DXN (two kinds) or DXT5A. A buffer shorter than 74 bytes, or with a complete header that is not acceptable or has an unknown format, gives an error and leaves the image as it was.", "quantifier": "every byte buffer", "why_tests_cant": "all buffers", "anchors": ["src/crunch.rs: decode_crunch, crunch_unpack_level"]}
{"id": "C55", "title": "Unity Crunch files decode to the texture they hold", "statement": "decode_unity_crunch: for every file in Unity's variant of the Crunch format (DXT1, five kinds of DXT5, two of DXN, DXT5A, ETC1, ETC2, ETC2 with alpha, ETC1S, ETC2AS) with one face or an even number of block rows, whose code and palette sections are followed by at least one byte and whose blocks have fewer than 2^30 bytes, decoding at the size in the header succeeds, every pixel has the colour of its texel in the blocks the file holds, and nothing behind width*height pixels changes. In builds with overflow checks this needs an even number of block columns (C44).", "quantifier": "every file in all fourteen formats, every image buffer, both builds", "why_tests_cant": "unbounded files; a pixel depends on prefix codes, palettes and a chain of references to neighbours; needs an independent statement of the format", "anchors": ["src/unitycrunch.rs: decode_unity_crunch, unity_crunch_unpack_level", "src/unitycrunch/crn_unpacker.rs", "src/crunch/crn_symbol_codec.rs"]}
{"id": "C56", "title": "Unity Crunch files with several faces decode (violated)", "statement": "decode_unity_crunch succeeds on every valid file, also with several faces. FALSE: with an odd number of block rows each face after the first is written one more row too far, and the last one beyond the end of the buffer, which panics. What holds: C55, for one face or an even number of block rows.", "quantifier": "every valid file", "why_tests_cant": "depends on the parity of a size together with the number of faces", "anchors": ["src/unitycrunch/crn_unpacker.rs: unpack_dxt1, unpack_dxt5, unpack_dxt5a, unpack_dxn, unpack_etc1, unpack_etc2a"]}
{"id": "C57", "title": "The order of the sections of a Unity Crunch file does not matter (violated)", "statement": "decode_unity_crunch succeeds on every valid file wherever its sections are. FALSE: reading a section of codes can fetch the byte after its end, so a file that ends with such a section can panic. What holds: when at least one byte follows each such section, the sections can be moved and reordered without any effect on the results.", "quantifier": "every valid file", "why_tests_cant": "depends on the layout of the file", "anchors": ["src/crunch/crn_symbol_codec.rs: get_bits"]}
{"id": "C58", "title": "Unity Crunch accepts only Crunch files in its formats", "statement": "decode_unity_crunch returns Ok only if the buffer has at least 74 bytes, holds the whole header, the header is acceptable and the format is one of the fourteen of C55. A buffer shorter than 74 bytes, or with a complete header that is not acceptable or has an unknown format, gives an error and leaves the image as it was.", "quantifier": "every byte buffer of fewer than 2^32 bytes", "why_tests_cant": "all buffers", "anchors": ["src/unitycrunch.rs: decode_unity_crunch, unity_crunch_unpack_level"]}
{"id": "C59", "title": "Decoders write nothing but the image, even when they panic", "statement": "No decoder writes behind the first width*height elements of the image buffer or changes anything there, whatever the data: on success, on an error, and also if it panics half way.", "quantifier": "all 37 functions and decode_astc with every block size, every data buffer, every size whose number of pixels fits in usize, every image buffer, both builds", "why_tests_cant": "all data, including data on which the decoder panics; a test that sees a panic normally does not look at the buffer", "anchors": ["src/color.rs: copy_block_buffer", "src/macros.rs: block_decoder!", "src/astc.rs: decode_astc", "src/pvrtc.rs: decode_pvrtc", "src/crunch.rs: decode_crunch", "src/unitycrunch.rs: decode_unity_crunch"]}
{"id": "C60", "title": "The Python functions return the pixels as BGRA bytes", "statement": "Each of the 37 Python functions bound with pybind! returns bytes of length 4*width*height, with blue, green, red and alpha of each pixel in this order, row by row, on the inputs on which the Rust function succeeds; a ValueError with the message of the Rust function if that returns an error (in particular if there is too little data), and a MemoryError if there is no memory. The result does not depend on the memory around the object, although the slice handed to the decoder is four times too long.", "quantifier": "every function, every size below 2^59 pixels, all data, every content of the memory around the object, both builds", "why_tests_cant": "all sizes and data; the slice handed to the decoder comes out of an unsafe transmute", "anchors": ["bindings/python/src/lib.rs: pybind!"]}
{"id": "C61", "title": "The Python functions are memory safe (violated)", "statement": "Whatever the arguments, the Python functions write only to the bytes object they create. FALSE: without overflow checks width*height*4 wraps, and because the slice handed to the decoder is four times too long, decoders write behind the object; for example width = 2^63+1, height = 2 and one block of data. All functions but the two for PVRTC have this defect. What holds: all sizes whose number of pixels does not wrap, all sizes in builds with overflow checks, and the two PVRTC functions with all arguments.", "quantifier": "every function, all arguments, both builds", "why_tests_cant": "all sizes; needs arguments that wrap", "anchors": ["bindings/python/src/lib.rs: pybind!"]}
{"id": "C62", "title": "Python's decode_astc returns the image (violated)", "statement": "decode_astc of the Python module returns the decoded image as bytes, or raises an exception. FALSE: it panics on every input that the Rust function decodes, and when the Rust function returns an error it returns zeros as if it had succeeded; on no input does it return anything but zeros.", "quantifier": "all data, sizes and block sizes, both builds", "why_tests_cant": "the claim is about all inputs", "anchors": ["bindings/python/src/lib.rs: decode_astc"]}
{"id": "C63", "title": "Block functions write the 16 texels of the block and nothing else (violated)", "statement": "Each public decode_..._block function, given the bytes of a block and a buffer of at least 16 words, writes the 16 texels of the block to the first 16 words whatever they held before, and changes nothing behind them. FALSE: those for BC3, BC4, BC5 and ATC RGBA8 change every word of the buffer, and those for BC4 and BC5 keep the old contents of the channels they do not decode. What holds: all other formats, decode_astc_block (first block_width*block_height words), decode_etc2_a8_block and decode_eac_block; and exactly what the four functions do.", "quantifier": "every format, every block (except BC6H mode 15 and ASTC blocks that do not fit), every buffer of any length, both builds", "why_tests_cant": "all buffers and their previous contents; the whole-image functions always pass buffers of 16 words", "anchors": ["src/bcn/bc3.rs: decode_bc3_alpha, decode_bc3_block", "src/bcn/bc4.rs: decode_bc4_block", "src/bcn/bc5.rs: decode_bc5_block", "src/atc.rs: decode_atc_rgba8_block", "src/etc/eac.rs", "src/etc/etc2.rs", "src/astc.rs: decode_astc_block"]}
{"id": "C64", "title": "Decoding does not depend on the width of usize (violated)", "statement": "On a target with a 32-bit usize each whole-image decoder gives the same image as on a 64-bit target. FALSE for the nine formats with 48 index bits per channel (BC3, BC4, BC5, ATC RGBA8, ETC2 RGBA8, EAC R11 and RG11, signed and unsigned): the indices are kept in a usize, so 16 of the 48 bits are lost, and some texels of each block (the last ones in the BC and ATC formats, the first ones in ETC2 and EAC) are wrong. Crunch files in the formats DXT5, DXT5A and DXN and Unity Crunch files in these and in ETC2A inherit the fault. What holds: the ten other formats, PVRTC, ASTC, and Crunch files in the other formats; and exactly, the nine formats decode each block as if the bytes with these index bits were zero.", "quantifier": "all data, all sizes that fit in a 32-bit usize, every image buffer, both builds", "why_tests_cant": "the tests run on 64-bit targets; the exact statement is about all blocks", "anchors": ["src/bcn/bc3.rs: decode_bc3_alpha", "src/etc/etc2.rs: decode_etc2_a8_block", "src/etc/eac.rs: decode_eac_block, decode_eac_signed_block", "src/color.rs: copy_block_buffer", "src/macros.rs: block_decoder!", "src/pvrtc.rs: decode_pvrtc, morton_index", "src/astc.rs: decode_astc", "src/crunch.rs: decode_crunch", "src/unitycrunch.rs: decode_unity_crunch"]}
{"id": "C65", "title": "Success means that the buffers really were large enough", "statement": "If a whole-image decoder returns Ok, then the data holds at least the bytes that the image needs and the image buffer at least width*height pixels, as exact numbers, and the image was decoded. This holds for all dimensions, also those for which the products computed by the size checks overflow and the checks pass wrongly. For decode_crunch and decode_unity_crunch it holds for any file, also a damaged one: the requested image needs no more blocks than the header of the file announces.", "quantifier": "every width, height, data and image buffer (within Rust's limits on the length of a slice), both builds", "why_tests_cant": "overflowing products need dimensions near 2^62, which tests do not try", "anchors": ["src/macros.rs: block_decoder!", "src/astc.rs: decode_astc", "src/color.rs: copy_block_buffer"]}
{"id": "C66", "title": "ASTC blocks do not depend on what surrounds them (violated)", "statement": "The texels of an ASTC block depend on its 16 bytes only: not on the bytes after the last block, not on the other blocks, not on the previous image. FALSE for malformed blocks whose colour values do not fit: the code reads their values from the bytes behind the block, so the next block changes the pixels of this one, and trailing data turns a panic into a success. What holds, for all blocks: a decode that succeeds is not changed by trailing data, blocks that decode alone decode the same in any image, the previous image never matters, and an image can be cropped. Exactly which blocks depend on what follows is stated for both builds.", "quantifier": "all data, also malformed, all block sizes and dimensions that fit, every image buffer, both builds", "why_tests_cant": "all blocks and all their surroundings; needs a malformed block", "anchors": ["src/astc.rs: decode_astc, decode_astc_block, decode_block_params, decode_endpoints, decode_intseq"]}
{"id": "C67", "title": "BC2 and BC3 colours follow the S3TC specification (violated)", "statement": "The colour of a BC2 (DXT3) or BC3 (DXT5) texel is taken from the four-colour palette, whatever the order of the two colours of the block, as EXT_texture_compression_s3tc requires. FALSE: the decoders use the BC1 palette, so that blocks whose first colour is not larger than the second use three colours and black. What holds: all blocks whose first colour is the larger one; and exactly which texels of the others are right. The same for the DXT5 textures of Crunch files of both variants.", "quantifier": "all blocks in images of all dimensions that fit, every image buffer, both builds", "why_tests_cant": "encoders usually write the larger colour first, so test images do not show it; the exact statement is about all blocks", "anchors": ["src/bcn/bc2.rs: decode_bc2_block", "src/bcn/bc3.rs: decode_bc3_block", "src/bcn/bc1.rs: decode_bc1_block", "src/crunch.rs: decode_crunch", "src/unitycrunch.rs: decode_unity_crunch"]}
{"id": "C68", "title": "An image can be decoded in bands", "statement": "Let the height of the first band be a multiple of the block height. If the data of both bands decode into two image buffers, then the concatenated data decode into the concatenated buffers, with the dimensions of the whole image, and the result is the concatenation of the two results. Conversely, if the whole image decodes, then so do the bands, to the two parts of the result (for the 19 block formats; for ASTC the converse fails for malformed blocks, see C66).", "quantifier": "all data, also malformed blocks, all widths and heights that fit, all image buffers, both builds, all ASTC block sizes up to 144 texels", "why_tests_cant": "relates three calls over all data and all sizes", "anchors": ["src/macros.rs: block_decoder!", "src/color.rs: copy_block_buffer", "src/astc.rs: decode_astc"]}
{"id": "C69", "title": "Damaged Crunch files are refused (violated)", "statement": "A Crunch file holds a checksum of its header and one of its data. If a file does not match its checksums, decode_crunch and decode_unity_crunch return an error. FALSE: the checksums are read into the header structure and never compared. A file with one damaged byte decodes successfully into another image. In fact no file's result depends on the two checksums.", "quantifier": "all files that can be unpacked, all values of the checksums, all dimensions and image buffers, both builds", "why_tests_cant": "the damage can be anywhere and of any kind; tests decode undamaged files", "anchors": ["src/crunch/crn_decomp.rs: CrnHeader, crnd_get_header", "src/crunch.rs: decode_crunch", "src/unitycrunch.rs: decode_unity_crunch"]}
{"id": "C70", "title": "Only the bytes of the first level of a Crunch file matter", "statement": "Two Crunch files of the same length that agree in the magic number, the header size, the data size, the dimensions, the format and the position table, and in the bytes of the sections that the first level needs, are decoded to the same result. The checksums, flags, reserved field, user data, the other levels and bytes between the sections have no influence.", "quantifier": "all pairs of files of which one can be unpacked, within the limits of C51 and C55, all dimensions and image buffers, both builds", "why_tests_cant": "relates two calls over all files and all contents of the other bytes", "anchors": ["src/crunch.rs: decode_crunch", "src/unitycrunch.rs: decode_unity_crunch", "src/crunch/crn_unpacker.rs: CrnUnpacker"]}
{"id": "C71", "title": "Crunch files that end too early are refused (violated)", "statement": "If a Crunch file does not hold all the data of its first level, decode_crunch and decode_unity_crunch return an error. FALSE: when the data of a section ends, the decoders go on with the byte behind it over and over, so that a file without its last bytes can decode successfully; if it ends within the tables, they panic. What holds: a file that is shorter than the size in its header is refused with an error and the image is left alone, if it was cut off behind the header or within the first 74 bytes (between them it panics, see C42).", "quantifier": "all files, all positions where they are cut off, all dimensions and image buffers, both builds", "why_tests_cant": "all positions of all files", "anchors": ["src/crunch/crn_symbol_codec.rs: symbol_codec", "src/crunch/crn_decomp.rs: crnd_get_header", "src/crunch.rs: decode_crunch", "src/unitycrunch.rs: decode_unity_crunch"]}
{"id": "C72", "title": "Overflow checks only turn results into panics", "statement": "If a decoding function returns in a build with overflow checks (cargo's default for debug builds), with Ok or with an error, then it returns the same result and leaves the same image in every build. So whatever was tested in a debug build holds in a release build; the only difference the checks make is a panic. Conversely a panic in a release build is a panic in a debug build. If a function of the Python module returns or raises ValueError or MemoryError in a build with overflow checks, it returns the same bytes or raises the same exception in every build.", "quantifier": "all 37 decoding functions and decode_astc with any block size, all data, valid or not, all dimensions and image buffers", "why_tests_cant": "compares two builds over all inputs, also malformed ones; a suite runs against one build and some inputs", "anchors": ["Cargo.toml", "src/lib.rs", "src/macros.rs: block_decoder!", "src/astc.rs: decode_astc", "src/pvrtc.rs: decode_pvrtc", "src/crunch.rs: decode_crunch", "src/unitycrunch.rs: decode_unity_crunch", "bindings/python/src/lib.rs: pybind!, decode_astc"]}
{"id": "C73", "title": "PVRTC locality", "statement": "A pixel of a PVRTC image depends only on the four blocks whose centres surround it (the texture wraps around): two textures that agree in these blocks are decoded to the same pixel. So a damaged block changes at most the pixels around its own centre, an area of twice the width and height of a block.", "quantifier": "all pairs of textures with 8 bytes per block, all dimensions that give a power-of-two grid, all pixels, all image buffers, both variants, both builds", "why_tests_cant": "relates two calls over all textures, grid sizes and positions; neighbours are found through the twiddled order and across the edges", "anchors": ["src/pvrtc.rs: decode_pvrtc, morton_index, get_texel_weights_2bpp, applicate_color_2bpp, applicate_color_4bpp"]}
{"id": "C74", "title": "PVRTC textures wrap around", "statement": "If the blocks of a PVRTC texture are moved cyclically, to the right or down, then the pixels of the decoded image move with them; there is no seam at the edges of the texture.", "quantifier": "all pairs of textures with 8 bytes per block whose blocks are moved by any distance, all power-of-two grids of full blocks, all image buffers, both variants, both builds", "why_tests_cant": "relates two calls over all textures and all distances", "anchors": ["src/pvrtc.rs: decode_pvrtc, morton_index, get_texel_weights_2bpp, applicate_color_2bpp, applicate_color_4bpp"]}
{"id": "C75", "title": "Every call ends", "statement": "No data and no dimensions make a decoding function run forever: every loop of the code that is not a for loop over a range or a slice ends for every input, with a result, an error or a panic.", "quantifier": "all loop and while loops that the decoding functions reach, all data and reader states, all dimensions, both builds", "why_tests_cant": "a hang needs one particular malformed input; a suite that ends has only shown that its own inputs end", "anchors": ["src/pvrtc.rs: morton_index", "src/bcn/bc7.rs: decode_bc7_block", "src/crunch/crn_symbol_codec.rs: decode, get_bits, decode_receive_static_data_model", "src/crunch/crn_static_huffman_data_model.rs: DecoderTables::init", "src/crunch/crn_utils.rs: total_bits", "src/astc.rs: decode_intseq", "src/unitycrunch/crn_unpacker.rs: decode_alpha_selectors"]}
{"id": "C76", "title": "The memory a Crunch file asks for is bounded by the file or the image", "statement": "A Crunch file makes decode_crunch and decode_unity_crunch allocate no more memory for the unpacked blocks than the image that the caller asked for needs. (This is false of the code: the buffer is sized by the header alone, so that a file of about 150 bytes requests more than 500 gigabytes; what holds is that the request is exactly the size of the texture described in the header, all faces together, and always below 2^40 bytes.)", "quantifier": "all files of less than 4 GiB, all dimensions of the caller, both functions, both builds", "why_tests_cant": "a resource bound over all headers; test files have honest headers", "anchors": ["src/crunch/crn_unpacker.rs: crnd_unpack_level", "src/unitycrunch/crn_unpacker.rs: crnd_unpack_level", "src/crunch.rs: decode_crunch", "src/unitycrunch.rs: decode_unity_crunch"]}
{"id": "C77", "title": "Channels that a format does not have", "statement": "Formats without an alpha channel (BC1, BC4, BC5, ETC1, ETC2 RGB, EAC R11 and RG11, ATC RGB) decode to opaque pixels; formats with one bit of alpha (BC1A, ETC2 RGBA1) decode to pixels that are opaque or fully transparent; formats with one colour channel (BC4, EAC R11) leave green and blue 0, and formats with two (BC5, EAC RG11) leave blue 0, whatever was in the image buffer.", "quantifier": "all data, dimensions, image buffers with any contents and all pixels, both builds", "why_tests_cant": "a statement about every pixel of every image; a test sees the blocks of its samples", "anchors": ["src/macros.rs: block_decoder!", "src/bcn/bc1.rs", "src/bcn/bc4.rs", "src/bcn/bc5.rs", "src/etc.rs", "src/atc.rs"]}
{"id": "C78", "title": "Textures can be flipped, mirrored and turned without encoding them again", "statement": "If the indices in the blocks of a BC1, BC1A, BC2, BC3, BC4, BC5 or ATC texture are rearranged so that each block is upside down, mirrored or has rows and columns exchanged, and the blocks are rearranged likewise, then the decoded image is exactly the flipped, mirrored or transposed image. (Flipping and mirroring need whole blocks in that direction; exchanging rows and columns works for all sizes.) Rows and columns can be exchanged in the same way in ETC1, ETC2 RGB, RGBA1 and RGBA8 textures, where the flip bit changes with the indices and planar blocks exchange their two directions. ETC textures can also be flipped and mirrored if their blocks are not planar and the differences of the base colours are representable with the other sign: the two halves change places if the flip bit says so. (The mirror image of a planar block need not be representable at all.)", "quantifier": "all pairs of textures that are related in this way, all dimensions, all pixels, all image buffers, both builds", "why_tests_cant": "relates two calls over all textures and sizes", "anchors": ["src/macros.rs: block_decoder!", "src/color.rs: copy_block_buffer", "src/bcn/bc1.rs", "src/bcn/bc2.rs", "src/bcn/bc3.rs", "src/bcn/bc4.rs", "src/bcn/bc5.rs", "src/atc.rs", "src/etc.rs"]}
{"id": "C79", "title": "Crunch files are decoded at their own size only", "statement": "A Crunch or Unity-Crunch file says how large its image is. Decoding it with other dimensions is an error; it never gives an Ok image whose pixels are in the wrong places.", "quantifier": "all files, all pairs of dimensions, all image buffers, both builds", "why_tests_cant": "a test uses the right dimensions; what wrong ones do is a statement over all files and all dimensions", "anchors": ["src/crunch.rs: decode_crunch", "src/unitycrunch.rs: decode_unity_crunch", "src/crunch/crn_unpacker.rs: crnd_unpack_level", "src/unitycrunch/crn_unpacker.rs: crnd_unpack_level"]}
{"id": "C80", "title": "A damaged byte of a Crunch file makes no decoder panic (violated)", "statement": "If some bytes of a valid Crunch file are changed, decoding it either gives some image or reports an error; it never panics. FALSE: palette indices are not checked, so a wrong count of palette entries or a wrong format in the header panics. What holds: damage to the level data is harmless if no code has a symbol outside its palette.", "quantifier": "all valid files, all changes of bytes, all dimensions and image buffers, both builds", "why_tests_cant": "there are 256 times as many damaged files as a file has bytes, for single bytes alone, and the level data have no bound", "anchors": ["src/crunch.rs: decode_crunch", "src/crunch/crn_unpacker.rs: unpack_dxt1, unpack_dxt5, unpack_dxt5a, unpack_dxn", "src/crunch/crn_symbol_codec.rs: decode", "src/unitycrunch.rs: decode_unity_crunch", "src/unitycrunch/crn_unpacker.rs: unpack_dxt1, unpack_dxt5, unpack_dxt5a, unpack_dxn, unpack_etc1, unpack_etc2a"]}
{"id": "C81", "title": "Pictures that a format can hold come out exactly", "statement": "For every picture of one colour per block (any of the 2^32 values), of any size, there is a BC7 and an ASTC texture that decodes to exactly this picture. For every picture with two colours of 5:6:5 bits per block there is such a BC1, BC2 and BC3 texture, with any of 16 alpha values per pixel (BC2) or two alpha values per block (BC3); BC1A with one colour per block and any set of transparent pixels; BC4 and BC5 with two values per channel and block. Instead of one of the two colours or values, each pixel can have any of the steps between them: 4 for the colours, 8 for alpha in BC3 and for the channels of BC4 and BC5. For every picture with two colours per block whose four channels are all even or all odd, with any of 16 steps of the gradient between them for every pixel, there is a BC7 texture; with two arbitrary colours per block there is one that decodes to the picture up to 1 in every channel. For every picture with two arbitrary colours per block, one of them for every pixel, there is an ASTC texture with blocks of 4x4, 5x4, 5x5, 6x5, 8x5 and 6x6 texels (for the first two also with the steps at 21/64 and 43/64 between the colours). No colour is out of reach of the decoder.", "quantifier": "all such pictures, all dimensions, all image buffers, both builds", "why_tests_cant": "there are 2^32 colours per block and no bound on the number of blocks; a test decodes some textures and cannot show that no colour is missing", "anchors": ["src/bcn/bc1.rs", "src/bcn/bc2.rs", "src/bcn/bc3.rs", "src/bcn/bc4.rs", "src/bcn/bc5.rs", "src/bcn/bc7.rs: decode_bc7_block", "src/astc.rs: decode_astc_block", "src/macros.rs: block_decoder!"]}
{"id": "C82", "title": "BC1, BC3, BC4 and BC5 data that fit the palettes of a Crunch file can be shipped in one", "statement": "For the data of every BC1, BC3, BC4 or BC5 texture of up to 65535 x 65535 texels and 2^26 - 1 blocks whose endpoints and selectors take at most 8192 different values each, there is a Crunch file with the same dimensions and the format code of the texture such that decode_crunch of the file equals the block decoder on the data: the same image, error or untouched buffer, for every size asked for and every image buffer. Textures of at most 8192 blocks (4096 for BC5) can always be stored.", "quantifier": "all data, all dimensions of the texture, all sizes asked for, all image buffers, both builds", "why_tests_cant": "a test needs a Crunch encoder and covers the files it makes; that no block data are out of reach is a statement over all data", "anchors": ["src/crunch.rs: decode_crunch", "src/crunch/crn_unpacker.rs: unpack_dxt1, unpack_dxt5, unpack_dxt5a, unpack_dxn, decode_palettes, init_tables", "src/crunch/crn_symbol_codec.rs", "src/crunch/crn_static_huffman_data_model.rs", "src/bcn.rs: decode_bc1, decode_bc3, decode_bc4, decode_bc5"]}
{"id": "C83", "title": "BC1, BC3, BC4 and BC5 data that fit the palettes can be shipped in a file of Unity's variant of Crunch (violated)", "statement": "What C82 says about Crunch files holds for decode_unity_crunch: for such data there is a file that is decoded as the data are, in every build. FALSE with overflow checks if the number of block columns is odd: then no file at all can be decoded. What holds: such a file exists for builds without overflow checks, and for all builds if the number of block columns is even.", "quantifier": "all data, all dimensions of the texture, all sizes asked for, all image buffers, both builds", "why_tests_cant": "a test needs an encoder for Unity's variant and covers the files it makes; that no file of an odd texture can be decoded is a statement over all files", "anchors": ["src/unitycrunch.rs: decode_unity_crunch", "src/unitycrunch/crn_unpacker.rs: unpack_dxt1, unpack_dxt5, unpack_dxt5a, unpack_dxn, decode_palettes, init_tables", "src/bcn.rs: decode_bc1, decode_bc3, decode_bc4, decode_bc5"]}
{"id": "C84", "title": "Gradients, shaded blocks and two-coloured pictures of ETC, ATC and PVRTC textures come out exactly; flat EAC pictures do not (violated)", "statement": "As C81 for the other formats: for every picture of the kinds below there are data of the size of the texture that decode to exactly this picture. ETC1: a 5:5:5 colour per block, or two 4:4:4 colours side by side or one above the other, with a modifier table each and any modifier per pixel. ETC2 RGB, RGBA1 and RGBA8: any gradient between three 6:7:6 colours per block, with any 8-bit alpha per block for RGBA8. ATC: two colours per block and a free choice per pixel. PVRTC: two colours for the texture and a free choice per pixel. EAC R11 and RG11: any flat level per channel and block. FALSE for EAC: 145 of the 256 red levels, 241 for signed data, are shown by no data at all although the standard has blocks for them. What holds for EAC: the other levels can be shown.", "quantifier": "all such pictures of all sizes, all image buffers, both builds; for the negation all data", "why_tests_cant": "a test encodes a few pictures; that no data show a level is a statement over all blocks", "anchors": ["src/etc.rs: decode_etc1, decode_etc2_rgb, decode_etc2_rgba1, decode_etc2_rgba8, decode_eacr, decode_eacr_signed, decode_eacrg, decode_eacrg_signed", "src/atc.rs: decode_atc_rgb4, decode_atc_rgba8", "src/pvrtc.rs: decode_pvrtc_2bpp, decode_pvrtc_4bpp"]}
{"id": "C85", "title": "Flat BC6H pictures come out exactly", "statement": "For every picture of one opaque 8-bit RGB colour per block, of any size, there is an unsigned and a signed BC6H texture that decodes to exactly this picture, although the values of unsigned and signed BC6H textures are not unquantised as the standard says (C47). No colour is out of reach of the decoder.", "quantifier": "all such pictures, all dimensions, all image buffers, both builds", "why_tests_cant": "there are 2^24 colours per block and no bound on the number of blocks; a test decodes some textures and cannot show that no colour is missing", "anchors": ["src/bcn/bc6.rs: decode_bc6_block", "src/bcn.rs: decode_bc6_signed, decode_bc6_unsigned", "src/f16.rs", "src/macros.rs: block_decoder!"]}
{"id": "C86", "title": "ETC data that fit the palettes can be shipped in a file of Unity's variant of Crunch", "statement": "For ETC1, ETC2 RGB and ETC2 RGBA8 data of up to 65535 x 65535 texels and 2^26 - 1 blocks there is a file of Unity's variant of Crunch, with the same dimensions and the format code 10, 11 or 12, such that decode_unity_crunch of the file equals the block decoder on the data, for every size asked for and every image buffer, if every block is in differential mode without overflow, or in individual mode with base colours that differ by two or more in some component, and the parts of the blocks take at most 4096 different values each (alpha endpoints 8192). The same holds for the format codes 13 and 14 if every block has one base colour and one table, with 8192 different values. It holds in every build that can decode textures of this width at all (C44).", "quantifier": "all such data, all dimensions of the texture, all sizes asked for, all image buffers, builds without overflow checks, and all builds for an even number of block columns", "why_tests_cant": "a test needs an encoder for Unity's variant and covers the files it makes; that none of these blocks is out of reach is a statement over all data", "anchors": ["src/unitycrunch.rs: decode_unity_crunch", "src/unitycrunch/crn_unpacker.rs: unpack_etc1, unpack_etc2a, unpack_dxt1, unpack_dxt5, decode_palettes, init_tables, decode_color_endpoints, decode_color_selectors, decode_alpha_selectors_etc, decode_alpha_selectors_etcs", "src/etc.rs: decode_etc1, decode_etc2_rgb, decode_etc2_rgba8"]}
{"id": "C87", "title": "ETC2 files of Unity's variant of Crunch use the modes of ETC1 only", "statement": "Every block of a well-formed file with the format code 10, 11 or 12 is in individual mode, with base colours that differ by two or more in some component, or in differential mode without overflow: T, H and planar blocks cannot occur. Blocks of files with the codes 13 and 14 have one base colour and one table. So decode_unity_crunch of a file with the code 11 equals decode_etc1 on its blocks, and the blocks C86 asks for are all the blocks there are.", "quantifier": "all well-formed files, all sizes asked for, all image buffers, builds without overflow checks, and all builds for an even number of block columns", "why_tests_cant": "that a mode occurs in no file is a statement over all files; a test sees the blocks of some", "anchors": ["src/unitycrunch.rs: decode_unity_crunch", "src/unitycrunch/crn_unpacker.rs: unpack_etc1, unpack_etc2a, unpack_dxt1, unpack_dxt5, decode_color_endpoints", "src/etc.rs: decode_etc1, decode_etc2_rgb"]}
{"id": "C88", "title": "Pictures of up to 8192 blocks can be shipped in Crunch files and come out exactly", "statement": "For every picture of 1 to 8192 blocks, at most 65535 pixels wide and high, with two colours of 5:6:5 bits per block and a free choice for every pixel, with two alpha values per block in addition, or with two values of red per block, and for pictures of up to 4096 blocks with two values of red and two of green per block, there is one Crunch file, with the dimensions of the picture in its header, that decode_crunch decodes to exactly this picture in every build; and a file of Unity's variant that decode_unity_crunch decodes to it in every build that can decode textures of this width at all (C44). The same holds for decode_unity_crunch and pictures with a colour of 5:5:5 bits and a modifier table per block and a free choice of the modifier for every pixel, opaque or with any alpha value per block (format codes 13 and 14).", "quantifier": "all such pictures of all sizes within the limit, all image buffers, both builds", "why_tests_cant": "there are more than 2^40 pictures of a single block; a test needs an encoder and covers the pictures it is given", "anchors": ["src/crunch.rs: decode_crunch", "src/unitycrunch.rs: decode_unity_crunch", "src/bcn.rs: decode_bc1, decode_bc3, decode_bc4, decode_bc5", "src/etc.rs: decode_etc1, decode_etc2_rgba8"]}
{"id": "C89", "title": "A Crunch file has one meaning: the two Crunch functions give no two different pictures (violated)", "statement": "decode_crunch and decode_unity_crunch can be tried one after the other on a file of unknown origin: if both succeed, the pictures are the same. FALSE: there are files that are well-formed in both variants and that both functions decode, in every build, to different pictures; nothing in a file says which variant it was made for. What holds: on files that are well-formed in both variants the functions succeed for the same sizes and report the same errors otherwise, so that only the colours can differ; and decode_crunch decodes no file with a format code of ETC, so that these files have one meaning.", "quantifier": "all files, all sizes, all image buffers, both builds", "why_tests_cant": "that the outcome never differs is a statement over all files and sizes; a test compares the functions on files made for one of them", "anchors": ["src/crunch.rs: decode_crunch", "src/unitycrunch.rs: decode_unity_crunch", "src/crunch/crn_unpacker.rs", "src/unitycrunch/crn_unpacker.rs"]}
{"id": "C90", "title": "A block shows only as many colours as its format can hold", "statement": "In a successfully decoded picture no block of 4 x 4 pixels shows more different values than this: 4 pixel values for BC1, BC1A and ATC RGB; 4 colours and (BC3, ATC RGBA) 8 alpha values for BC2, BC3 and ATC RGBA; 8 pixel values for BC4, EAC R11 and ETC1; 8 values of red and 8 of green for BC5 and EAC RG11; 8 alpha values for ETC2 RGBA8. Each of these numbers is reached by some data; BC7, ETC2 RGB and (colours) ETC2 RGBA1 reach 16, one value for every pixel. Hence a picture with more values in one of its blocks is out of reach: there are no data that decode to it.", "quantifier": "all data, all image sizes, all image buffers, all blocks of the picture; all pictures for the last part", "why_tests_cant": "that no data decode to a picture is a statement about all data; a test can only try some", "anchors": ["src/bcn.rs: decode_bc1, decode_bc2, decode_bc3, decode_bc4, decode_bc5, decode_bc7", "src/etc.rs: decode_etc1, decode_etc2_rgb, decode_etc2_rgba1, decode_etc2_rgba8, decode_eacr, decode_eacrg", "src/atc.rs: decode_atc_rgb4, decode_atc_rgba8"]}
{"id": "C91", "title": "Colour channels can be exchanged in the data", "statement": "Exchanging the two halves of every block of a BC5 or EAC RG11 texture exchanges red and green in the decoded picture (some tools store the halves the other way round). Exchanging the fields of red and blue in every block of an ETC1 or ATC RGB texture exchanges red and blue, for every texture. For BC1 this holds if the exchange leaves the order of the two endpoint words of each block as it was, and for ETC2 RGB if the blocks use none of the modes T, H and planar; for all BC1 and ETC2 RGB textures it does not hold, because there the values of the channels select the mode.", "quantifier": "all data, all image sizes, all image buffers, all pixels", "why_tests_cant": "a test compares a few textures; the law relates the results for any two textures whose blocks are related in this way", "anchors": ["src/bcn.rs: decode_bc1, decode_bc5", "src/etc.rs: decode_etc1, decode_etc2_rgb, decode_eacrg, decode_eacrg_signed", "src/atc.rs: decode_atc_rgb4"]}
{"id": "C92", "title": "Rectangles of blocks can be cut out of a texture", "statement": "The bytes of a block give the same pixels wherever the block stands, also in a texture of another size. So if the blocks of a rectangle are copied out of a texture that can be decoded, the copied data can be decoded with the size of the rectangle, and the result is that part of the picture (texture atlases and mipmap tails can be taken apart and put together without decoding). For ASTC this holds with every block size, for blocks that can be decoded on their own. PVRTC is left out, because there the neighbouring blocks matter.", "quantifier": "the 19 formats with 4x4 blocks and ASTC: all data, all image sizes, all positions and sizes of the rectangle, all image buffers, all pixels", "why_tests_cant": "a test cuts a few rectangles out of a few textures; the law relates the results for a texture and all its parts", "anchors": ["src/macros.rs: block_decoder!", "src/bcn.rs", "src/etc.rs", "src/atc.rs", "src/astc.rs: decode_astc"]}
{"id": "C93", "title": "The two halves of a block are independent", "statement": "In the formats with alpha or a second channel in a half block of its own, the halves can be taken from different textures of the same size without decoding. For BC2, BC3, ETC2 RGBA8 and ATC RGBA the first halves of the blocks of one texture, each followed by the second half of the same block of another texture, decode to the alpha of the first picture and the colours of the second one. For BC5 and EAC RG11 they decode to the red of the first and the green of the second. A texture of one channel can also be used as a half: BC4 blocks joined with BC1 (ATC RGB) blocks are a BC3 (ATC RGBA) texture whose alpha is the red of the first picture, and two BC4 (EAC R11) textures joined block by block are a BC5 (EAC RG11) texture. The joined data can always be decoded if the two textures can.", "quantifier": "all pairs of data that can be decoded, all image sizes, all image buffers, all pixels", "why_tests_cant": "a test combines a few textures; that nothing of one half shows in the channels of the other one is a statement about all pairs of blocks", "anchors": ["src/bcn.rs: decode_bc1, decode_bc2, decode_bc3, decode_bc4, decode_bc5", "src/etc.rs: decode_etc2_rgba8, decode_eacr, decode_eacr_signed, decode_eacrg, decode_eacrg_signed", "src/atc.rs: decode_atc_rgb4, decode_atc_rgba8"]}
