{
 "claims": [
  {
   "property": "C01",
   "status": "proved",
   "theorems": [
    "Verif.Props.C01_outcome_by_sizes",
    "Verif.Props.C01_not_enough_data",
    "Verif.Props.C01_image_too_small"
   ],
   "note": ""
  },
  {
   "property": "C02",
   "status": "proved",
   "theorems": [
    "Verif.Props.C02_error_leaves_image",
    "Verif.Props.C02_all_functions",
    "Verif.Props.C02_astc_any_block_size"
   ],
   "note": "C02_all_functions holds for all 37 functions, all data, all dimensions and both builds."
  },
  {
   "property": "C03",
   "status": "proved",
   "theorems": [
    "Verif.Props.C03_tail_untouched",
    "Verif.Props.C03_all_functions"
   ],
   "note": "C03_all_functions holds for all 37 functions, all dimensions and any contents of the data; Crunch files shorter than 2^32 bytes."
  },
  {
   "property": "C04",
   "status": "proved",
   "theorems": [
    "Verif.Props.C04_pixel_placement"
   ],
   "note": ""
  },
  {
   "property": "C05",
   "status": "proved",
   "theorems": [
    "Verif.Props.C05_trailing_data_ignored",
    "Verif.Props.C05_any_blocks",
    "Verif.Props.C05_pvrtc",
    "Verif.Props.C05_all_functions"
   ],
   "note": "C05_any_blocks needs no legal blocks. C05_all_functions: a success of any function other than the two for Crunch files, whose data has a size of its own, for all dimensions and contents. For ASTC only a success is stable under trailing data, see C66."
  },
  {
   "property": "C06",
   "status": "proved",
   "theorems": [
    "Verif.Props.C06_block_locality",
    "Verif.Props.C06_any_blocks"
   ],
   "note": "C06_any_blocks needs no legal blocks. For ASTC see C66."
  },
  {
   "property": "C07",
   "status": "proved",
   "theorems": [
    "Verif.Props.C07_independent_of_previous_image",
    "Verif.Props.C07_any_blocks",
    "Verif.Props.C07_pvrtc",
    "Verif.Props.C07_crunch",
    "Verif.Props.C07_unity",
    "Verif.Props.C07_all_functions"
   ],
   "note": "C07_all_functions: all 37 functions, all dimensions and any contents, Crunch files shorter than 2^32 bytes."
  },
  {
   "property": "C08",
   "status": "proved",
   "theorems": [
    "Verif.Props.C08_crop",
    "Verif.Props.C08_any_blocks"
   ],
   "note": "C08_any_blocks needs no legal blocks. For ASTC see C66."
  },
  {
   "property": "C09",
   "status": "proved",
   "theorems": [
    "Verif.Props.C09_empty_image"
   ],
   "note": ""
  },
  {
   "property": "C10",
   "status": "partial",
   "theorems": [
    "Verif.Props.C10_oversized_dimensions_panic",
    "Verif.Props.C10_no_panic_partial",
    "Verif.Props.C10_exact_debug",
    "Verif.Props.C10_exact_release",
    "Verif.Props.C10_astc_debug",
    "Verif.Props.C10_astc_release",
    "Verif.Props.C10_pvrtc_debug",
    "Verif.Props.C10_pvrtc_release",
    "Verif.Props.C10_crunch_debug",
    "Verif.Props.C10_crunch_release",
    "Verif.Props.C10_unity_debug",
    "Verif.Props.C10_unity_release"
   ],
   "note": "The property is false of the code: C10_oversized_dimensions_panic. C10_exact_debug and C10_exact_release say for the 19 block formats exactly when a call panics; the ASTC and PVRTC theorems give the outcome for sizes beyond usize, the Crunch theorems the exact condition for files that hold a texture."
  },
  {
   "property": "C11",
   "status": "proved",
   "theorems": [
    "Verif.Props.C11_packing",
    "Verif.Props.C11_packing_injective"
   ],
   "note": ""
  },
  {
   "property": "C12",
   "status": "proved",
   "theorems": [
    "Verif.Props.C12_bc1"
   ],
   "note": ""
  },
  {
   "property": "C13",
   "status": "proved",
   "theorems": [
    "Verif.Props.C13_bc1a",
    "Verif.Props.C13_bc1a_vs_bc1"
   ],
   "note": ""
  },
  {
   "property": "C14",
   "status": "proved",
   "theorems": [
    "Verif.Props.C14_bc2"
   ],
   "note": ""
  },
  {
   "property": "C15",
   "status": "proved",
   "theorems": [
    "Verif.Props.C15_bc3"
   ],
   "note": ""
  },
  {
   "property": "C16",
   "status": "proved",
   "theorems": [
    "Verif.Props.C16_bc4"
   ],
   "note": ""
  },
  {
   "property": "C17",
   "status": "proved",
   "theorems": [
    "Verif.Props.C17_bc5"
   ],
   "note": ""
  },
  {
   "property": "C18",
   "status": "proved",
   "theorems": [
    "Verif.Props.C18_bc1_between",
    "Verif.Props.C18_bc4_between",
    "Verif.Props.C18_bc3_alpha_between",
    "Verif.Props.C18_bc5_between"
   ],
   "note": ""
  },
  {
   "property": "C19",
   "status": "proved",
   "theorems": [
    "Verif.Props.C19_bc7_block_total",
    "Verif.Props.C19_bc7_only_16_bytes"
   ],
   "note": ""
  },
  {
   "property": "C20",
   "status": "proved",
   "theorems": [
    "Verif.Props.C20_bc7_reserved"
   ],
   "note": ""
  },
  {
   "property": "C21",
   "status": "proved",
   "theorems": [
    "Verif.Props.C21_bc7",
    "Verif.Props.C21_bc7_opaque"
   ],
   "note": ""
  },
  {
   "property": "C22",
   "status": "partial",
   "theorems": [
    "Verif.Props.C22_mode15_panics",
    "Verif.Props.C22_block_panics_iff",
    "Verif.Props.C22_image_panics_iff",
    "Verif.Props.C22_bc6_total_partial",
    "Verif.Props.C22_release_total",
    "Verif.Props.C22_bc6_only_16_bytes"
   ],
   "note": "The property is false of the code: with overflow checks exactly the mode-15 blocks, and the images that contain one, panic (the iff theorems). Without the checks every block decodes (C22_release_total)."
  },
  {
   "property": "C23",
   "status": "proved",
   "theorems": [
    "Verif.Props.C23_reserved",
    "Verif.Props.C23_opaque"
   ],
   "note": ""
  },
  {
   "property": "C24",
   "status": "proved",
   "theorems": [
    "Verif.Props.C24_etc1",
    "Verif.Props.C24_no_overflow"
   ],
   "note": ""
  },
  {
   "property": "C25",
   "status": "proved",
   "theorems": [
    "Verif.Props.C25_etc2_extends_etc1",
    "Verif.Props.C25_etc2_extends_etc1_image"
   ],
   "note": ""
  },
  {
   "property": "C26",
   "status": "proved",
   "theorems": [
    "Verif.Props.C26_etc2_rgb",
    "Verif.Props.C26_opaque"
   ],
   "note": ""
  },
  {
   "property": "C27",
   "status": "proved",
   "theorems": [
    "Verif.Props.C27_etc2_rgba1",
    "Verif.Props.C27_alpha",
    "Verif.Props.C27_opaque_block"
   ],
   "note": ""
  },
  {
   "property": "C28",
   "status": "proved",
   "theorems": [
    "Verif.Props.C28_etc2_rgba8"
   ],
   "note": ""
  },
  {
   "property": "C29",
   "status": "partial",
   "theorems": [
    "Verif.Props.C29_eacr_differs",
    "Verif.Props.C29_eacr_partial",
    "Verif.Props.C29_palindromic_partial"
   ],
   "note": "The property is false of the code (C29_eacr_differs). C29_eacr_partial gives the exact value the code computes for every block of all four formats."
  },
  {
   "property": "C30",
   "status": "partial",
   "theorems": [
    "Verif.Props.C30_atc_differs",
    "Verif.Props.C30_atc_rgb_partial",
    "Verif.Props.C30_atc_rgb_as_is"
   ],
   "note": "The property is false of the code in the alternate mode (C30_atc_differs); C30_atc_rgb_partial covers all other pixels, C30_atc_rgb_as_is is the exact behaviour for all blocks."
  },
  {
   "property": "C31",
   "status": "proved",
   "theorems": [
    "Verif.Props.C31_atc_rgba8",
    "Verif.Props.C31_atc_rgba8_from_parts"
   ],
   "note": ""
  },
  {
   "property": "C32",
   "status": "partial",
   "theorems": [
    "Verif.Props.C32_short_data_panics",
    "Verif.Props.C32_zero_width_panics",
    "Verif.Props.C32_pvrtc_no_panic_partial",
    "Verif.Props.C32_pvrtc_short_data_partial",
    "Verif.Props.C32_as_is"
   ],
   "note": "The property is false of the code (the two panic theorems). C32_as_is is the exact outcome for all dimensions whose products fit in usize, zero included."
  },
  {
   "property": "C33",
   "status": "proved",
   "theorems": [
    "Verif.Props.C33_block_order"
   ],
   "note": ""
  },
  {
   "property": "C34",
   "status": "proved",
   "theorems": [
    "Verif.Props.C34_ranges",
    "Verif.Props.C34_pvrtc_no_overflow"
   ],
   "note": ""
  },
  {
   "property": "C35",
   "status": "proved",
   "theorems": [
    "Verif.Props.C35_astc",
    "Verif.Props.C35_sized",
    "Verif.Props.C35_block_too_big",
    "Verif.Props.C35_unit_size_panics",
    "Verif.Props.C35_zero_size_panics"
   ],
   "note": "For block sizes from 2x2 to 144 texels. Block sizes of 1 (blocks with texels) and 0 panic."
  },
  {
   "property": "C36",
   "status": "partial",
   "theorems": [
    "Verif.Props.C36_void_partial",
    "Verif.Props.C36_reserved",
    "Verif.Props.C36_neg_inf_panics",
    "Verif.Props.C36_neg_inf_release"
   ],
   "note": "The property is false of the code for the half float minus infinity (two theorems); everything else holds."
  },
  {
   "property": "C37",
   "status": "proved",
   "theorems": [
    "Verif.Props.C37_sequence",
    "Verif.Props.C37_range",
    "Verif.Props.C37_complete"
   ],
   "note": ""
  },
  {
   "property": "C38",
   "status": "proved",
   "theorems": [
    "Verif.Props.C38_weights_in_range",
    "Verif.Props.C38_grid_in_range",
    "Verif.Props.C38_weights_exact"
   ],
   "note": ""
  },
  {
   "property": "C39",
   "status": "proved",
   "theorems": [
    "Verif.Props.C39_partition",
    "Verif.Props.C39_range"
   ],
   "note": ""
  },
  {
   "property": "C40",
   "status": "partial",
   "theorems": [
    "Verif.Props.C40_block_panics_iff",
    "Verif.Props.C40_image_panics_iff",
    "Verif.Props.C40_total_partial",
    "Verif.Props.C40_release_block_panics_iff",
    "Verif.Props.C40_release_image_panics_iff",
    "Verif.Props.C40_release_total_partial"
   ],
   "note": "The property is false of the code. The iff theorems give exactly the blocks and images that panic, with and (for the 14 block sizes of the standard) without overflow checks; the _partial theorems show that all others decode, for all block sizes."
  },
  {
   "property": "C41",
   "status": "proved",
   "theorems": [
    "Verif.Props.C41_texture_info",
    "Verif.Props.C41_refused",
    "Verif.Props.C41_unchanged",
    "Verif.Props.C41_bad_format"
   ],
   "note": "For a buffer that holds the whole header; C42 says what happens on the others. A refused format code leaves the structure partly overwritten (C41_bad_format)."
  },
  {
   "property": "C42",
   "status": "partial",
   "theorems": [
    "Verif.Props.C42_panics_iff",
    "Verif.Props.C42_panics",
    "Verif.Props.C42_long_partial"
   ],
   "note": "The property is false of the code (C42_panics); C42_panics_iff says exactly when."
  },
  {
   "property": "C43",
   "status": "proved",
   "theorems": [
    "Verif.Props.C43_decode",
    "Verif.Props.C43_invalid",
    "Verif.Props.C43_prefix_free",
    "Verif.Props.C43_accepts",
    "Verif.Props.C43_refused"
   ],
   "note": "For streams of at least the bytes the symbols need; the codes are the canonical codes of the lengths. Lengths above 16 make prepare_decoder_tables panic, but never come out of a file."
  },
  {
   "property": "C44",
   "status": "partial",
   "theorems": [
    "Verif.Props.C44_odd_columns_panic",
    "Verif.Props.C44_never_decoded",
    "Verif.Props.C44_witness",
    "Verif.Props.C55_blocks",
    "Verif.Props.C55_pixels"
   ],
   "note": "The property is false of the code: with overflow checks every complete file with an odd number of block columns panics (C44_odd_columns_panic, for all such files). C55 shows that such files decode without overflow checks, and files with an even number in every build."
  },
  {
   "property": "C45",
   "status": "proved",
   "theorems": [
    "Verif.Props.C45_read",
    "Verif.Props.C45_consecutive",
    "Verif.Props.C45_getbits",
    "Verif.Props.C45_getbits64"
   ],
   "note": ""
  },
  {
   "property": "C46",
   "status": "proved",
   "theorems": [
    "Verif.Props.C46_half_to_byte",
    "Verif.Props.C46_astc_half_to_byte"
   ],
   "note": "For ASTC without the value minus infinity, as the property says; see C36."
  },
  {
   "property": "C47",
   "status": "partial",
   "theorems": [
    "Verif.Props.C47_bc6_unsigned_differs",
    "Verif.Props.C47_bc6_signed_differs",
    "Verif.Props.C47_bc6_mode15_differs",
    "Verif.Props.C47_bc6_partial",
    "Verif.Props.C47_bc6_as_is",
    "Verif.Props.C47_bc6_release_as_is"
   ],
   "note": "The property is false of the code (three negation theorems). C47_bc6_partial: exact BPTC colours for blocks without affected endpoints; C47_bc6_as_is: the exact value for every block except mode 15; C47_bc6_release_as_is: for every block in a build without overflow checks (with them, mode 15 panics: C22)."
  },
  {
   "property": "C48",
   "status": "partial",
   "theorems": [
    "Verif.Props.C48_transparent_keeps_colour",
    "Verif.Props.C48_etc2_rgba1_standard_partial"
   ],
   "note": "The property is false of the code for transparent pixels (negation proved); all other pixels and all alpha values follow the standard."
  },
  {
   "property": "C49",
   "status": "proved",
   "theorems": [
    "Verif.Props.C49_pvrtc_exact"
   ],
   "note": ""
  },
  {
   "property": "C50",
   "status": "partial",
   "theorems": [
    "Verif.Props.C50_standard",
    "Verif.Props.C50_sized_partial",
    "Verif.Props.C50_negative_offset",
    "Verif.Props.C50_hdr_differs",
    "Verif.Props.C50_illegal_differs"
   ],
   "note": "The property is false of the code (two negation theorems); C50_standard covers all blocks on which it holds, C35 gives the exact colours of the others that fit."
  },
  {
   "property": "C51",
   "status": "proved",
   "theorems": [
    "Verif.Props.C51_blocks",
    "Verif.Props.C51_pixels"
   ],
   "note": "The conditions on files are Spec.Crn.Limits; C52 and C53 show that two of them are needed."
  },
  {
   "property": "C52",
   "status": "partial",
   "theorems": [
    "Verif.Props.C52_faces_panic",
    "Verif.Props.C52_odd_rows_panic",
    "Verif.Props.C51_pixels"
   ],
   "note": "The property is false of the code (C52_faces_panic). C52_odd_rows_panic: every complete file with two or more faces and an odd number of block rows panics, whatever its contents; C51 covers all the others (one face, or an even number of block rows)."
  },
  {
   "property": "C53",
   "status": "partial",
   "theorems": [
    "Verif.Props.C53_last_section_panic",
    "Verif.Props.C53_moved_partial",
    "Verif.Props.C51_pixels"
   ],
   "note": "The property is false of the code (C53_last_section_panic). C53_moved_partial: if a byte follows each section of codes and palettes, the sections can be moved and put in any order without any effect; C51 says what such files decode to."
  },
  {
   "property": "C54",
   "status": "proved",
   "theorems": [
    "Verif.Props.C54_refused",
    "Verif.Props.C54_accepted"
   ],
   "note": ""
  },
  {
   "property": "C55",
   "status": "proved",
   "theorems": [
    "Verif.Props.C55_blocks",
    "Verif.Props.C55_pixels"
   ],
   "note": "The conditions on files are Spec.Crn.Limits and the one of C44; C56 and C57 show that two of the conditions of Limits are needed."
  },
  {
   "property": "C56",
   "status": "partial",
   "theorems": [
    "Verif.Props.C56_faces_panic",
    "Verif.Props.C56_odd_rows_panic",
    "Verif.Props.C55_pixels"
   ],
   "note": "The property is false of the code (C56_faces_panic). C56_odd_rows_panic: every complete file with two or more faces and an odd number of block rows panics, in both builds, whatever its contents; C55 covers one face and even numbers of block rows."
  },
  {
   "property": "C57",
   "status": "partial",
   "theorems": [
    "Verif.Props.C57_last_section_panic",
    "Verif.Props.C57_moved_partial",
    "Verif.Props.C55_pixels"
   ],
   "note": "The property is false of the code (C57_last_section_panic). C57_moved_partial: if a byte follows each section of codes and palettes, the sections can be moved and put in any order without any effect; C55 says what such files decode to."
  },
  {
   "property": "C58",
   "status": "proved",
   "theorems": [
    "Verif.Props.C58_refused",
    "Verif.Props.C58_accepted"
   ],
   "note": ""
  },
  {
   "property": "C59",
   "status": "proved",
   "theorems": [
    "Verif.Props.C59_same_programs",
    "Verif.Props.C59_same_astc",
    "Verif.Props.C59_writes_inside",
    "Verif.Props.C59_astc_writes_inside"
   ],
   "note": "For image buffers of fewer than 2^61 elements, as every Rust slice of u32 has."
  },
  {
   "property": "C60",
   "status": "proved",
   "theorems": [
    "Verif.Props.C60_blocks",
    "Verif.Props.C60_astc",
    "Verif.Props.C60_pvrtc",
    "Verif.Props.C60_crunch",
    "Verif.Props.C60_unity_crunch",
    "Verif.Props.C60_errors",
    "Verif.Props.C60_crunch_blocks",
    "Verif.Props.C60_unity_crunch_blocks"
   ],
   "note": "The conditions on data are those of the Rust functions (C01, C22, C35, C49, C51, C55)."
  },
  {
   "property": "C61",
   "status": "partial",
   "theorems": [
    "Verif.Props.C61_foreign_memory_written",
    "Verif.Props.C61_astc_foreign_memory_written",
    "Verif.Props.C61_decode_astc_foreign_memory_written",
    "Verif.Props.C61_crunch_foreign_memory_written",
    "Verif.Props.C61_unity_crunch_foreign_memory_written",
    "Verif.Props.C61_memory_safe_partial",
    "Verif.Props.C61_memory_safe_pixels_partial",
    "Verif.Props.C61_pvrtc_memory_safe"
   ],
   "note": "The property is false of the code for 35 of the 37 functions and decode_astc (the _foreign_memory_written theorems). C61_memory_safe_partial and C61_memory_safe_pixels_partial cover all functions for the sizes whose number of pixels does not wrap and all builds with overflow checks; the two PVRTC functions are safe for all arguments. These assume that Python cannot allocate 2^61 bytes."
  },
  {
   "property": "C62",
   "status": "partial",
   "theorems": [
    "Verif.Props.C62_never_an_image",
    "Verif.Props.C62_success_panics"
   ],
   "note": "The property is false of the code, on every input."
  },
  {
   "property": "C63",
   "status": "partial",
   "theorems": [
    "Verif.Props.C63_overrun",
    "Verif.Props.C63_old_colours",
    "Verif.Props.C63_block_partial",
    "Verif.Props.C63_astc",
    "Verif.Props.C63_etc2_a8",
    "Verif.Props.C63_eac",
    "Verif.Props.C63_bc4",
    "Verif.Props.C63_bc5",
    "Verif.Props.C63_bc3_atc"
   ],
   "note": "The property is false of the code for four formats (C63_overrun, C63_old_colours). C63_block_partial covers the other 15; C63_bc4, C63_bc5 and C63_bc3_atc say exactly what the four do on any buffer."
  },
  {
   "property": "C64",
   "status": "partial",
   "theorems": [
    "Verif.Props.C64_differs",
    "Verif.Props.C64_same_partial",
    "Verif.Props.C64_as_is",
    "Verif.Props.C64_first_texels_partial",
    "Verif.Props.C64_pvrtc_same_partial",
    "Verif.Props.C64_astc_same_partial",
    "Verif.Props.C64_crunch_as_is",
    "Verif.Props.C64_unity_crunch_as_is",
    "Verif.Props.C64_crunch_same_partial",
    "Verif.Props.C64_unity_crunch_same_partial",
    "Verif.Props.C64_crunch_differs"
   ],
   "note": "The property is false of the code for nine formats (C64_differs, for each of them). C64_same_partial covers the others, C64_as_is is the exact behaviour of all 19. PVRTC and ASTC images decode alike; Crunch files go through the 32-bit decoder of their block format, so DXT1 and ETC files decode alike and DXT5A does not. The block functions without wide indices, the ASTC block decoder on blocks that do not overflow, and the unpacking of Crunch files are taken over from the 64-bit model."
  },
  {
   "property": "C65",
   "status": "proved",
   "theorems": [
    "Verif.Props.C65_ok_means_sizes_fit",
    "Verif.Props.C65_ok_means_decoded",
    "Verif.Props.C65_astc_ok_means_sizes_fit",
    "Verif.Props.C65_pvrtc_ok_means_sizes_fit",
    "Verif.Props.C65_crunch_ok_means_decoded",
    "Verif.Props.C65_crunch_ok_means_sizes_fit",
    "Verif.Props.C65_unity_ok_means_decoded",
    "Verif.Props.C65_unity_ok_means_sizes_fit",
    "Verif.Props.C65_all_functions"
   ],
   "note": "No assumption on the dimensions or the contents: Crunch files may be damaged. Slices obey Rust's length limit; ASTC data is shorter than 2^60 bytes, PVRTC data than 2^62, Crunch files than 2^32."
  },
  {
   "property": "C66",
   "status": "partial",
   "theorems": [
    "Verif.Props.C66_trailing_violated",
    "Verif.Props.C66_locality_violated",
    "Verif.Props.C66_trailing_partial",
    "Verif.Props.C66_block_alone_partial",
    "Verif.Props.C66_all_alone",
    "Verif.Props.C66_previous_image",
    "Verif.Props.C66_crop",
    "Verif.Props.C66_debug_depends_iff",
    "Verif.Props.C66_release_depends_iff"
   ],
   "note": "The property is false of the code (C66_trailing_violated, C66_locality_violated). The two iff theorems say exactly which blocks depend on the bytes that follow, the others say what holds for all blocks."
  },
  {
   "property": "C67",
   "status": "partial",
   "theorems": [
    "Verif.Props.C67_violated",
    "Verif.Props.C67_bc2_partial",
    "Verif.Props.C67_bc3_partial",
    "Verif.Props.C67_exact",
    "Verif.Props.C67_crunch_violated",
    "Verif.Props.C67_unity_crunch_violated",
    "Verif.Props.C67_crunch_partial",
    "Verif.Props.C67_unity_crunch_partial"
   ],
   "note": "The property is false of the code (C67_violated, a concrete block). C67_bc2_partial and C67_bc3_partial cover all images whose blocks have the larger colour first; C67_exact C67_crunch_violated C67_unity_crunch_violated C67_crunch_partial C67_unity_crunch_partial says for every block which texels are right."
  },
  {
   "property": "C68",
   "status": "proved",
   "theorems": [
    "Verif.Props.C68_bands",
    "Verif.Props.C68_split",
    "Verif.Props.C68_astc"
   ],
   "note": "Blocks may be malformed; the hypothesis is that the bands (or the whole image) decode. The converse for ASTC is false for malformed blocks (C66) and not claimed."
  },
  {
   "property": "C69",
   "status": "partial",
   "theorems": [
    "Verif.Props.C69_crunch_damage_unnoticed",
    "Verif.Props.C69_unity_crunch_damage_unnoticed",
    "Verif.Props.C69_crunch_checksums_ignored",
    "Verif.Props.C69_unity_crunch_checksums_ignored"
   ],
   "note": "The property is false of the code (the two _damage_unnoticed theorems). The two _checksums_ignored theorems say that the result never depends on the checksums, for every file that can be unpacked within the limits of C51 and C55 and whose sections do not overlap the checksums."
  },
  {
   "property": "C70",
   "status": "proved",
   "theorems": [
    "Verif.Props.C70_crunch",
    "Verif.Props.C70_unity_crunch"
   ],
   "note": "For files that can be unpacked, within the limits of C51 and C55."
  },
  {
   "property": "C71",
   "status": "partial",
   "theorems": [
    "Verif.Props.C71_crunch_violated",
    "Verif.Props.C71_unity_crunch_violated",
    "Verif.Props.C71_crunch_cut_partial",
    "Verif.Props.C71_unity_crunch_cut_partial"
   ],
   "note": "The property is false of the code (the two _violated theorems). The two _partial theorems cover all files that are shorter than the size in their header, except those cut within a level table."
  },
  {
   "property": "C72",
   "status": "proved",
   "theorems": [
    "Verif.Props.C72_all_functions",
    "Verif.Props.C72_astc_any_block_size",
    "Verif.Props.C72_panics",
    "Verif.Props.C72_32bit",
    "Verif.Props.C72_32bit_pvrtc",
    "Verif.Props.C72_32bit_crunch",
    "Verif.Props.C72_32bit_unity_crunch",
    "Verif.Props.C72_python",
    "Verif.Props.C72_python_astc",
    "Verif.Props.C72_not_conversely"
   ],
   "note": "No hypothesis on data, sizes or image. C72_not_conversely: a release build can return where a debug build panics."
  },
  {
   "property": "C73",
   "status": "proved",
   "theorems": [
    "Verif.Props.C73_pvrtc_local",
    "Verif.Props.C73_pvrtc_one_block"
   ],
   "note": "C73_pvrtc_one_block states the consequence for a damaged block."
  },
  {
   "property": "C74",
   "status": "proved",
   "theorems": [
    "Verif.Props.C74_pvrtc_wraps"
   ],
   "note": ""
  },
  {
   "property": "C75",
   "status": "partial",
   "theorems": [
    "Verif.Props.C75_outcome_unique",
    "Verif.Props.C75_pvrtc_partial",
    "Verif.Props.C75_pvrtc_32bit_partial",
    "Verif.Props.C75_bc7_partial",
    "Verif.Props.C75_crunch_bits_partial",
    "Verif.Props.C75_crunch_symbol_partial",
    "Verif.Props.C75_crunch_lengths_partial",
    "Verif.Props.C75_crunch_table_partial",
    "Verif.Props.C75_crunch_total_bits_partial",
    "Verif.Props.C75_counting_partial"
   ],
   "note": "Each loop ends, stated without a bound, with the outcome of the bounded loop of the model. Missing: that a whole call ends is not itself a theorem; it rests on the source having no recursion and no other unbounded loops."
  },
  {
   "property": "C76",
   "status": "partial",
   "theorems": [
    "Verif.Props.C76_crunch_violated",
    "Verif.Props.C76_unity_crunch_violated",
    "Verif.Props.C76_unity_crunch_always",
    "Verif.Props.C76_unity_crunch_always_etc",
    "Verif.Props.C76_crunch_buffer",
    "Verif.Props.C76_unity_crunch_buffer",
    "Verif.Props.C76_crunch_exact_partial",
    "Verif.Props.C76_unity_crunch_exact_partial",
    "Verif.Props.C76_crunch_own_size_partial"
   ],
   "note": "False of the code: neither function compares the dimensions and faces of the header with the image or the file, so a file of about 150 bytes requests 547608330240 bytes. Proved: the exact size of the request, the bound 2^40, and that a file with one face and the caller's own dimensions asks for the size of the compressed image."
  },
  {
   "property": "C77",
   "status": "proved",
   "theorems": [
    "Verif.Props.C77_opaque",
    "Verif.Props.C77_one_bit_alpha",
    "Verif.Props.C77_red_only",
    "Verif.Props.C77_red_green_only"
   ],
   "note": "For all pixels of all images of these formats. BC6H is left to C23, because its reserved modes give transparent pixels."
  },
  {
   "property": "C78",
   "status": "proved",
   "theorems": [
    "Verif.Props.C78_flip",
    "Verif.Props.C78_mirror",
    "Verif.Props.C78_transpose",
    "Verif.Props.C78_transpose_etc",
    "Verif.Props.C78_flip_etc",
    "Verif.Props.C78_mirror_etc",
    "Verif.Props.C78_planar_not_mirrored",
    "Verif.Props.C78_flip_bc1_bytes"
   ],
   "note": "For all pairs of textures whose blocks are rearranged; for BC1 the rearranged block is also given as bytes. C78_planar_not_mirrored: why planar blocks are left out of C78_flip_etc and C78_mirror_etc."
  },
  {
   "property": "C79",
   "status": "partial",
   "theorems": [
    "Verif.Props.C79_crunch_any_size",
    "Verif.Props.C79_unity_any_size",
    "Verif.Props.C79_crunch_violated",
    "Verif.Props.C79_unity_violated",
    "Verif.Props.C79_crunch_too_large_partial",
    "Verif.Props.C79_unity_too_large_partial",
    "Verif.Props.C79_crunch_crop_partial",
    "Verif.Props.C79_unity_crop_partial"
   ],
   "note": "False of the code: the caller's dimensions are never compared with those of the file, and every size that needs no more blocks than the file has is accepted. Proved: larger sizes are refused and leave the image alone; a width with the same number of block columns gives the same pixels."
  },
  {
   "property": "C80",
   "status": "partial",
   "theorems": [
    "Verif.Props.C80_crunch_violated",
    "Verif.Props.C80_crunch_format_violated",
    "Verif.Props.C80_unity_violated",
    "Verif.Props.C80_crunch_level_partial",
    "Verif.Props.C80_crunch_damage_partial",
    "Verif.Props.C80_unity_level_partial",
    "Verif.Props.C80_unity_damage_partial"
   ],
   "note": "False of the code: a wrong number of palette entries or a wrong format in the header makes decode_crunch and decode_unity_crunch panic. Proved for both: if the codes have no symbol outside the palettes, any change of the level data gives an image or an error (for Unity's variant with an even number of block columns or without overflow checks, see C44)."
  },
  {
   "property": "C81",
   "status": "proved",
   "theorems": [
    "Verif.Props.C81_bc1",
    "Verif.Props.C81_bc1a",
    "Verif.Props.C81_bc2",
    "Verif.Props.C81_bc3",
    "Verif.Props.C81_bc4",
    "Verif.Props.C81_bc5",
    "Verif.Props.C81_bc7",
    "Verif.Props.C81_astc",
    "Verif.Props.C81_bc1_gradient",
    "Verif.Props.C81_bc2_gradient",
    "Verif.Props.C81_bc3_gradient",
    "Verif.Props.C81_bc4_gradient",
    "Verif.Props.C81_bc5_gradient",
    "Verif.Props.C81_bc7_gradient",
    "Verif.Props.C81_bc7_two",
    "Verif.Props.C81_bc7_close",
    "Verif.Props.C81_astc_gradient",
    "Verif.Props.C81_astc_two"
   ],
   "note": "The textures are given explicitly in the proofs, by an encoder for these pictures. C84 covers ETC, EAC, ATC and PVRTC, C85 covers BC6H."
  },
  {
   "property": "C82",
   "status": "proved",
   "theorems": [
    "Verif.Props.C82_bc1",
    "Verif.Props.C82_bc3",
    "Verif.Props.C82_bc4",
    "Verif.Props.C82_bc5",
    "Verif.Props.C82_small"
   ],
   "note": "The file is given by an encoder (Proofs/Crn/Write*.lean) with codes of equal length, so it is not a small file. Format codes 0, 2, 9 and 7; one face and one level."
  },
  {
   "property": "C83",
   "status": "partial",
   "theorems": [
    "Verif.Props.C83_violated",
    "Verif.Props.C83_bc1_partial",
    "Verif.Props.C83_bc3_partial",
    "Verif.Props.C83_bc4_partial",
    "Verif.Props.C83_bc5_partial",
    "Verif.Props.C83_small_partial"
   ],
   "note": "False of the code with overflow checks for an odd number of block columns (see C44): no file of such a texture is decoded. Proved for builds without overflow checks, and for all builds with an even number of block columns. Format codes 0, 2, 9 and 7; one face and one level; C86 covers the ETC formats."
  },
  {
   "property": "C84",
   "status": "partial",
   "theorems": [
    "Verif.Props.C84_eacr_violated",
    "Verif.Props.C84_etc1_partial",
    "Verif.Props.C84_etc1_halves_partial",
    "Verif.Props.C84_etc2_rgb_partial",
    "Verif.Props.C84_etc2_rgba1_partial",
    "Verif.Props.C84_etc2_rgba8_partial",
    "Verif.Props.C84_etc2_flat_partial",
    "Verif.Props.C84_atc_rgb_partial",
    "Verif.Props.C84_atc_rgba_partial",
    "Verif.Props.C84_eacr_partial",
    "Verif.Props.C84_eacrg_partial",
    "Verif.Props.C84_pvrtc_partial"
   ],
   "note": "False of the code for EAC R11: C84_eacr_violated shows that every level outside a list of 111 (15 signed) is shown by no data, for every picture of at least one block. The others give the pictures that are shown, by an explicit encoder; all parts of the property except the missing EAC levels are proved."
  },
  {
   "property": "C85",
   "status": "proved",
   "theorems": [
    "Verif.Props.C85_bc6_unsigned",
    "Verif.Props.C85_bc6_signed"
   ],
   "note": "The textures are given explicitly in the proof (blocks of mode 11). Pictures with several colours in a block are not covered."
  },
  {
   "property": "C86",
   "status": "proved",
   "theorems": [
    "Verif.Props.C86_etc1",
    "Verif.Props.C86_etc2",
    "Verif.Props.C86_etc2a",
    "Verif.Props.C86_etc1s",
    "Verif.Props.C86_etc2as",
    "Verif.Props.C86_small"
   ],
   "note": "The file is given by an encoder (Proofs/Crn/WriteEtc*.lean) with codes of equal length. Format codes 10 to 14; one face and one level."
  },
  {
   "property": "C87",
   "status": "proved",
   "theorems": [
    "Verif.Props.C87_blocks",
    "Verif.Props.C87_etc2_is_etc1"
   ],
   "note": "A well-formed file is one that the specification Unity.unpack accepts, with the limits of C55."
  },
  {
   "property": "C88",
   "status": "proved",
   "theorems": [
    "Verif.Props.C88_bc1",
    "Verif.Props.C88_bc3",
    "Verif.Props.C88_bc4",
    "Verif.Props.C88_bc5",
    "Verif.Props.C88_etc1",
    "Verif.Props.C88_etc2a"
   ],
   "note": "One file for all builds. The picture is the one of C81 or C84, the file the one of C82, C83 or C86. Pictures of more blocks can be shipped if their parts repeat (C82, C83, C86)."
  },
  {
   "property": "C89",
   "status": "partial",
   "theorems": [
    "Verif.Props.C89_violated",
    "Verif.Props.C89_same_outcome_partial",
    "Verif.Props.C89_etc_partial"
   ],
   "note": "False of the code: C89_violated gives a file of 162 bytes that both functions decode, to different pictures. Proved: the two functions agree on success and errors for files that are well-formed in both variants, and files with ETC codes are decoded by one of them at most."
  },
  {
   "property": "C90",
   "status": "proved",
   "theorems": [
    "Verif.Props.C90_at_most",
    "Verif.Props.C90_reached",
    "Verif.Props.C90_out_of_reach"
   ],
   "note": "The limits of C81 and C84 from the other side. The table of limits is in Spec/FewColours.lean; BC6H, PVRTC and ASTC are not in it."
  },
  {
   "property": "C91",
   "status": "proved",
   "theorems": [
    "Verif.Props.C91_red_green",
    "Verif.Props.C91_red_blue",
    "Verif.Props.C91_bc1",
    "Verif.Props.C91_etc2",
    "Verif.Props.C91_bc1_order_needed",
    "Verif.Props.C91_etc2_modes_needed"
   ],
   "note": "The last two are the counterexamples for BC1 and ETC2 RGB textures outside the conditions; they come from the formats, not from the code."
  },
  {
   "property": "C92",
   "status": "proved",
   "theorems": [
    "Verif.Props.C92_moved_block",
    "Verif.Props.C92_cut",
    "Verif.Props.C92_cut_astc"
   ],
   "note": "C92_moved_block also covers putting blocks of several textures together."
  },
  {
   "property": "C93",
   "status": "proved",
   "theorems": [
    "Verif.Props.C93_alpha",
    "Verif.Props.C93_red_green",
    "Verif.Props.C93_joined_alpha",
    "Verif.Props.C93_joined_red_green"
   ],
   "note": "The data are put together by splice and join in Spec/Halves.lean. BC1 data with transparent pixels are taken as decode_bc1 shows them."
  }
 ]
}