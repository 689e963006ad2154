{
 "claims": [
  {
   "property": "C01",
   "status": "proved",
   "theorems": [
    "Verif.C01_supported_conversions"
   ],
   "note": ""
  },
  {
   "property": "C02",
   "status": "proved",
   "theorems": [
    "Verif.C02_dispatch_slots"
   ],
   "note": ""
  },
  {
   "property": "C03",
   "status": "proved",
   "theorems": [
    "Verif.C03_error_priority"
   ],
   "note": ""
  },
  {
   "property": "C04",
   "status": "proved",
   "theorems": [
    "Verif.C04_size_constraints"
   ],
   "note": ""
  },
  {
   "property": "C05",
   "status": "proved",
   "theorems": [
    "Verif.C05_plane_count_c",
    "Verif.C05_plane_count",
    "Verif.C05_plane_count_convert"
   ],
   "note": ""
  },
  {
   "property": "C06",
   "status": "proved",
   "theorems": [
    "Verif.C06_outcome",
    "Verif.C06_success"
   ],
   "note": ""
  },
  {
   "property": "C07",
   "status": "proved",
   "theorems": [
    "Verif.C07_frame"
   ],
   "note": ""
  },
  {
   "property": "C08",
   "status": "partial",
   "theorems": [
    "Verif.C08_packed_sizes_partial",
    "Verif.C08_packed_sizes_64",
    "Verif.C08_overflow"
   ],
   "note": "False as stated: products of 2^64 or more wrap or panic (C08_overflow). Proved: exact on targets where the true size is representable, hence always for w*h < 2^62 on 64-bit."
  },
  {
   "property": "C09",
   "status": "proved",
   "theorems": [
    "Verif.C09_custom_strides"
   ],
   "note": ""
  },
  {
   "property": "C10",
   "status": "partial",
   "theorems": [
    "Verif.C10_counterexample",
    "Verif.C10_single_buffer_partial"
   ],
   "note": "False: witness C10_counterexample. Proved what is reported for one stride; C83_exact gives the result for all strides."
  },
  {
   "property": "C11",
   "status": "partial",
   "theorems": [
    "Verif.C11_reported_size_partial",
    "Verif.C11_counterexample"
   ],
   "note": "False for some calls (C11_counterexample); proved for packed layouts and sufficient strides; C84_accepted gives the exact criterion for buffers of exactly the reported size."
  },
  {
   "property": "C12",
   "status": "proved",
   "theorems": [
    "Verif.C12_packed_rejected"
   ],
   "note": ""
  },
  {
   "property": "C13",
   "status": "partial",
   "theorems": [
    "Verif.C13_counterexample",
    "Verif.C13_counterexample_write",
    "Verif.C13_criterion_partial",
    "Verif.C13_sufficient_partial"
   ],
   "note": "False: wrappers pass the width in pixels instead of bytes (C13_counterexample, C13_counterexample_write). Exact acceptance criterion proved."
  },
  {
   "property": "C14",
   "status": "partial",
   "theorems": [
    "Verif.C14_counterexample",
    "Verif.C14_counterexample_write",
    "Verif.C14_criterion_partial",
    "Verif.C14_two_lines_partial"
   ],
   "note": "False: bounds check has stride and row length swapped (C14_counterexample, C14_counterexample_write). Exact acceptance criterion proved."
  },
  {
   "property": "C15",
   "status": "partial",
   "theorems": [
    "Verif.C15_valid_partial",
    "Verif.C15_packed_partial",
    "Verif.C15_exact_partial"
   ],
   "note": "False in general (C14_counterexample and C13_counterexample access memory out of bounds). Proved for all calls whose planes fit in the buffers, on every processor; encodings of Bgr images on SSE2/AVX2 additionally need the room of C52."
  },
  {
   "property": "C16",
   "status": "partial",
   "theorems": [
    "Verif.C16_counterexample",
    "Verif.C16_counterexample_narrow",
    "Verif.C16_checked_partial"
   ],
   "note": "False: strides below the row length underflow (C16_counterexample). Exactly which calls panic: C75; without overflow checks none does."
  },
  {
   "property": "C17",
   "status": "proved",
   "theorems": [
    "Verif.C17_failure_no_effect"
   ],
   "note": ""
  },
  {
   "property": "C18",
   "status": "proved",
   "theorems": [
    "Verif.C18_empty_images"
   ],
   "note": ""
  },
  {
   "property": "C19",
   "status": "proved",
   "theorems": [
    "Verif.C19_frame"
   ],
   "note": ""
  },
  {
   "property": "C20",
   "status": "proved",
   "theorems": [
    "Verif.C20_luma"
   ],
   "note": ""
  },
  {
   "property": "C21",
   "status": "partial",
   "theorems": [
    "Verif.C21_chroma_420_partial",
    "Verif.C21_chroma_420_neon",
    "Verif.C21_chroma_420_ties"
   ],
   "note": "Exact on x86 processors. With NEON exact ties are rounded up in the vector part (C21_chroma_420_neon); C21_chroma_420_ties holds on every processor."
  },
  {
   "property": "C22",
   "status": "partial",
   "theorems": [
    "Verif.C22_chroma_444_partial",
    "Verif.C22_chroma_444_neon",
    "Verif.C22_chroma_444_ties"
   ],
   "note": "Exact on x86 processors. With NEON exact ties are rounded up in the vector part (C22_chroma_444_neon); C22_chroma_444_ties holds on every processor."
  },
  {
   "property": "C23",
   "status": "partial",
   "theorems": [
    "Verif.C23_red_green",
    "Verif.C23_decode_partial"
   ],
   "note": "Red and green exact on every processor. Blue on SSE2/AVX2 is stored as zero when the 16-bit sum overflows (limited range, illegal codes): C46_exact states exactly what is stored."
  },
  {
   "property": "C24",
   "status": "proved",
   "theorems": [
    "Verif.C24_alpha"
   ],
   "note": ""
  },
  {
   "property": "C25",
   "status": "proved",
   "theorems": [
    "Verif.C25_source_noninterference"
   ],
   "note": ""
  },
  {
   "property": "C26",
   "status": "proved",
   "theorems": [
    "Verif.C26_shuffle"
   ],
   "note": ""
  },
  {
   "property": "C27",
   "status": "proved",
   "theorems": [
    "Verif.C27_round_trip",
    "Verif.C27_involution"
   ],
   "note": ""
  },
  {
   "property": "C28",
   "status": "partial",
   "theorems": [
    "Verif.C28_rgba_bgra",
    "Verif.C28_rgb_rgba_partial"
   ],
   "note": "Bgra and Rgba: proved for every set. Rgb against Rgba: proved for every set except that on SSE2, where Nv12 to Rgb is portable but Nv12 to Rgba is vectorised, the blue sum of the pixel must fit 16 bits (see C46)."
  },
  {
   "property": "C29",
   "status": "proved",
   "theorems": [
    "Verif.C29_layout_irrelevant"
   ],
   "note": ""
  },
  {
   "property": "C30",
   "status": "proved",
   "theorems": [
    "Verif.C30_encode",
    "Verif.C30_decode"
   ],
   "note": ""
  },
  {
   "property": "C31",
   "status": "proved",
   "theorems": [
    "Verif.C31_encode",
    "Verif.C31_decode"
   ],
   "note": ""
  },
  {
   "property": "C32",
   "status": "proved",
   "theorems": [
    "Verif.C32_strides"
   ],
   "note": ""
  },
  {
   "property": "C33",
   "status": "proved",
   "theorems": [
    "Verif.C33_encode_444",
    "Verif.C33_encode_420",
    "Verif.C33_decode"
   ],
   "note": ""
  },
  {
   "property": "C34",
   "status": "proved",
   "theorems": [
    "Verif.C34_forward",
    "Verif.C34_backward",
    "Verif.C34_no_overflow"
   ],
   "note": ""
  },
  {
   "property": "C35",
   "status": "proved",
   "theorems": [
    "Verif.C35_limited",
    "Verif.C35_full",
    "Verif.C35_ties",
    "Verif.C35_no_truncation",
    "Verif.C35_stored"
   ],
   "note": ""
  },
  {
   "property": "C36",
   "status": "proved",
   "theorems": [
    "Verif.C36_luma",
    "Verif.C36_chroma",
    "Verif.C36_chroma_block",
    "Verif.C36_chroma_ties",
    "Verif.C36_chroma_block_ties",
    "Verif.C36_forward_accuracy_444",
    "Verif.C36_forward_accuracy_420"
   ],
   "note": ""
  },
  {
   "property": "C37",
   "status": "partial",
   "theorems": [
    "Verif.C37_stored_partial",
    "Verif.C37_stored_420_partial",
    "Verif.C37_counterexample_stored",
    "Verif.C37_documented_partial",
    "Verif.C37_counterexample"
   ],
   "note": "False for Bt709: documented coefficients are full-range. Proved for the three other spaces."
  },
  {
   "property": "C38",
   "status": "partial",
   "theorems": [
    "Verif.C38_accuracy_partial",
    "Verif.C38_full_range_partial",
    "Verif.C38_counterexample",
    "Verif.C38_stored_partial",
    "Verif.C38_stored_full_range_partial",
    "Verif.C38_counterexample_stored"
   ],
   "note": "False in full range, where the chroma centre is 127 (C38_counterexample; C38_counterexample_stored: on every processor). Proved with bound 0.54 in limited range, 2.4/1.6 otherwise, also of the stored samples (as long as the vector code does not wrap, C46)."
  },
  {
   "property": "C39",
   "status": "proved",
   "theorems": [
    "Verif.C39_grey_pixel",
    "Verif.C39_grey_block",
    "Verif.C39_grey_pixel_ties",
    "Verif.C39_grey_block_ties",
    "Verif.C39_grey_luma",
    "Verif.C39_grey_stored"
   ],
   "note": ""
  },
  {
   "property": "C40",
   "status": "partial",
   "theorems": [
    "Verif.C40_stored_partial",
    "Verif.C40_stored_full_range_partial",
    "Verif.C40_counterexample_stored",
    "Verif.C40_neutral_partial",
    "Verif.C40_counterexample",
    "Verif.C40_full_range_partial"
   ],
   "note": "False in full range (C40_counterexample); proved in limited range, and with centre 127 in full range."
  },
  {
   "property": "C41",
   "status": "proved",
   "theorems": [
    "Verif.C41_encode_stored",
    "Verif.C41_decode_stored",
    "Verif.C41_encode",
    "Verif.C41_decode"
   ],
   "note": ""
  },
  {
   "property": "C42",
   "status": "partial",
   "theorems": [
    "Verif.C42_chroma_444_stored_partial",
    "Verif.C42_chroma_420_stored_partial",
    "Verif.C42_decode_stored_partial",
    "Verif.C42_counterexample_decode",
    "Verif.C42_counterexample_chroma",
    "Verif.C42_luma",
    "Verif.C42_chroma",
    "Verif.C42_decode",
    "Verif.C42_luma_stored"
   ],
   "note": "Proved of the formulas without condition (C42_luma, C42_chroma, C42_decode) and of stored luma (C42_luma_stored). Of stored chroma and colours, for two pixels of any images and processors: C42_chroma_444_stored_partial, C42_chroma_420_stored_partial except for equal colours of which only the first is in a vector column of NEON, C42_decode_stored_partial except for blue above the 16-bit range in vector columns of SSE2/AVX2. Both exceptions occur: C42_counterexample_chroma, C42_counterexample_decode."
  },
  {
   "property": "C43",
   "status": "proved",
   "theorems": [
    "Verif.C43_round_trip_pixel",
    "Verif.C43_grey_pixel",
    "Verif.C43_round_trip",
    "Verif.C43_round_trip_420",
    "Verif.C43_grey"
   ],
   "note": ""
  },
  {
   "property": "C44",
   "status": "proved",
   "theorems": [
    "Verif.C44_saturation"
   ],
   "note": ""
  },
  {
   "property": "C45",
   "status": "partial",
   "theorems": [
    "Verif.C45_rejections",
    "Verif.C45_encode_partial",
    "Verif.C45_returns",
    "Verif.C45_counterexample"
   ],
   "note": "Rejected calls: same answer. Encoding equal whenever the source has the room of C52 (otherwise SSE2 reads out of bounds: C45_counterexample)."
  },
  {
   "property": "C46",
   "status": "partial",
   "theorems": [
    "Verif.C46_exact",
    "Verif.C46_decode_partial",
    "Verif.C46_criterion",
    "Verif.C46_counterexample"
   ],
   "note": "False for limited-range images with illegal codes (C46_counterexample); exact criterion proved."
  },
  {
   "property": "C47",
   "status": "proved",
   "theorems": [
    "Verif.C47_shuffle"
   ],
   "note": ""
  },
  {
   "property": "C48",
   "status": "partial",
   "theorems": [
    "Verif.C48_encode_partial",
    "Verif.C48_counterexample"
   ],
   "note": "Equal whenever the source has the room of C52 (C48_counterexample otherwise)."
  },
  {
   "property": "C49",
   "status": "partial",
   "theorems": [
    "Verif.C49_decode_partial",
    "Verif.C49_criterion",
    "Verif.C49_counterexample"
   ],
   "note": "False for limited-range images with illegal codes (C49_counterexample); exact criterion proved."
  },
  {
   "property": "C50",
   "status": "proved",
   "theorems": [
    "Verif.C50_shuffle"
   ],
   "note": ""
  },
  {
   "property": "C51",
   "status": "partial",
   "theorems": [
    "Verif.C51_encode_criterion",
    "Verif.C51_encode_partial",
    "Verif.C51_decode",
    "Verif.C51_within_one",
    "Verif.C51_counterexample"
   ],
   "note": "False for encodings with exact ties (C51_counterexample); exact criterion, at most one unit apart, decoding and shuffles equal."
  },
  {
   "property": "C52",
   "status": "partial",
   "theorems": [
    "Verif.C52_criterion",
    "Verif.C52_other_sources_partial",
    "Verif.C52_bgr_partial",
    "Verif.C52_counterexample"
   ],
   "note": "False: the vector kernels read up to 4 (SSE2) or 8 (AVX2) bytes behind a tight Bgr source (C52_counterexample); exact criterion proved for every valid call."
  },
  {
   "property": "C53",
   "status": "proved",
   "theorems": [
    "Verif.C53_selection"
   ],
   "note": ""
  },
  {
   "property": "C54",
   "status": "proved",
   "theorems": [
    "Verif.C54_initialised_once",
    "Verif.C54_exclusive",
    "Verif.C54_completes"
   ],
   "note": ""
  },
  {
   "property": "C55",
   "status": "proved",
   "theorems": [
    "Verif.C55_history",
    "Verif.C55_history_independent",
    "Verif.C55_idempotent"
   ],
   "note": ""
  },
  {
   "property": "C56",
   "status": "proved",
   "theorems": [
    "Verif.C56_c_string",
    "Verif.C56_describe",
    "Verif.C56_names_injective",
    "Verif.C56_manufacturer"
   ],
   "note": "Proved for the Rust function and for the C string."
  },
  {
   "property": "C57",
   "status": "proved",
   "theorems": [
    "Verif.C57_convert_invalid",
    "Verif.C57_sizes_invalid"
   ],
   "note": ""
  },
  {
   "property": "C58",
   "status": "proved",
   "theorems": [
    "Verif.C58_sizes",
    "Verif.C58_convert"
   ],
   "note": "For arrays at least as large as the image needs (a C function cannot check it, the library documents this)."
  },
  {
   "property": "C59",
   "status": "partial",
   "theorems": [
    "Verif.C59_counterexample",
    "Verif.C59_reported_size_partial"
   ],
   "note": "False: C59_counterexample. Exactly which strides are accepted: C66."
  },
  {
   "property": "C60",
   "status": "partial",
   "theorems": [
    "Verif.C60_forward_coefficients_partial",
    "Verif.C60_counterexample",
    "Verif.C60_coefficients_of_code"
   ],
   "note": "Nearest for luma; chroma coefficients are within one unit (C60_counterexample), rows sum to zero."
  },
  {
   "property": "C61",
   "status": "partial",
   "theorems": [
    "Verif.C61_backward_coefficients",
    "Verif.C61_offsets_partial",
    "Verif.C61_counterexample",
    "Verif.C61_coefficients_of_code"
   ],
   "note": "Multipliers nearest; full-range offsets use chroma centre 127 (C61_counterexample)."
  },
  {
   "property": "C62",
   "status": "proved",
   "theorems": [
    "Verif.C62_concurrent",
    "Verif.C62_order_irrelevant"
   ],
   "note": ""
  },
  {
   "property": "C63",
   "status": "partial",
   "theorems": [
    "Verif.C63_hook_partial",
    "Verif.C63_neon",
    "Verif.C63_counterexample",
    "Verif.C63_support",
    "Verif.C63_default",
    "Verif.C63_history_partial",
    "Verif.C63_history"
   ],
   "note": "False for the name neon on an AVX2 processor, which selects SSE2 (C63_counterexample); proved for all other names and processors, for single calls and for whole executions of several threads (C63_history_partial). C63_neon: the remaining case, on every AVX2 processor; C63_history: executions without exception."
  },
  {
   "property": "C64",
   "status": "partial",
   "theorems": [
    "Verif.C64_counterexample",
    "Verif.C64_packed_partial",
    "Verif.C64_exact_partial",
    "Verif.C64_wide"
   ],
   "note": "False on 32-bit targets: DEPTH*width wraps (C64_counterexample). Proved when no product wraps (C64_packed_partial); which calls succeed on 32-bit targets, whatever the width (C64_exact_partial); images of 2^30 or more pixels per line never are converted (C64_wide)."
  },
  {
   "property": "C65",
   "status": "partial",
   "theorems": [
    "Verif.C65_counterexample",
    "Verif.C65_leaves_partial",
    "Verif.C65_exact_partial",
    "Verif.C65_cleared_partial"
   ],
   "note": "False: leaf 7 is read without checking the highest leaf and OSXSAVE is not checked (C65_counterexample). C65_exact_partial: exactly the processors it fails on; C65_cleared_partial: it holds where the AVX2 bit is clear whenever AVX2 cannot be used."
  },
  {
   "property": "C66",
   "status": "proved",
   "theorems": [
    "Verif.C66_rejected_iff",
    "Verif.C66_rejected_asked_iff"
   ],
   "note": "Exact criterion, all instruction sets and the test hook, every build, 32-bit and 64-bit targets."
  },
  {
   "property": "C67",
   "status": "proved",
   "theorems": [
    "Verif.C67_succeeds_iff",
    "Verif.C67_wide_iff"
   ],
   "note": "Exact criterion for each of the four instruction sets and every build, 32-bit and 64-bit targets."
  },
  {
   "property": "C68",
   "status": "proved",
   "theorems": [
    "Verif.C68_memory_fault"
   ],
   "note": "Proved with the exceptions named in the statement, which C75 shows to be exceptions."
  },
  {
   "property": "C69",
   "status": "proved",
   "theorems": [
    "Verif.C69_lossless_pixel",
    "Verif.C69_lossless_444",
    "Verif.C69_lossless_420"
   ],
   "note": "For each instruction set of the decoder and the encoder; the condition on the codes is exactness of the colour, not of the code."
  },
  {
   "property": "C70",
   "status": "proved",
   "theorems": [
    "Verif.C70_drift_pixel",
    "Verif.C70_drift_block",
    "Verif.C70_full_range_drift"
   ],
   "note": "A consequence of C61: stated as exact outcome. The 65536 chroma codes are checked in the kernel."
  },
  {
   "property": "C71",
   "status": "proved",
   "theorems": [
    "Verif.C71_generation"
   ],
   "note": "I444; bounds attained by the examples beside the theorem."
  },
  {
   "property": "C72",
   "status": "proved",
   "theorems": [
    "Verif.C72_band_valid",
    "Verif.C72_band_room",
    "Verif.C72_bands",
    "Verif.C72_split"
   ],
   "note": "C72_band_valid and C72_band_room show that the bands are valid calls when the buffers hold whole lines (the library asks for one full stride even for a single line); C72_split is the statement for two bands."
  },
  {
   "property": "C73",
   "status": "proved",
   "theorems": [
    "Verif.C73_shuffle",
    "Verif.C73_decode",
    "Verif.C73_encode",
    "Verif.C73_encode_within_one",
    "Verif.C73_exception"
   ],
   "note": "C73_exception shows that the exception for blue cannot be dropped."
  },
  {
   "property": "C74",
   "status": "proved",
   "theorems": [
    "Verif.C74_arguments",
    "Verif.C74_buffers"
   ],
   "note": "Proved for arbitrary kernels. C74_arguments: same destination buffers, same outcome; C74_buffers: with other superfluous destination buffers, same result and same contents of the buffers of the planes."
  },
  {
   "property": "C75",
   "status": "proved",
   "theorems": [
    "Verif.C75_panics_iff",
    "Verif.C75_release"
   ],
   "note": "Exact criterion for builds with overflow checks; builds without never panic (C75_release, no condition on strides)."
  },
  {
   "property": "C76",
   "status": "proved",
   "theorems": [
    "Verif.C76_verdict"
   ],
   "note": "No condition on sizes, formats, strides and buffers, with or without overflow checks, 32-bit and 64-bit targets."
  },
  {
   "property": "C77",
   "status": "proved",
   "theorems": [
    "Verif.C77_contents"
   ],
   "note": "Corollary of C76."
  },
  {
   "property": "C78",
   "status": "proved",
   "theorems": [
    "Verif.C78_between",
    "Verif.C78_near",
    "Verif.C78_flat"
   ],
   "note": "All processors; the two roundings of ties (NEON and others) are distinguished."
  },
  {
   "property": "C79",
   "status": "partial",
   "theorems": [
    "Verif.C79_exact",
    "Verif.C79_upsample_partial",
    "Verif.C79_upsample_scalar",
    "Verif.C79_counterexample"
   ],
   "note": "False for limited-range images with illegal codes on SSE2/AVX2, where the width decides which pixels are decoded by vector code (C79_counterexample: I444 gives blue 0, I420 gives 255). Exact criterion C79_exact; holds always on portable and NEON code and on every processor for legal codes."
  },
  {
   "property": "C80",
   "status": "proved",
   "theorems": [
    "Verif.C80_old_contents",
    "Verif.C80_image"
   ],
   "note": "C80_old_contents for every call and any kernels, C80_image for the image bytes of valid calls."
  },
  {
   "property": "C81",
   "status": "proved",
   "theorems": [
    "Verif.C81_longer_buffers"
   ],
   "note": "C81_longer_buffers."
  },
  {
   "property": "C82",
   "status": "partial",
   "theorems": [
    "Verif.C82_shuffle",
    "Verif.C82_luma",
    "Verif.C82_chroma_partial",
    "Verif.C82_chroma_444_neon",
    "Verif.C82_chroma_420_neon",
    "Verif.C82_decode",
    "Verif.C82_counterexample",
    "Verif.C82_counterexample_neon"
   ],
   "note": "False as stated, see C82_counterexample (SSE2: blue of out-of-range codes) and C82_counterexample_neon (ties). Proved without exception for RGB shuffles, luma, and red and green when decoding (C82_shuffle, C82_luma, C82_decode), for chroma without NEON (C82_chroma_partial); exact conditions for blue (C82_decode) and NEON chroma (C82_chroma_444_neon, C82_chroma_420_neon)."
  },
  {
   "property": "C83",
   "status": "proved",
   "theorems": [
    "Verif.C83_exact"
   ],
   "note": "C83_exact: the whole result as a function of the arguments; with C06 (error cases) get_buffers_size is completely characterised."
  },
  {
   "property": "C84",
   "status": "partial",
   "theorems": [
    "Verif.C84_accepted",
    "Verif.C84_holds",
    "Verif.C84_counterexample"
   ],
   "note": "False: C84_counterexample (a line of four Bgra pixels with stride 1: 13 bytes are reported and accepted, 15 are read), C11_counterexample (single-plane Nv12 is rejected). Exact criteria: C84_accepted (when NotEnoughData is answered), C84_holds (when the image fits)."
  },
  {
   "property": "C85",
   "status": "proved",
   "theorems": [
    "Verif.C85_verdict",
    "Verif.C85_sizes_ignored",
    "Verif.C85_undersized"
   ],
   "note": "C85_verdict: how every such call ends; C85_sizes_ignored: independence of the memory; C85_undersized: OK with packed lines whatever the buffers (the header declares too short buffers undefined behaviour, so this is no defect, but NotEnoughData is practically never answered)."
  },
  {
   "property": "C86",
   "status": "proved",
   "theorems": [
    "Verif.C86_done",
    "Verif.C86_rejected"
   ],
   "note": "C86_done, C86_rejected. Between the two, longer buffers can turn a rejection into a stray access and that into a success (example in Props/Growth)."
  },
  {
   "property": "C87",
   "status": "partial",
   "theorems": [
    "Verif.C87_convert_partial",
    "Verif.C87_sizes_partial",
    "Verif.C87_counterexample"
   ],
   "note": "C87_convert_partial, C87_sizes_partial for all calls except those with an I422 image in one plane, which the header allows and the library rejects (C87_counterexample)."
  },
  {
   "property": "C88",
   "status": "proved",
   "theorems": [
    "Verif.C88_strings",
    "Verif.C88_no_leak",
    "Verif.C88_misuse"
   ],
   "note": "C88_strings, C88_no_leak, C88_misuse. CString::into_raw and from_raw are modelled by their documented contract: a block of exactly the length of the text and the NUL character, measured again with strlen when it is taken back."
  },
  {
   "property": "C89",
   "status": "proved",
   "theorems": [
    "Verif.C89_greatest",
    "Verif.C89_stored",
    "Verif.C89_attained",
    "Verif.C89_choice",
    "Verif.C89_nearest"
   ],
   "note": "C89_greatest, C89_stored, C89_attained, C89_choice, C89_nearest. Chroma of 2x2 blocks: C92."
  },
  {
   "property": "C90",
   "status": "proved",
   "theorems": [
    "Verif.C90_greatest",
    "Verif.C90_shifted",
    "Verif.C90_stored",
    "Verif.C90_attained"
   ],
   "note": "C90_greatest, C90_shifted, C90_stored, C90_attained."
  },
  {
   "property": "C91",
   "status": "partial",
   "theorems": [
    "Verif.C91_refs",
    "Verif.C91_sizes",
    "Verif.C91_planes_partial",
    "Verif.C91_counterexample_strides",
    "Verif.C91_counterexample_overlap",
    "Verif.C91_counterexample_uninit"
   ],
   "note": "Holds of dcp_get_buffers_size (C91_sizes). False of every accepted call of dcp_convert_image: each slice made of a stride array has isize::MAX elements of 4 or 8 bytes and is too large (C91_counterexample_strides); the &mut slice of a destination plane overlaps the slices of all other planes (C91_counterexample_overlap); both arrays of references have an uninitialised element (C91_counterexample_uninit). What holds: slices made of planes are not too large (C91_planes_partial). C85 and C58 say which memory is really accessed."
  },
  {
   "property": "C92",
   "status": "proved",
   "theorems": [
    "Verif.C92_greatest",
    "Verif.C92_stored",
    "Verif.C92_attained",
    "Verif.C92_compare"
   ],
   "note": "C92_greatest: IsGreatest over all blocks, for ties rounded down (portable, SSE2, AVX2) and up (NEON). C92_stored and C92_attained: of the stored samples. C92_compare: with C89. Sharpens C36."
  },
  {
   "property": "C93",
   "status": "proved",
   "theorems": [
    "Verif.C93_near",
    "Verif.C93_range",
    "Verif.C93_tint",
    "Verif.C93_stored",
    "Verif.C93_attained"
   ],
   "note": "C93_range: IsLeast and IsGreatest of the changes over all colours and both ways of rounding; C93_stored: of whole conversions; C93_attained: the limits are met by every conversion of an image with a stated colour; C93_tint: signs in full range. Sharpens C43."
  },
  {
   "property": "C94",
   "status": "proved",
   "theorems": [
    "Verif.C94_same",
    "Verif.C94_largest",
    "Verif.C94_stored",
    "Verif.C94_attained"
   ],
   "note": "C94_same, C94_largest: for all pairs of colours and both ways of rounding ties, with IsGreatest; C94_stored: of whole conversions, also on different processors and targets; C94_attained: the extreme pairs are stored alike everywhere."
  },
  {
   "property": "C95",
   "status": "proved",
   "theorems": [
    "Verif.C95_tables",
    "Verif.C95_refused",
    "Verif.C95_margins",
    "Verif.C95_reference",
    "Verif.C95_stored"
   ],
   "note": "C95_tables (all printed coefficients and errors), C95_margins (every number that is rounded is at least 0.003 from a half, the two candidate tables differ by at least 0.00002 in their errors: far more than double precision loses), C95_reference and C95_stored (reference samples), C95_refused (other models)."
  },
  {
   "property": "C96",
   "status": "partial",
   "theorems": [
    "Verif.C96_shuffle",
    "Verif.C96_luma",
    "Verif.C96_encode_partial",
    "Verif.C96_chroma_444_neon",
    "Verif.C96_chroma_420_neon",
    "Verif.C96_decode",
    "Verif.C96_counterexample",
    "Verif.C96_counterexample_neon"
   ],
   "note": "C96_shuffle, C96_luma, C96_decode: on every processor, C96_decode with the exact condition for blue. C96_encode_partial: whole images without NEON. C96_chroma_444_neon, C96_chroma_420_neon: NEON, with the exact condition. C96_counterexample, C96_counterexample_neon: pictures that are their own mirror image, with results that are not."
  },
  {
   "property": "C97",
   "status": "proved",
   "theorems": [
    "Verif.C97_block",
    "Verif.C97_smooth"
   ],
   "note": "C97_block: every pixel of every picture, with the rounding allowance of Spec/Block; C97_smooth: the bound for blocks of similar colours."
  },
  {
   "property": "C98",
   "status": "partial",
   "theorems": [
    "Verif.C98_luma",
    "Verif.C98_chroma_444",
    "Verif.C98_chroma_420",
    "Verif.C98_decode_partial",
    "Verif.C98_attained",
    "Verif.C98_counterexample"
   ],
   "note": "C98_luma, C98_chroma_444, C98_chroma_420: encoding, on every processor. C98_decode_partial: decoding; red and green always, blue outside the exception. C98_attained: the factors are reached by codes that differ by one. C98_counterexample: on SSE2 blue jumps from 255 to 0."
  },
  {
   "property": "C99",
   "status": "partial",
   "theorems": [
    "Verif.C99_luma",
    "Verif.C99_chroma_partial",
    "Verif.C99_chroma_444_neon",
    "Verif.C99_chroma_420_neon",
    "Verif.C99_decode",
    "Verif.C99_counterexample"
   ],
   "note": "C99_luma, C99_decode: on every processor. C99_chroma_partial: without NEON. C99_chroma_444_neon, C99_chroma_420_neon: NEON, with the exact condition. C99_counterexample: NEON, a tie."
  },
  {
   "property": "C100",
   "status": "partial",
   "theorems": [
    "Verif.C100_little",
    "Verif.C100_colour",
    "Verif.C100_ending",
    "Verif.C100_succeeds",
    "Verif.C100_big",
    "Verif.C100_frame",
    "Verif.C100_bgr_partial",
    "Verif.C100_bgra_partial",
    "Verif.C100_rgb_partial",
    "Verif.C100_counterexample_rgb",
    "Verif.C100_counterexample_bgr",
    "Verif.C100_counterexample_bgra",
    "Verif.C100_counterexample_rgb_call",
    "Verif.C100_counterexample_bgr_call",
    "Verif.C100_counterexample_bgra_call"
   ],
   "note": "C100_little: the other properties speak of little-endian targets. C100_colour: calls that are not between RGB formats, all arguments. C100_ending: all calls. C100_succeeds, C100_big, C100_frame: exactly what the conversions between RGB formats store on a big-endian target. C100_bgr_partial, C100_bgra_partial, C100_rgb_partial: the pixels that are right. C100_counterexample_*: the wrong ones, for all images, and calls for which the result differs."
  },
  {
   "property": "C101",
   "status": "proved",
   "theorems": [
    "Verif.C101_footprint",
    "Verif.C101_at_any_time",
    "Verif.C101_result",
    "Verif.C101_oblivious"
   ],
   "note": "C101_footprint: the set of bytes written is the image, exactly. C101_at_any_time: after any number of writes. C101_result: the writes are those that lead to the stored result. C101_oblivious: source contents, lengths and processor do not matter."
  },
  {
   "property": "C102",
   "status": "proved",
   "theorems": [
    "Verif.C102_parallel",
    "Verif.C102_meanwhile",
    "Verif.C102_order_irrelevant"
   ],
   "note": "C102_parallel: result and frame after any schedule in which every conversion finishes. C102_meanwhile: frame at any time. C102_order_irrelevant. Source buffers may overlap destination buffers as long as the images do not. Byte accesses are atomic and sequentially consistent in the model; compiler assumptions about overlapping references are outside it (see C91)."
  },
  {
   "property": "C103",
   "status": "proved",
   "theorems": [
    "Verif.C103_parallel",
    "Verif.C103_final_value",
    "Verif.C103_old_or_final",
    "Verif.C103_any_order",
    "Verif.C103_once_final"
   ],
   "note": "C103_final_value: every write. C103_old_or_final: any part of the writes in any order. C103_any_order, C103_once_final, C103_parallel."
  },
  {
   "property": "C104",
   "status": "proved",
   "theorems": [
    "Verif.C104_places",
    "Verif.C104_identical"
   ],
   "note": "C104_places: the sequence of places, for every shape of call (calls that do not complete have no writes in the model). C104_identical: places and values for sources that show the same picture. About stores only: the model does not record the places of loads."
  },
  {
   "property": "C105",
   "status": "proved",
   "theorems": [
    "Verif.C105_recolour_444",
    "Verif.C105_recolour_420",
    "Verif.C105_not_nearest"
   ],
   "note": "C105_recolour_444, C105_recolour_420: bounds for stored samples. C105_not_nearest: a colour for which every pair of processors stores a sample more than 0.92 away. On SSE2 and AVX2 codes with an exact blue above 255 are excluded because of C23 (blue wraps around)."
  },
  {
   "property": "C106",
   "status": "proved",
   "theorems": [
    "Verif.C106_count",
    "Verif.C106_once_iff",
    "Verif.C106_exactly_once",
    "Verif.C106_moment"
   ],
   "note": "C106_count: the number of bytes stored. C106_once_iff: no byte is stored twice, exactly when the call is not the overlapping one. C106_exactly_once, C106_moment: the moment of the store. Word and vector stores count as as many byte stores as they have bytes."
  },
  {
   "property": "C107",
   "status": "proved",
   "theorems": [
    "Verif.C107_checks_first",
    "Verif.C107_exclusive",
    "Verif.C107_runs_iff",
    "Verif.C107_panics_before"
   ],
   "note": "C107_checks_first: the alternative. C107_exclusive: not both. C107_runs_iff: exactly when the kernels are run. C107_panics_before: sizes beyond usize."
  },
  {
   "property": "C108",
   "status": "partial",
   "theorems": [
    "Verif.C108_nothing_stored_partial",
    "Verif.C108_exact_partial",
    "Verif.C108_portable_partial",
    "Verif.C108_counterexample",
    "Verif.C108_counterexample_encoder"
   ],
   "note": "False in general: C108_counterexample (NEON, a line of 17 pixels), C108_counterexample_encoder (32 bits, SSE2). C108_nothing_stored_partial covers all other panics; C108_exact_partial: exactly when nothing is stored before a panic; C108_portable_partial: the portable code."
  },
  {
   "property": "C109",
   "status": "proved",
   "theorems": [
    "Verif.C109_distinct",
    "Verif.C109_pairs",
    "Verif.C109_encode",
    "Verif.C109_letters",
    "Verif.C109_decode",
    "Verif.C109_shuffle",
    "Verif.C109_sizes_rgb",
    "Verif.C109_sizes_planar"
   ],
   "note": "C109_distinct, C109_pairs: the texts are distinct. C109_letters: each RGB name has r, g and b exactly once. C109_encode, C109_decode, C109_shuffle: the letters are the bytes. C109_sizes_rgb, C109_sizes_planar: name and reported sizes."
  },
  {
   "property": "C110",
   "status": "partial",
   "theorems": [
    "Verif.C110_exact_partial",
    "Verif.C110_sufficient_partial",
    "Verif.C110_elsewhere_partial",
    "Verif.C110_packed_partial",
    "Verif.C110_counterexample"
   ],
   "note": "False in general: C110_counterexample (a packed 10x4 image in aligned buffers). C110_exact_partial: exactly when the addresses matter; C110_elsewhere_partial, C110_sufficient_partial, C110_packed_partial: consequences. That vst1_lane_u32 assigns through its pointer is an assumption about the standard library (`Model/Align`)."
  },
  {
   "property": "C111",
   "status": "proved",
   "theorems": [
    "Verif.C111_receivers",
    "Verif.C111_senders",
    "Verif.C111_no_ties",
    "Verif.C111_any",
    "Verif.C111_attained"
   ],
   "note": "C111_receivers: one encoded picture, any two receivers; C111_senders: two senders, both with NEON or both without; C111_any: any senders, with the bounds; C111_no_ties: any senders, pictures without ties of chroma; C111_attained: the bound for blue."
  },
  {
   "property": "C112",
   "status": "proved",
   "theorems": [
    "Verif.C112_encode",
    "Verif.C112_decode",
    "Verif.C112_decode_limited",
    "Verif.C112_decode_full",
    "Verif.C112_mistaken"
   ],
   "note": "C112_encode; C112_decode: what neutral chroma decodes to, exactly; C112_decode_limited, C112_decode_full: the two standards compared; C112_mistaken: decoding with the wrong standard."
  },
  {
   "property": "C113",
   "status": "proved",
   "theorems": [
    "Verif.C113_limited",
    "Verif.C113_near",
    "Verif.C113_order",
    "Verif.C113_again",
    "Verif.C113_kept",
    "Verif.C113_full"
   ],
   "note": "C113_limited: the exact function; C113_near, C113_order, C113_kept, C113_again: its consequences; C113_full: full range."
  },
  {
   "property": "C114",
   "status": "proved",
   "theorems": [
    "Verif.C114_stretched",
    "Verif.C114_crushed",
    "Verif.C114_washed"
   ],
   "note": "C114_stretched with C114_crushed; C114_washed."
  },
  {
   "property": "C115",
   "status": "proved",
   "theorems": [
    "Verif.C115_luma",
    "Verif.C115_chroma_444",
    "Verif.C115_chroma_420",
    "Verif.C115_ties_444",
    "Verif.C115_ties_420"
   ],
   "note": "C115_luma: exactly; C115_chroma_444, C115_chroma_420: any processors; C115_ties_444, C115_ties_420: ties without NEON."
  },
  {
   "property": "C116",
   "status": "proved",
   "theorems": [
    "Verif.C116_encode",
    "Verif.C116_nearest",
    "Verif.C116_decode",
    "Verif.C116_trip"
   ],
   "note": "C116_encode: the codes; C116_nearest: they are the nearest to the standards; C116_decode, C116_trip: back to the colour."
  }
 ]
}