{
 "C08": "False as stated: products of 2^64 or more wrap or panic (C08_overflow). Proved: exact on targets where the true size is representable, hence always for w*h < 2^62 on 64-bit.",
 "C10": "False: witness C10_counterexample. Proved what is reported for one stride; C83_exact gives the result for all strides.",
 "C11": "False for some calls (C11_counterexample); proved for packed layouts and sufficient strides; C84_accepted gives the exact criterion for buffers of exactly the reported size.",
 "C13": "False: wrappers pass the width in pixels instead of bytes (C13_counterexample, C13_counterexample_write). Exact acceptance criterion proved.",
 "C14": "False: bounds check has stride and row length swapped (C14_counterexample, C14_counterexample_write). Exact acceptance criterion proved.",
 "C15": "False in general (C14_counterexample and C13_counterexample access memory out of bounds). Proved for all calls whose planes fit in the buffers, on every processor; encodings of Bgr images on SSE2/AVX2 additionally need the room of C52.",
 "C16": "False: strides below the row length underflow (C16_counterexample). Exactly which calls panic: C75; without overflow checks none does.",
 "C21": "Exact on x86 processors. With NEON exact ties are rounded up in the vector part (C21_chroma_420_neon); C21_chroma_420_ties holds on every processor.",
 "C22": "Exact on x86 processors. With NEON exact ties are rounded up in the vector part (C22_chroma_444_neon); C22_chroma_444_ties holds on every processor.",
 "C23": "Red and green exact on every processor. Blue on SSE2/AVX2 is stored as zero when the 16-bit sum overflows (limited range, illegal codes): C46_exact states exactly what is stored.",
 "C28": "Bgra and Rgba: proved for every set. Rgb against Rgba: proved for every set except that on SSE2, where Nv12 to Rgb is portable but Nv12 to Rgba is vectorised, the blue sum of the pixel must fit 16 bits (see C46).",
 "C37": "False for Bt709: documented coefficients are full-range. Proved for the three other spaces.",
 "C38": "False in full range, where the chroma centre is 127 (C38_counterexample; C38_counterexample_stored: on every processor). Proved with bound 0.54 in limited range, 2.4/1.6 otherwise, also of the stored samples (as long as the vector code does not wrap, C46).",
 "C40": "False in full range (C40_counterexample); proved in limited range, and with centre 127 in full range.",
 "C45": "Rejected calls: same answer. Encoding equal whenever the source has the room of C52 (otherwise SSE2 reads out of bounds: C45_counterexample).",
 "C46": "False for limited-range images with illegal codes (C46_counterexample); exact criterion proved.",
 "C48": "Equal whenever the source has the room of C52 (C48_counterexample otherwise).",
 "C49": "False for limited-range images with illegal codes (C49_counterexample); exact criterion proved.",
 "C51": "False for encodings with exact ties (C51_counterexample); exact criterion, at most one unit apart, decoding and shuffles equal.",
 "C52": "False: the vector kernels read up to 4 (SSE2) or 8 (AVX2) bytes behind a tight Bgr source (C52_counterexample); exact criterion proved for every valid call.",
 "C56": "Proved for the Rust function and for the C string.",
 "C58": "For arrays at least as large as the image needs (a C function cannot check it, the library documents this).",
 "C59": "False: C59_counterexample. Exactly which strides are accepted: C66.",
 "C60": "Nearest for luma; chroma coefficients are within one unit (C60_counterexample), rows sum to zero.",
 "C61": "Multipliers nearest; full-range offsets use chroma centre 127 (C61_counterexample).",
 "C63": "False for the name neon on an AVX2 processor, which selects SSE2 (C63_counterexample); proved for all other names and processors, for single calls and for whole executions of several threads (C63_history_partial). C63_neon: the remaining case, on every AVX2 processor; C63_history: executions without exception.",
 "C64": "False on 32-bit targets: DEPTH*width wraps (C64_counterexample). Proved when no product wraps (C64_packed_partial); which calls succeed on 32-bit targets, whatever the width (C64_exact_partial); images of 2^30 or more pixels per line never are converted (C64_wide).",
 "C65": "False: leaf 7 is read without checking the highest leaf and OSXSAVE is not checked (C65_counterexample). C65_exact_partial: exactly the processors it fails on; C65_cleared_partial: it holds where the AVX2 bit is clear whenever AVX2 cannot be used.",
 "C66": "Exact criterion, all instruction sets and the test hook, every build, 32-bit and 64-bit targets.",
 "C67": "Exact criterion for each of the four instruction sets and every build, 32-bit and 64-bit targets.",
 "C68": "Proved with the exceptions named in the statement, which C75 shows to be exceptions.",
 "C69": "For each instruction set of the decoder and the encoder; the condition on the codes is exactness of the colour, not of the code.",
 "C70": "A consequence of C61: stated as exact outcome. The 65536 chroma codes are checked in the kernel.",
 "C71": "I444; bounds attained by the examples beside the theorem.",
 "C72": "C72_band_valid and C72_band_room show that the bands are valid calls when the buffers hold whole lines (the library asks for one full stride even for a single line); C72_split is the statement for two bands.",
 "C73": "C73_exception shows that the exception for blue cannot be dropped.",
 "C74": "Proved for arbitrary kernels. C74_arguments: same destination buffers, same outcome; C74_buffers: with other superfluous destination buffers, same result and same contents of the buffers of the planes.",
 "C75": "Exact criterion for builds with overflow checks; builds without never panic (C75_release, no condition on strides).",
 "C76": "No condition on sizes, formats, strides and buffers, with or without overflow checks, 32-bit and 64-bit targets.",
 "C77": "Corollary of C76.",
 "C78": "All processors; the two roundings of ties (NEON and others) are distinguished.",
 "C79": "False for limited-range images with illegal codes on SSE2/AVX2, where the width decides which pixels are decoded by vector code (C79_counterexample: I444 gives blue 0, I420 gives 255). Exact criterion C79_exact; holds always on portable and NEON code and on every processor for legal codes.",
 "C80": "C80_old_contents for every call and any kernels, C80_image for the image bytes of valid calls.",
 "C81": "C81_longer_buffers.",
 "C82": "False as stated, see C82_counterexample (SSE2: blue of out-of-range codes) and C82_counterexample_neon (ties). Proved without exception for RGB shuffles, luma, and red and green when decoding (C82_shuffle, C82_luma, C82_decode), for chroma without NEON (C82_chroma_partial); exact conditions for blue (C82_decode) and NEON chroma (C82_chroma_444_neon, C82_chroma_420_neon).",
 "C83": "C83_exact: the whole result as a function of the arguments; with C06 (error cases) get_buffers_size is completely characterised.",
 "C84": "False: C84_counterexample (a line of four Bgra pixels with stride 1: 13 bytes are reported and accepted, 15 are read), C11_counterexample (single-plane Nv12 is rejected). Exact criteria: C84_accepted (when NotEnoughData is answered), C84_holds (when the image fits).",
 "C85": "C85_verdict: how every such call ends; C85_sizes_ignored: independence of the memory; C85_undersized: OK with packed lines whatever the buffers (the header declares too short buffers undefined behaviour, so this is no defect, but NotEnoughData is practically never answered).",
 "C86": "C86_done, C86_rejected. Between the two, longer buffers can turn a rejection into a stray access and that into a success (example in Props/Growth).",
 "C87": "C87_convert_partial, C87_sizes_partial for all calls except those with an I422 image in one plane, which the header allows and the library rejects (C87_counterexample).",
 "C88": "C88_strings, C88_no_leak, C88_misuse. CString::into_raw and from_raw are modelled by their documented contract: a block of exactly the length of the text and the NUL character, measured again with strlen when it is taken back.",
 "C89": "C89_greatest, C89_stored, C89_attained, C89_choice, C89_nearest. Chroma of 2x2 blocks: C92.",
 "C90": "C90_greatest, C90_shifted, C90_stored, C90_attained.",
 "C91": "Holds of dcp_get_buffers_size (C91_sizes). False of every accepted call of dcp_convert_image: each slice made of a stride array has isize::MAX elements of 4 or 8 bytes and is too large (C91_counterexample_strides); the &mut slice of a destination plane overlaps the slices of all other planes (C91_counterexample_overlap); both arrays of references have an uninitialised element (C91_counterexample_uninit). What holds: slices made of planes are not too large (C91_planes_partial). C85 and C58 say which memory is really accessed.",
 "C92": "C92_greatest: IsGreatest over all blocks, for ties rounded down (portable, SSE2, AVX2) and up (NEON). C92_stored and C92_attained: of the stored samples. C92_compare: with C89. Sharpens C36.",
 "C93": "C93_range: IsLeast and IsGreatest of the changes over all colours and both ways of rounding; C93_stored: of whole conversions; C93_attained: the limits are met by every conversion of an image with a stated colour; C93_tint: signs in full range. Sharpens C43.",
 "C94": "C94_same, C94_largest: for all pairs of colours and both ways of rounding ties, with IsGreatest; C94_stored: of whole conversions, also on different processors and targets; C94_attained: the extreme pairs are stored alike everywhere.",
 "C95": "C95_tables (all printed coefficients and errors), C95_margins (every number that is rounded is at least 0.003 from a half, the two candidate tables differ by at least 0.00002 in their errors: far more than double precision loses), C95_reference and C95_stored (reference samples), C95_refused (other models).",
 "C96": "C96_shuffle, C96_luma, C96_decode: on every processor, C96_decode with the exact condition for blue. C96_encode_partial: whole images without NEON. C96_chroma_444_neon, C96_chroma_420_neon: NEON, with the exact condition. C96_counterexample, C96_counterexample_neon: pictures that are their own mirror image, with results that are not.",
 "C97": "C97_block: every pixel of every picture, with the rounding allowance of Spec/Block; C97_smooth: the bound for blocks of similar colours.",
 "C98": "C98_luma, C98_chroma_444, C98_chroma_420: encoding, on every processor. C98_decode_partial: decoding; red and green always, blue outside the exception. C98_attained: the factors are reached by codes that differ by one. C98_counterexample: on SSE2 blue jumps from 255 to 0.",
 "C99": "C99_luma, C99_decode: on every processor. C99_chroma_partial: without NEON. C99_chroma_444_neon, C99_chroma_420_neon: NEON, with the exact condition. C99_counterexample: NEON, a tie.",
 "C42": "Proved of the formulas without condition (C42_luma, C42_chroma, C42_decode) and of stored luma (C42_luma_stored). Of stored chroma and colours, for two pixels of any images and processors: C42_chroma_444_stored_partial, C42_chroma_420_stored_partial except for equal colours of which only the first is in a vector column of NEON, C42_decode_stored_partial except for blue above the 16-bit range in vector columns of SSE2/AVX2. Both exceptions occur: C42_counterexample_chroma, C42_counterexample_decode.",
 "C100": "C100_little: the other properties speak of little-endian targets. C100_colour: calls that are not between RGB formats, all arguments. C100_ending: all calls. C100_succeeds, C100_big, C100_frame: exactly what the conversions between RGB formats store on a big-endian target. C100_bgr_partial, C100_bgra_partial, C100_rgb_partial: the pixels that are right. C100_counterexample_*: the wrong ones, for all images, and calls for which the result differs.",
 "C101": "C101_footprint: the set of bytes written is the image, exactly. C101_at_any_time: after any number of writes. C101_result: the writes are those that lead to the stored result. C101_oblivious: source contents, lengths and processor do not matter.",
 "C102": "C102_parallel: result and frame after any schedule in which every conversion finishes. C102_meanwhile: frame at any time. C102_order_irrelevant. Source buffers may overlap destination buffers as long as the images do not. Byte accesses are atomic and sequentially consistent in the model; compiler assumptions about overlapping references are outside it (see C91).",
 "C103": "C103_final_value: every write. C103_old_or_final: any part of the writes in any order. C103_any_order, C103_once_final, C103_parallel.",
 "C104": "C104_places: the sequence of places, for every shape of call (calls that do not complete have no writes in the model). C104_identical: places and values for sources that show the same picture. About stores only: the model does not record the places of loads.",
 "C105": "C105_recolour_444, C105_recolour_420: bounds for stored samples. C105_not_nearest: a colour for which every pair of processors stores a sample more than 0.92 away. On SSE2 and AVX2 codes with an exact blue above 255 are excluded because of C23 (blue wraps around).",
 "C106": "C106_count: the number of bytes stored. C106_once_iff: no byte is stored twice, exactly when the call is not the overlapping one. C106_exactly_once, C106_moment: the moment of the store. Word and vector stores count as as many byte stores as they have bytes.",
 "C107": "C107_checks_first: the alternative. C107_exclusive: not both. C107_runs_iff: exactly when the kernels are run. C107_panics_before: sizes beyond usize.",
 "C108": "False in general: C108_counterexample (NEON, a line of 17 pixels), C108_counterexample_encoder (32 bits, SSE2). C108_nothing_stored_partial covers all other panics; C108_exact_partial: exactly when nothing is stored before a panic; C108_portable_partial: the portable code.",
 "C109": "C109_distinct, C109_pairs: the texts are distinct. C109_letters: each RGB name has r, g and b exactly once. C109_encode, C109_decode, C109_shuffle: the letters are the bytes. C109_sizes_rgb, C109_sizes_planar: name and reported sizes.",
 "C110": "False in general: C110_counterexample (a packed 10x4 image in aligned buffers). C110_exact_partial: exactly when the addresses matter; C110_elsewhere_partial, C110_sufficient_partial, C110_packed_partial: consequences. That vst1_lane_u32 assigns through its pointer is an assumption about the standard library (`Model/Align`).",
 "C111": "C111_receivers: one encoded picture, any two receivers; C111_senders: two senders, both with NEON or both without; C111_any: any senders, with the bounds; C111_no_ties: any senders, pictures without ties of chroma; C111_attained: the bound for blue.",
 "C112": "C112_encode; C112_decode: what neutral chroma decodes to, exactly; C112_decode_limited, C112_decode_full: the two standards compared; C112_mistaken: decoding with the wrong standard.",
 "C113": "C113_limited: the exact function; C113_near, C113_order, C113_kept, C113_again: its consequences; C113_full: full range.",
 "C114": "C114_stretched with C114_crushed; C114_washed.",
 "C115": "C115_luma: exactly; C115_chroma_444, C115_chroma_420: any processors; C115_ties_444, C115_ties_420: ties without NEON.",
 "C116": "C116_encode: the codes; C116_nearest: they are the nearest to the standards; C116_decode, C116_trip: back to the colour."
}