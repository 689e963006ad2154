{"id": "C01", "title": "Supported conversions are exactly the documented ones", "statement": "When both image formats pair a pixel format with a compatible colour space and the size and plane counts are legal, convert_image answers InvalidOperation if and only if the (source pixel format, destination pixel format) pair is absent from the table in the convert_image documentation (19 pairs, each YCbCr side accepting all four YCbCr colour spaces).", "quantifier": "all 9x5x9x5 format/colour-space pairs, all sizes, all plane counts, all strides and buffers, every instruction set", "why_tests_cant": "The tests walk a few hand-picked rejected pairs; the claim is an exact characterisation over the whole table for every instruction set.", "anchors": ["src/lib.rs: convert_image, set_dispatch_table", "src/dispatcher.rs: get_image_index, get_index"]}
{"id": "C02", "title": "Dispatch slots never collide and never leave the table", "statement": "Two different legal (pixel format, colour space) source/destination combinations never select the same conversion routine slot, every legal combination selects a slot inside the table, and the routine found there is the one registered for exactly that combination.", "quantifier": "all legal pairs of image formats; every instruction set", "why_tests_cant": "Injectivity of an index computation with wrapping arithmetic over all pairs is not settled by executing samples.", "anchors": ["src/dispatcher.rs: get_image_index, get_index, select_mode, TABLE_SIZE", "src/lib.rs: rgb_to_yuv!, yuv_to_rgb!, rgb_to_rgb!"]}
{"id": "C03", "title": "Which error is reported is fully determined and prioritised", "statement": "convert_image reports InvalidValue exactly when a pixel format is paired with an incompatible colour space or the size/plane count is illegal for either format; otherwise InvalidOperation exactly when the conversion is unsupported; otherwise only Ok or NotEnoughData are possible. The priority is InvalidValue > InvalidOperation > NotEnoughData.", "quantifier": "all arguments of convert_image; every instruction set", "why_tests_cant": "Precedence among simultaneous errors has a combinatorial number of cases.", "anchors": ["src/lib.rs: convert_image", "src/pixel_format.rs: is_compatible", "src/dispatcher.rs: get_pixel_format_mode, get_color_space_mode"]}
{"id": "C04", "title": "Image size constraints", "statement": "An image of a given format is size-legal iff: width is even for I422, I420 and Nv12, and height is even for I420 and Nv12; all other formats accept every width and height (including 0 and u32::MAX).", "quantifier": "all u32 widths and heights, all nine pixel formats", "why_tests_cant": "2^64 sizes; decided by bit tricks on packed specification words.", "anchors": ["src/pixel_format.rs: is_compatible, PF_SPECS, get_pf_width, get_pf_height"]}
{"id": "C05", "title": "Plane-count constraints", "statement": "The accepted number of planes is exactly 1 for the five RGB formats, 3 for I444, I422 and I420, and 1 or 2 for Nv12; every other u32, including 0 and values whose product wraps modulo 2^32, is rejected with InvalidValue; the C functions, which have a check of their own, accept and reject the same numbers.", "quantifier": "all u32 plane counts, all nine pixel formats", "why_tests_cant": "The Nv12 rule is a wrapping 32-bit product; only a proof excludes a wrapped zero among 2^32 values.", "anchors": ["src/pixel_format.rs: is_compatible, are_planes_compatible", "src/lib.rs: convert_image, get_buffers_size, dcp_get_buffers_size, dcp_convert_image"]}
{"id": "C06", "title": "get_buffers_size: outcome and error cases", "statement": "get_buffers_size returns InvalidValue iff size or plane count is illegal for the format; otherwise NotEnoughData iff a stride array is given that is shorter than the plane count or the output array is shorter than the plane count; otherwise Ok (when no size computation exceeds usize).", "quantifier": "all widths, heights, formats, stride arrays and output arrays", "why_tests_cant": "Unbounded arrays and all u32 sizes.", "anchors": ["src/lib.rs: get_buffers_size", "src/pixel_format.rs: get_buffers_size"]}
{"id": "C07", "title": "get_buffers_size: failure leaves the output array untouched, success touches only the plane entries", "statement": "When get_buffers_size fails, every element of the output array keeps its value; when it succeeds, elements at or beyond the plane count keep their value and the array length never changes.", "quantifier": "all arguments", "why_tests_cant": "A frame property over arbitrary arrays.", "anchors": ["src/pixel_format.rs: get_buffers_size"]}
{"id": "C08", "title": "get_buffers_size: packed sizes are exact", "statement": "With default strides the reported sizes are the byte counts of the tightly packed image: 4wh or 3wh for RGB formats, wh per plane for I444, wh + (w/2)h + (w/2)h for I422, wh + wh/4 + wh/4 for I420, and wh and wh/2 (or their sum in one plane) for Nv12; the computation never overflows on 64-bit targets.", "quantifier": "all legal widths and heights up to u32::MAX, all formats and legal plane counts", "why_tests_cant": "Exactness and absence of overflow at extreme sizes cannot be tested exhaustively.", "anchors": ["src/pixel_format.rs: get_buffers_size, STRIDE_SPECS, HEIGHT_SPECS, get_plane_spec, get_plane_mask"]}
{"id": "C09", "title": "get_buffers_size: custom strides, one size per plane", "statement": "For formats stored in more than one plane, each reported size is (the given stride, or the packed row length if the stride is 0) times the number of rows in that plane.", "quantifier": "all sizes, all multi-plane formats, all stride arrays whose products fit in usize", "why_tests_cant": "All strides.", "anchors": ["src/pixel_format.rs: get_buffers_size"]}
{"id": "C10", "title": "get_buffers_size reports the minimum size for single-buffer images with custom strides", "statement": "For an image stored in a single buffer with custom stride S, the reported size is the number of bytes the image occupies (S*h for RGB formats; S*h + S*h/2 for Nv12).", "quantifier": "all sizes and strides of single-plane images", "why_tests_cant": "Tests check packed sizes only; the single-plane branch sums four pseudo planes.", "anchors": ["src/pixel_format.rs: get_buffers_size", "src/lib.rs: get_buffers_size (documentation: minimum number of bytes required)"]}
{"id": "C11", "title": "Buffers of the reported size are always accepted", "statement": "If get_buffers_size succeeds for the source and for the destination format with given strides and all buffers have at least the reported sizes, then convert_image between them (same size and strides, supported pair) succeeds: it never answers NotEnoughData.", "quantifier": "all sizes, formats, strides not smaller than a packed row, buffer contents", "why_tests_cant": "Contract between two functions computed independently, over all strides.", "anchors": ["src/lib.rs: get_buffers_size, convert_image", "src/convert_image/common.rs: out_of_bounds"]}
{"id": "C12", "title": "Undersized packed buffers are always rejected (colour-model conversions)", "statement": "With default strides, a supported RGB<->YCbCr conversion of a non-empty image answers NotEnoughData iff some source or destination plane is shorter than its packed size (or a plane buffer is missing).", "quantifier": "all sizes, all supported RGB<->YCbCr pairs, all buffer lengths", "why_tests_cant": "Exact boundary for every size.", "anchors": ["src/convert_image/x86.rs: nv12_rgb, i420_rgb, i444_rgb, rgb_i444, rgb_i420, rgb_nv12", "src/convert_image/common.rs: out_of_bounds"]}
{"id": "C13", "title": "Undersized buffers are always rejected (RGB<->RGB conversions)", "statement": "With default strides, Rgb->Bgra, Bgra->Rgb and Bgr->Rgb of a non-empty image answer NotEnoughData iff the source or destination buffer is shorter than its packed size.", "quantifier": "all sizes and buffer lengths", "why_tests_cant": "Exact boundary for every size.", "anchors": ["src/convert_image/x86.rs: rgb_bgra, bgra_rgb, bgr_rgb", "src/convert_image/common.rs: out_of_bounds"]}
{"id": "C14", "title": "Undersized strided buffers are always rejected", "statement": "With a custom stride S >= packed row length R and h rows, a plane shorter than S*(h-1)+R bytes is always answered with NotEnoughData.", "quantifier": "all sizes, strides and buffer lengths", "why_tests_cant": "All strides; tests never shrink a padded buffer below its extent.", "anchors": ["src/convert_image/common.rs: out_of_bounds", "src/convert_image/x86.rs: *_rgb / rgb_* wrappers"]}
{"id": "C15", "title": "convert_image never touches memory outside the given buffers", "statement": "Whatever sizes, strides and buffers are passed to the safe function convert_image, every byte it reads lies in a source buffer and every byte it writes lies in a destination buffer.", "quantifier": "all arguments of convert_image, every instruction set", "why_tests_cant": "Out-of-bounds access by unsafe code usually goes unnoticed in tests, and the space of sizes/strides is unbounded.", "anchors": ["src/convert_image/x86.rs", "src/convert_image/sse2.rs", "src/convert_image/avx2.rs", "src/convert_image/neon.rs", "src/convert_image/common.rs: out_of_bounds"]}
{"id": "C16", "title": "convert_image never panics", "statement": "convert_image returns a Result for all arguments; no arithmetic overflow, slice-range or index panic occurs.", "quantifier": "all arguments of convert_image on a 64-bit target with overflow checks on", "why_tests_cant": "All strides/sizes.", "anchors": ["src/convert_image/x86.rs: rgb_to_bgra, bgra_to_rgb (stride - depth*width), nv12_rgb (stride*h)", "src/convert_image/sse2.rs", "src/convert_image/avx2.rs", "src/convert_image/neon.rs"]}
{"id": "C17", "title": "A failed conversion has no side effect", "statement": "Whenever convert_image returns an error, every destination buffer is byte-for-byte what it was before the call.", "quantifier": "all arguments, all initial destination contents, every instruction set", "why_tests_cant": "Universally quantified frame condition.", "anchors": ["src/lib.rs: convert_image", "src/convert_image/x86.rs", "src/convert_image/sse2.rs", "src/convert_image/avx2.rs", "src/convert_image/neon.rs"]}
{"id": "C18", "title": "Empty images", "statement": "For a supported conversion with width = 0 or height = 0 (and legal size/planes), convert_image returns Ok and changes nothing, whatever strides and buffers (even none) are passed.", "quantifier": "all strides/buffers, all supported pairs, every instruction set", "why_tests_cant": "All buffer shapes.", "anchors": ["src/convert_image/x86.rs: wrappers (degenerate case)", "src/convert_image/sse2.rs", "src/convert_image/avx2.rs", "src/convert_image/neon.rs"]}
{"id": "C19", "title": "Only the image area of the destination is written", "statement": "After a successful conversion, every destination byte that does not belong to a pixel of the image - row padding beyond the packed row length, bytes after the last row, gap bytes and buffers of unused planes - is unchanged, and no buffer changes its length.", "quantifier": "all sizes, all strides >= packed row, all buffer contents", "why_tests_cant": "Frame condition over unbounded buffers; overlapping wide stores could spill into padding.", "anchors": ["src/convert_image/x86.rs", "src/convert_image/sse2.rs", "src/convert_image/avx2.rs", "src/convert_image/neon.rs"]}
{"id": "C20", "title": "Luma is the documented fixed-point function of the pixel", "statement": "After a successful RGB->I420/I444/Nv12 conversion, the luma byte of pixel (x,y) is floor((XR*r + XG*g + XB*b)/65536 + offset + 1/2) of that pixel's r,g,b (offset 16, or 0 for full range), for the colour space's published coefficients.", "quantifier": "all images (every width, height, stride, pixel value), all nine source/destination pairs, four colour spaces", "why_tests_cant": "2^24 values per pixel and all image geometries; the code path (vector lanes, remainders) depends on the geometry.", "anchors": ["src/convert_image/x86.rs: rgb_to_nv12, rgb_to_i420, rgb_to_i444, affine_transform, fix_to_i32"]}
{"id": "C21", "title": "4:2:0 chroma is the documented function of the 2x2 block", "statement": "After RGB->I420/Nv12 conversion, the Cb (Cr) byte of block (x,y) is 128 plus the rounding (ties toward minus infinity) of the coefficient-weighted average of the r,g,b of exactly the four pixels of that block.", "quantifier": "all images, all sources, four colour spaces", "why_tests_cant": "All geometries and 2^96 block contents.", "anchors": ["src/convert_image/x86.rs: rgb_to_nv12, rgb_to_i420"]}
{"id": "C22", "title": "4:4:4 chroma is the documented function of the pixel", "statement": "After RGB->I444 conversion, the Cb (Cr) byte of pixel (x,y) is 128 plus the rounding (ties toward minus infinity) of the coefficient-weighted sum of that pixel's r,g,b.", "quantifier": "all images, all sources, four colour spaces", "why_tests_cant": "All geometries and pixel values.", "anchors": ["src/convert_image/x86.rs: rgb_to_i444"]}
{"id": "C23", "title": "YCbCr->RGB pixels are the documented clamped function", "statement": "After I420/I444/Nv12 -> Bgra/Rgba/Rgb conversion, each colour byte of pixel (x,y) is clamp(0,255) of the fixed-point decoding of that pixel's Y and of the Cb,Cr sample covering it.", "quantifier": "all images, all seven pairs, four colour spaces", "why_tests_cant": "All geometries and 2^24 sample values.", "anchors": ["src/convert_image/x86.rs: nv12_to_bgra, nv12_to_rgb, i420_to_bgra, i444_to_bgra, mulhi_i32, fix_to_u8_sat"]}
{"id": "C24", "title": "Alpha is opaque", "statement": "Every alpha byte written by a conversion to Bgra or Rgba is 255.", "quantifier": "all images, all conversions with an alpha destination, every instruction set", "why_tests_cant": "All geometries; the wide kernels obtain alpha from masks.", "anchors": ["src/convert_image/x86.rs: pack_ui8x3, rgb_to_bgra", "src/convert_image/sse2.rs", "src/convert_image/avx2.rs", "src/convert_image/neon.rs"]}
{"id": "C25", "title": "Source alpha and source padding are irrelevant", "statement": "Changing the alpha byte of any Argb/Bgra source pixel, or any source byte outside the image area, never changes the result or any destination byte.", "quantifier": "all pairs of source images that agree on colour bytes in the image area", "why_tests_cant": "Non-interference over all images; kernels over-read neighbouring bytes.", "anchors": ["src/convert_image/x86.rs: unpack_ui8x3_i32, rgb_to_bgra, bgra_to_rgb", "src/convert_image/sse2.rs", "src/convert_image/avx2.rs"]}
{"id": "C26", "title": "Channel shuffles are exact", "statement": "Rgb->Bgra, Bgra->Rgb and Bgr->Rgb copy every colour byte unchanged to the channel of the same name for every pixel, irrespective of stride and width.", "quantifier": "all images (every width including non-multiples of 8, every stride >= row)", "why_tests_cant": "The code switches among 8-pixel 64-bit shuffles, 32-bit shuffles and bytewise code according to width, stride and row position.", "anchors": ["src/convert_image/x86.rs: rgb_to_bgra, bgr_to_rgb, bgra_to_rgb"]}
{"id": "C27", "title": "Rgb->Bgra->Rgb round trip is the identity, Bgr->Rgb is an involution", "statement": "Converting an image Rgb->Bgra and the result Bgra->Rgb reproduces the image bytes; applying Bgr->Rgb twice reproduces the image bytes.", "quantifier": "all images", "why_tests_cant": "All images.", "anchors": ["src/convert_image/x86.rs: rgb_to_bgra, bgra_to_rgb, bgr_to_rgb"]}
{"id": "C28", "title": "Rgba output is Bgra output with red and blue exchanged", "statement": "Converting the same YCbCr image to Bgra and to Rgba yields images that differ exactly by exchanging the first and third byte of every pixel; Nv12->Rgb yields the same colours as Nv12->Rgba.", "quantifier": "all YCbCr images, colour spaces, strides", "why_tests_cant": "Relational property over all images.", "anchors": ["src/convert_image/x86.rs: pack_ui8x3, pack_rgb"]}
{"id": "C29", "title": "The source pixel layout is irrelevant", "statement": "Argb, Bgra and Bgr images showing the same colours produce identical I420/I444/Nv12 bytes.", "quantifier": "all triples of images with equal colours, all geometries", "why_tests_cant": "Relational property over all images.", "anchors": ["src/convert_image/x86.rs: SAMPLER_OFFSETS, unpack_ui8x3_i32"]}
{"id": "C30", "title": "I420 and Nv12 carry the same samples", "statement": "Converting one RGB image to I420 and to Nv12 gives equal luma, and the Nv12 chroma plane is the interleaving of the I420 U and V planes; decoding an Nv12 image and the I420 image with the same samples gives identical RGB.", "quantifier": "all images, strides, colour spaces", "why_tests_cant": "Relational property over all images.", "anchors": ["src/convert_image/x86.rs: rgb_to_nv12, rgb_to_i420, nv12_to_bgra, i420_to_bgra"]}
{"id": "C31", "title": "Single-plane and two-plane Nv12 are equivalent", "statement": "An Nv12 image given as one buffer (chroma directly after the luma rows) converts to/from exactly the same bytes as the same image given as two buffers.", "quantifier": "all images, strides, conversions from and to Nv12", "why_tests_cant": "Relational property over all images.", "anchors": ["src/convert_image/x86.rs: nv12_rgb, rgb_nv12 (split_at)"]}
{"id": "C32", "title": "Results do not depend on strides", "statement": "Two layouts of one image that differ only in stride (row padding) convert to the same pixels.", "quantifier": "all images and all pairs of legal strides for every plane", "why_tests_cant": "All strides; several kernels choose code paths from the stride.", "anchors": ["src/convert_image/x86.rs", "src/convert_image/sse2.rs", "src/convert_image/avx2.rs", "src/convert_image/neon.rs"]}
{"id": "C33", "title": "Locality", "statement": "Changing one source pixel of an RGB->I444 or YCbCr 4:4:4->RGB conversion changes only the destination pixel at the same coordinates; for 4:2:0 only the pixels and chroma sample of its 2x2 block.", "quantifier": "all images and all single-pixel changes", "why_tests_cant": "Relational property over all images.", "anchors": ["src/convert_image/x86.rs"]}
{"id": "C34", "title": "Fixed-point arithmetic never overflows", "statement": "For all 8-bit inputs none of the 32-bit additions, subtractions, negations and multiplications in the forward and backward transforms overflows.", "quantifier": "all 2^24 pixels / 2^96 blocks / 2^24 YCbCr samples, four colour spaces", "why_tests_cant": "2^96 blocks.", "anchors": ["src/convert_image/x86.rs: affine_transform, mulhi_i32", "src/convert_image/common.rs: weights"]}
{"id": "C35", "title": "Forward transform stays in the legal range", "statement": "Luma is in [16,235] and chroma in [16,240] for Bt601/Bt709; for the full-range spaces luma and chroma fit in [0,255] without truncation, so the unchecked narrowing casts lose nothing.", "quantifier": "all pixels / blocks, four colour spaces", "why_tests_cant": "2^96 blocks.", "anchors": ["src/convert_image/x86.rs: rgb_to_*, pack_i32x2"]}
{"id": "C36", "title": "Forward transform accuracy", "statement": "Luma differs from the ideal BT.601/BT.709 (limited or full range) real-valued formula by at most 0.504 and chroma by at most 0.51, for every pixel and every 2x2 average.", "quantifier": "all pixels / blocks, four colour spaces", "why_tests_cant": "Real-valued error bound over 2^24 / 2^96 inputs.", "anchors": ["src/convert_image/common.rs: XR_*, XG_*, XB_*, YR_*, YG_*, ZG_*", "genweights.py"]}
{"id": "C37", "title": "Forward transform follows the documented formulas", "statement": "For every colour space the computed Y, Cb, Cr differ by at most 1 from the rounded formulas printed in the convert_image documentation (three-decimal coefficients).", "quantifier": "all pixels, four colour spaces", "why_tests_cant": "All pixels.", "anchors": ["src/lib.rs: convert_image documentation, Algorithm 1", "src/convert_image/common.rs"]}
{"id": "C38", "title": "Backward transform accuracy", "statement": "Each decoded colour component differs from the clamped ideal BT.601/BT.709 formula (chroma centred at 128, as documented) by less than 1, for all Y,Cb,Cr.", "quantifier": "all YCbCr triples, four colour spaces", "why_tests_cant": "Real-valued error bound over 2^24 inputs and four spaces.", "anchors": ["src/convert_image/common.rs: RN_*, GP_*, BN_*", "src/lib.rs: convert_image documentation, Algorithm 2"]}
{"id": "C39", "title": "Greys encode to neutral chroma", "statement": "A grey pixel (r=g=b), or a 2x2 block of grey pixels, encodes to Cb=Cr=128 in every colour space; in full range a grey v encodes to luma v.", "quantifier": "all greys / grey blocks, four colour spaces", "why_tests_cant": "Quantified over all blocks.", "anchors": ["src/convert_image/common.rs: YR_*+YG_*+YB=0", "src/convert_image/x86.rs"]}
{"id": "C40", "title": "Neutral chroma decodes to grey", "statement": "A sample with Cb=Cr=128 decodes to r=g=b in every colour space; in full range to r=g=b=Y.", "quantifier": "all luma values, four colour spaces", "why_tests_cant": "Tests allow a tolerance of 2 per channel, which masks a colour cast.", "anchors": ["src/convert_image/common.rs: RN_*, GP_*, BN_*", "src/convert_image/x86.rs: i444_to_bgra"]}
{"id": "C41", "title": "Black and white points", "statement": "Black and white RGB pixels encode to the nominal codes (Y=16/235 or 0/255, chroma 128) and the nominal limited-range codes decode back to exactly black and white.", "quantifier": "four colour spaces, all source formats and geometries", "why_tests_cant": "Stated for whole images of any size.", "anchors": ["src/convert_image/common.rs", "src/convert_image/x86.rs"]}
{"id": "C42", "title": "Monotonicity", "statement": "Luma is monotone in each of r, g, b; decoded red is monotone in Y and Cr, blue in Y and Cb, green in Y and antitone in Cb, Cr; Cb is monotone in b and antitone in r,g; Cr is monotone in r and antitone in g,b. This holds for the samples stored for any two pixels, of the same or of different images.", "quantifier": "all pairs of inputs, four colour spaces; all pairs of accepted conversions, pixels and processors", "why_tests_cant": "Pairs of 24-bit inputs.", "anchors": ["src/convert_image/x86.rs", "src/convert_image/sse2.rs", "src/convert_image/avx2.rs", "src/convert_image/neon.rs"]}
{"id": "C43", "title": "Encode/decode round-trip error bound", "statement": "Encoding an RGB image to I444 and decoding it in the same colour space reproduces every colour component within 2 (limited range) / 4 (full range); grey images within 1 in limited range.", "quantifier": "all images, four colour spaces", "why_tests_cant": "2^24 pixels per colour space, any geometry.", "anchors": ["src/convert_image/x86.rs: rgb_to_i444, i444_to_bgra"]}
{"id": "C44", "title": "Saturation is exact clamping", "statement": "The saturating conversion of a decoded value equals min(255, max(0, floor(value))) for every 32-bit intermediate.", "quantifier": "all 2^32 intermediates", "why_tests_cant": "2^32 inputs and the claim about the bit trick holds for all.", "anchors": ["src/convert_image/x86.rs: fix_to_u8_sat"]}
{"id": "C45", "title": "SSE2 and scalar encode identically", "statement": "On a CPU with SSE2, RGB->I420/I444/Nv12 conversion gives exactly the result (same status, same bytes) the portable code gives.", "quantifier": "all images and geometries, all sources, four colour spaces", "why_tests_cant": "All widths (vector/remainder split) and pixel values.", "anchors": ["src/convert_image/sse2.rs: rgb_to_nv12_sse2, rgb_to_i420_sse2, rgb_to_i444_sse2, affine_transform, unpack_ui8x3_i16x2_4x"]}
{"id": "C46", "title": "SSE2 and scalar decode identically", "statement": "On a CPU with SSE2, I420/I444/Nv12 -> RGB conversion gives exactly the result the portable code gives.", "quantifier": "all images and geometries, all pairs, four colour spaces", "why_tests_cant": "16-bit lane arithmetic may wrap only for rare sample combinations.", "anchors": ["src/convert_image/sse2.rs: nv12_to_bgra_sse2, i420_to_bgra_sse2, i444_to_bgra_sse2"]}
{"id": "C47", "title": "SSE2 and scalar shuffle identically", "statement": "On a CPU with SSE2, Rgb->Bgra, Bgra->Rgb and Bgr->Rgb give exactly the result the portable code gives.", "quantifier": "all images and geometries", "why_tests_cant": "All widths/strides.", "anchors": ["src/convert_image/sse2.rs: rgb_to_bgra_sse2"]}
{"id": "C48", "title": "AVX2 and scalar encode identically", "statement": "On a CPU with AVX2, RGB->I420/I444/Nv12 conversion gives exactly the result the portable code gives.", "quantifier": "all images and geometries, all sources, four colour spaces", "why_tests_cant": "All widths and pixel values; cross-lane shuffles.", "anchors": ["src/convert_image/avx2.rs: rgb_to_yuv_8x, rgb_to_i420_8x, rgb_to_i444_8x, unpack_ui8x3_i16x2_8x, pack_i32_8x"]}
{"id": "C49", "title": "AVX2 and scalar decode identically", "statement": "On a CPU with AVX2, I420/I444/Nv12 -> RGB conversion gives exactly the result the portable code gives.", "quantifier": "all images and geometries, all pairs, four colour spaces", "why_tests_cant": "16-bit lane arithmetic may wrap only for rare sample combinations; cross-lane shuffles.", "anchors": ["src/convert_image/avx2.rs: nv12_to_bgra_avx2, nv12_to_rgb_avx2, i420_to_bgra_avx2, i444_to_bgra_avx2, pack_rgb_16x"]}
{"id": "C50", "title": "AVX2 and scalar shuffle identically", "statement": "On a CPU with AVX2, Rgb->Bgra, Bgra->Rgb and Bgr->Rgb give exactly the result the portable code gives.", "quantifier": "all images and geometries", "why_tests_cant": "Masks are 32-byte tables; all byte positions for all contents.", "anchors": ["src/convert_image/avx2.rs: bgr_to_rgb_avx2, bgra_to_rgb_avx2, rgb_to_bgra_avx2"]}
{"id": "C51", "title": "NEON and scalar convert identically", "statement": "On an AArch64 CPU with NEON every conversion gives exactly the result the portable code gives.", "quantifier": "all images and geometries, all pairs, four colour spaces", "why_tests_cant": "The NEON path rounds differently from the scalar path only on exact ties.", "anchors": ["src/convert_image/neon.rs"]}
{"id": "C52", "title": "Vector paths read only inside the source buffer (packed images)", "statement": "For packed images whose buffers have exactly the reported sizes, the SSE2, AVX2 and NEON kernels read only bytes of the source buffers and write only bytes of the destination buffers.", "quantifier": "all sizes, all conversions", "why_tests_cant": "Over-reads of a few bytes are invisible to tests.", "anchors": ["src/convert_image/sse2.rs: unpack_ui8x3_i16x2_4x", "src/convert_image/avx2.rs: unpack_ui8x3_i16x2_8x", "src/convert_image/neon.rs: load_rgb_8x"]}
{"id": "C53", "title": "Instruction set selection is sound", "statement": "The selected instruction set is one the CPU reports: AVX2 routines are selected only if CPUID reports AVX2 and SSE2, SSE2 routines only if CPUID reports SSE2, AMD CPUs never get AVX2, and a CPU without CPUID leaves gets the portable code.", "quantifier": "all CPUID responses", "why_tests_cant": "2^32-valued registers; tests run on one CPU.", "anchors": ["src/cpu_info.rs: get, compare_cpu_manufacturer, four_cc", "src/lib.rs: Context::new"]}
{"id": "C54", "title": "One-time initialisation under concurrency", "statement": "Whatever the interleaving of threads making their first call, the conversion context is created exactly once and every call in every thread uses the same context.", "quantifier": "all numbers of threads, all schedules, all histories", "why_tests_cant": "Schedules.", "anchors": ["src/lib.rs: Context::global (OnceLock)"]}
{"id": "C55", "title": "History independence", "statement": "convert_image has no hidden state: the result of a call is a function of its arguments and of the CPU; repeating a conversion, or interleaving arbitrary other successful or failed calls, does not change it, and repeating it on its own output buffers leaves them unchanged (idempotence).", "quantifier": "all call histories", "why_tests_cant": "Histories.", "anchors": ["src/lib.rs: convert_image, Context::global"]}
{"id": "C56", "title": "describe_acceleration tells the truth and the C string is always produced", "statement": "The text returned by describe_acceleration names the manufacturer and the instruction set whose routines convert_image uses; the C variant never returns a null pointer.", "quantifier": "all CPUs", "why_tests_cant": "One CPU per test run.", "anchors": ["src/lib.rs: describe_acceleration, c_api::dcp_describe_acceleration"]}
{"id": "C57", "title": "C API: invalid arguments are rejected without effect", "statement": "dcp_convert_image/dcp_get_buffers_size return an error with InvalidValue, write only the error slot, and never dereference a null pointer when a format or buffer-array pointer is null, an enum value is out of range, the plane count is illegal, or a plane pointer is null.", "quantifier": "all argument combinations", "why_tests_cant": "All combinations of null pointers and 2^32 enum values.", "anchors": ["src/lib.rs: c_api::dcp_convert_image, dcp_get_buffers_size, set_error"]}
{"id": "C58", "title": "C API agrees with the Rust API", "statement": "With valid pointers dcp_get_buffers_size and dcp_convert_image return Ok exactly when the Rust functions do on the corresponding arrays, with the same effect and the same error kind.", "quantifier": "all arguments", "why_tests_cant": "All arguments.", "anchors": ["src/lib.rs: c_api"]}
{"id": "C59", "title": "Overlapping rows are never accepted", "statement": "If a destination stride is positive but smaller than the packed row length of a non-empty multi-row plane, convert_image does not silently write overlapping rows: it reports NotEnoughData.", "quantifier": "all sizes and strides", "why_tests_cant": "All strides.", "anchors": ["src/convert_image/common.rs: out_of_bounds", "src/convert_image/x86.rs"]}
{"id": "C60", "title": "Forward coefficients are those of the standards", "statement": "The forward coefficients are the nearest 16-bit fixed-point values of the BT.601/BT.709 matrices derived from Kr,Kb (scaled by 219/255 and 224/255 in limited range), each chroma row sums to zero, and full-range luma coefficients sum to exactly 65536.", "quantifier": "four colour spaces, all coefficients", "why_tests_cant": "A claim about real-number rounding of the specification, not about program runs.", "anchors": ["src/convert_image/common.rs", "genweights.py"]}
{"id": "C61", "title": "Backward coefficients are those of the standards", "statement": "The backward coefficients are the nearest 14-bit fixed-point values of the inverse matrices and the offsets encode luma offset 16 (0) and chroma centre 128.", "quantifier": "four colour spaces, all coefficients", "why_tests_cant": "A claim about real-number rounding of the specification, not about program runs.", "anchors": ["src/convert_image/common.rs", "genweights.py"]}
{"id": "C62", "title": "Thread-safety of concurrent conversions", "statement": "Conversions running concurrently on disjoint destination buffers do not influence each other: any interleaving of their memory accesses yields the same buffers as running them one after the other.", "quantifier": "all pairs of conversions, all interleavings of their individual memory accesses", "why_tests_cant": "Schedules.", "anchors": ["src/lib.rs: convert_image", "src/convert_image/x86.rs"]}
{"id": "C63", "title": "Instruction-set test hook selects the named set", "statement": "With the test_instruction_sets feature, initialize_with_instruction_set(name) makes subsequent conversions use the named set if the CPU offers it and otherwise the default set, and never changes which conversions are supported.", "quantifier": "all CPUs and names, all histories of calls", "why_tests_cant": "Histories x CPUs.", "anchors": ["src/lib.rs: initialize_with_instruction_set, convert_image (feature test_instruction_sets)"]}
{"id": "C64", "title": "32-bit targets: size computations", "statement": "On targets with 32-bit usize convert_image still accepts a conversion only if the buffers hold the image.", "quantifier": "all u32 sizes, all buffers on a 32-bit target", "why_tests_cant": "Needs multi-gigabyte images on a 32-bit build.", "anchors": ["src/convert_image/x86.rs: rgb_stride = DEPTH * w", "src/convert_image/common.rs: compute_stride, out_of_bounds"]}
{"id": "C65", "title": "AVX2 only when it can be used", "statement": "AVX2 routines are selected only if the processor answers CPUID leaf 7 (its highest leaf is at least 7) and the operating system has enabled the AVX register state (OSXSAVE).", "quantifier": "all CPUID responses", "why_tests_cant": "Tests run on one CPU under one operating system.", "anchors": ["src/cpu_info.rs: get"]}
{"id": "C66", "title": "Exactly when NotEnoughData is answered", "statement": "For a legal and supported request for a non-empty image, convert_image answers NotEnoughData if and only if for the source or the destination a plane has no stride or buffer, or a plane with stride S, packed line length R and n lines has a buffer shorter than S + R*(n-1) bytes (in conversions between RGB formats with the width in pixels in place of R), or an Nv12 image in one buffer has S < width or fewer than S*(h+1) + w*(h/2-1) bytes. (If S*h exceeds usize, or on a 32-bit target the packed line R of an RGB image does, a build with overflow checks panics instead, and one without computes with S*h and R reduced modulo 2^64 or 2^32.)", "quantifier": "all sizes, formats, strides, buffer lengths and contents, portable, SSE2, AVX2 and NEON code, builds with and without overflow checks, 64-bit and 32-bit targets", "why_tests_cant": "A test compares single sizes; the boundary is a function of five unbounded quantities for each of 19 conversions and of the number of planes.", "anchors": ["src/convert_image/common.rs: out_of_bounds, compute_stride", "src/convert_image/x86.rs: rgb_lrgb wrappers", "src/lib.rs: convert_image"]}
{"id": "C67", "title": "Exactly which calls succeed", "statement": "A legal and supported request for a non-empty image succeeds if and only if it passes the checks of C66, and every plane with stride S and n lines has at least S*(n-1) + L bytes, where L is the packed line length, except for RGB sources: Bgra lines may lack the last alpha byte when the last pixel is read byte by byte, and Bgr lines converted to YCbCr need 4 (SSE2, width at least 12) or 8 (AVX2, width at least 24) bytes after the last whole group of 12 or 24 pixels; and, with overflow checks, in Rgb<->Bgra conversions no part of a line handled at once (see C75) is longer than a stride, and offsets do not overflow as in C75 (c); and without overflow checks, in Rgb->Bgra conversions where the pixels handled one group of eight at a time are longer than the stride and a multiple of eight in number, the two extra bytes read after every line but the last also lie in the buffer.", "quantifier": "all sizes, formats, strides, buffer lengths and contents, portable, SSE2, AVX2 and NEON code, builds with and without overflow checks, 64-bit and 32-bit targets", "why_tests_cant": "Out-of-bounds accesses of a few bytes usually go unnoticed in tests, and the set of lengths is unbounded.", "anchors": ["src/convert_image/x86.rs", "src/convert_image/sse2.rs", "src/convert_image/avx2.rs", "src/convert_image/neon.rs"]}
{"id": "C68", "title": "An accepted call that does not succeed leaves a buffer, it does not panic", "statement": "Every legal, supported, non-empty request that passes the checks of C66 either succeeds or reads or writes outside a buffer; no arithmetic overflow, slice or index panic occurs, except those of C75 (b) and (c).", "quantifier": "all sizes, formats, strides, buffer lengths and contents, portable, SSE2, AVX2 and NEON code, builds with and without overflow checks, 64-bit and 32-bit targets", "why_tests_cant": "The overflow depends on strides near 2^64/height; tests do not cover all arithmetic.", "anchors": ["src/convert_image/x86.rs", "src/convert_image/sse2.rs", "src/convert_image/avx2.rs: bgra_to_rgb_avx2", "src/convert_image/neon.rs"]}
{"id": "C69", "title": "Transcoding through RGB loses nothing in limited range", "statement": "In the limited-range colour spaces (Bt601, Bt709), decoding a YCbCr image to any RGB format and encoding the result back reproduces every luma and chroma sample of every pixel whose code denotes a colour of the RGB cube (for 4:2:0: when all four codes of the 2x2 block do). The source and the final YCbCr format may differ (Nv12 to I420 through RGB, 4:2:0 to I444 with repeated chroma), and the two conversions may run on different processors.", "quantifier": "all images, sizes, strides, formats and in-gamut sample values, all pairs of instruction sets, 32- and 64-bit targets", "why_tests_cant": "There are 16 million codes, and in 4:2:0 2^48 blocks, and the two roundings interact; a test with a few colours cannot show that none of them is off by one.", "anchors": ["src/lib.rs: convert_image", "src/convert_image/common.rs: FORWARD_WEIGHTS, BACKWARD_WEIGHTS", "src/convert_image/x86.rs: lrgb_to_i444, i444_to_lbgra"]}
{"id": "C70", "title": "Every full-range generation shifts chroma by one", "statement": "In the full-range colour spaces decoding a YCbCr image to RGB and encoding the result never reproduces an unclamped pixel: Cb comes back exactly one larger; in Bt601FR Cr is exactly one larger and luma unchanged, in Bt709FR Cr and luma are each unchanged or one larger. (The decoder centres full-range chroma at 127, the encoder at 128.)", "quantifier": "all images, sizes, strides and formats, all pixels (4:2:0: blocks) that are not clamped, all pairs of instruction sets, 32- and 64-bit targets", "why_tests_cant": "A one-unit error is inside the tolerance of every round-trip test; that it is systematic for every code, and so accumulates with every generation, needs all codes.", "anchors": ["src/lib.rs: convert_image", "src/convert_image/common.rs: BACKWARD_WEIGHTS", "tests/conversions.rs"]}
{"id": "C71", "title": "Generation loss is bounded", "statement": "Encode any RGB image to I444, decode it and encode the result again: no sample of the second encoding differs from the first by more than 1 in limited range and 2 in full range. Both bounds are attained.", "quantifier": "all RGB images (also colours that are clamped on the way), sizes, strides and formats, all triples of instruction sets, 32- and 64-bit targets", "why_tests_cant": "The bound covers 16 million colours and three roundings with clamping; the few colours that reach it are not among the test colours.", "anchors": ["src/lib.rs: convert_image", "src/convert_image/common.rs: FORWARD_WEIGHTS, BACKWARD_WEIGHTS"]}
{"id": "C72", "title": "Bands of lines can be converted separately", "statement": "Cut an image into bands of lines (at even lines if one of the formats has subsampled chroma), and pass to convert_image slices of the planes that begin at the first line of the band, with unchanged strides. Every band succeeds and stores exactly the bytes that the conversion of the whole image stores there; two bands that make up the image store the whole image.", "quantifier": "all valid calls whose planes are in separate buffers, all band positions and heights, every byte of every plane, every instruction set, 32- and 64-bit targets", "why_tests_cant": "Multi-threaded use splits images at any line; a kernel whose result depends on the height, on line parity or on what follows the band in memory would pass all whole-image tests.", "anchors": ["src/lib.rs: convert_image", "src/convert_image/x86.rs", "src/convert_image/sse2.rs", "src/convert_image/avx2.rs", "src/convert_image/neon.rs"]}
{"id": "C73", "title": "Converting a part of an image", "statement": "Convert only a rectangle of an image (beginning at an even position if the destination has subsampled chroma). Luma, red, green, and everything in conversions between RGB formats are what the conversion of the whole image stores for these pixels. So is chroma, except that with NEON it can differ by one; so is blue, except for codes whose 16-bit sum overflows in the SSE2 and AVX2 kernels. If the rectangle has the full width there are no exceptions.", "quantifier": "all pairs of valid calls whose sources hold an image and a rectangle of it, all sizes, strides and formats, every pixel, every instruction set, 32- and 64-bit targets", "why_tests_cant": "Vector and scalar code handle different columns depending on the width; tile offsets and widths give unboundedly many combinations of the two.", "anchors": ["src/lib.rs: convert_image", "src/convert_image/sse2.rs", "src/convert_image/avx2.rs", "src/convert_image/neon.rs"]}
{"id": "C74", "title": "Packed strides may be left out; superfluous strides and buffers are ignored", "statement": "Passing no strides, passing STRIDE_AUTO and passing the length of a packed line explicitly are equivalent, and elements of the stride and buffer slices beyond the number of planes of the format have no influence: two calls that agree in size, formats, distances between lines and the buffers of the planes have the same outcome, be it success (with the same bytes stored), any error, or a panic.", "quantifier": "All pairs of calls related in this way, valid or not; all targets (32/64 bit, with or without overflow checks), all processors, all values of the test hook, whatever the kernels do with their arguments.", "why_tests_cant": "Relates pairs of calls over all formats, sizes and strides including failing ones; tests use one spelling of the strides at a time.", "anchors": ["src/lib.rs: convert_image", "src/convert_image/common.rs: compute_stride", "src/pixel_format.rs: STRIDE_AUTO, DEFAULT_STRIDES", "src/convert_image/x86.rs: wrapper functions"]}
{"id": "C75", "title": "Exactly when convert_image panics", "statement": "For a legal and supported request for a non-empty image in a build with overflow checks, convert_image panics if and only if (a) strides and buffers are supplied for all planes but stride*height of a single-buffer Nv12 image exceeds usize (or, on 32-bit targets, the length of a packed line of an RGB image does), or (b) the call passes the checks of C66 and it is an Rgb<->Bgra conversion in which a part of a line that the selected code handles at once (whole line for the portable code and for Bgra->Rgb on SSE2/AVX2; the multiple of 16 or 32 pixels and the rest separately for Rgb->Bgra on SSE2/AVX2; the rest modulo 16 on NEON) is longer than a stride while the preceding part lies inside the buffers, or (c) it passes the checks and AVX2 code converts Bgra to Rgb with fewer than 8 pixels per line and a last line beginning at an offset that exceeds usize, or SSE2, AVX2 or NEON code converts at least one group of RGB pixels per line to Nv12 or I420, the image has at least four lines, and three times the source or luma stride exceeds usize. Without overflow checks it never panics.", "quantifier": "all sizes, formats, strides, buffer lengths and contents, portable, SSE2, AVX2 and NEON code, builds with and without overflow checks, 64-bit and 32-bit targets", "why_tests_cant": "The set of panicking strides differs between instruction sets and is unbounded; a test run sees one processor and a few strides.", "anchors": ["src/convert_image/x86.rs: rgb_to_bgra, bgra_to_rgb, nv12_rgb", "src/convert_image/sse2.rs: rgb_to_bgra_sse2", "src/convert_image/avx2.rs: rgb_to_bgra_avx2, bgra_to_rgb_avx2", "src/convert_image/neon.rs: rgb_to_bgra_neon"]}
{"id": "C76", "title": "The ending of every call is decided by sizes, formats, strides and buffer lengths", "statement": "Every call of convert_image ends as given by one decision list over its arguments: InvalidValue if an image format is illegal for the size, else InvalidOperation if the pair of pixel formats is unsupported, else Ok for an empty image, else NotEnoughData if strides or buffers are missing, else, if stride*height of a single-buffer Nv12 image (or, on 32-bit targets, the length of an RGB line) overflows, a panic with overflow checks and otherwise an out-of-bounds access or NotEnoughData according to the check of the wrapped sizes, else NotEnoughData if a buffer is shorter than the checked bound, else a panic in the cases (b), (c) of C75 with overflow checks, else Ok if all lines accessed end inside the buffers, else an out-of-bounds access.", "quantifier": "all calls with slices of at most isize::MAX bytes; all sizes, formats, strides, buffer lengths and contents, portable, SSE2, AVX2 and NEON code, builds with and without overflow checks, 64-bit and 32-bit targets", "why_tests_cant": "The claim is about the order of all checks and all accesses for an unbounded set of arguments.", "anchors": ["src/lib.rs: convert_image", "src/convert_image/common.rs", "src/convert_image/x86.rs", "src/convert_image/sse2.rs", "src/convert_image/avx2.rs", "src/convert_image/neon.rs"]}
{"id": "C77", "title": "Pixel data do not influence how a call ends", "statement": "Two calls of convert_image that differ only in the bytes inside the source and destination buffers end in the same way: both succeed, both return the same error, both panic or both access memory outside the buffers. In particular no pixel value can cause a panic or a stray access.", "quantifier": "all sizes, formats, strides, buffer lengths and contents, portable, SSE2, AVX2 and NEON code, builds with and without overflow checks, 64-bit and 32-bit targets", "why_tests_cant": "A test sees a few of the 256^n contents; a data-dependent overflow in the fixed-point arithmetic could occur for a single colour.", "anchors": ["src/convert_image/x86.rs", "src/convert_image/sse2.rs", "src/convert_image/avx2.rs", "src/convert_image/neon.rs"]}
{"id": "C78", "title": "Subsampled chroma lies between the chroma of the four pixels", "statement": "Encode the same picture once to I420 or Nv12 and once to I444, in the same colour space and from any source layouts, both with NEON code or both without. Every Cb and Cr sample of the 4:2:0 image is at least the smallest and at most the largest of the four I444 samples of its 2x2 block; if the four pixels have the same colour it equals the I444 sample. If only one of the two is encoded with NEON code the bounds hold up to one code.", "quantifier": "all pictures, sizes, colour spaces, layouts, strides and buffers of valid calls, all pairs of instruction sets", "why_tests_cant": "Subsampling averages before it rounds, I444 rounds per pixel; that the result never leaves the interval (overshoot, visible as colour fringes) is a statement about all 256^12 blocks and both rounding rules.", "anchors": ["src/convert_image/x86.rs: rgb_to_nv12, rgb_to_i420, rgb_to_i444", "src/convert_image/sse2.rs", "src/convert_image/avx2.rs", "src/convert_image/neon.rs"]}
{"id": "C79", "title": "Decoding 4:2:0 is decoding 4:4:4 with repeated chroma", "statement": "Decoding an I420 or Nv12 image gives the same pixels as decoding the I444 image that has the same luma and in which every chroma sample is repeated over its 2x2 block.", "quantifier": "all images, sizes, colour spaces, layouts and RGB destination formats of valid calls, any two processors", "why_tests_cant": "Different kernels with different line handling and different vector widths are compared on all samples and widths.", "anchors": ["src/convert_image/x86.rs: nv12_to_bgra, nv12_to_rgb, i420_to_bgra, i444_to_bgra", "src/convert_image/sse2.rs", "src/convert_image/avx2.rs", "src/convert_image/neon.rs"]}
{"id": "C80", "title": "Old contents of the destination do not matter", "statement": "What the destination buffers held before a call influences neither how the call ends nor the bytes it stores: each byte is the same after both calls or untouched by both. After a valid call every byte of the image is the same.", "quantifier": "all calls (also invalid ones), all contents of the destination buffers, all targets and instruction sets", "why_tests_cant": "A kernel that reads back its destination, or leaves some image byte unwritten, shows only for particular old contents, sizes and strides.", "anchors": ["src/lib.rs: convert_image", "src/convert_image/x86.rs", "src/convert_image/sse2.rs", "src/convert_image/avx2.rs", "src/convert_image/neon.rs"]}
{"id": "C81", "title": "Longer buffers change nothing", "statement": "A valid call that succeeds also succeeds when source and destination buffers are longer; it stores the same bytes in the old part of the destination and nothing behind it.", "quantifier": "all valid calls, all longer buffers (within isize::MAX) with arbitrary extra contents, all processors and targets", "why_tests_cant": "Buffers rounded up to pages or taken from a pool have arbitrary slack; the kernels derive nothing from the slice length but bounds, which tests with a few lengths cannot establish.", "anchors": ["src/lib.rs: convert_image", "src/convert_image/x86.rs", "src/convert_image/sse2.rs", "src/convert_image/avx2.rs", "src/convert_image/neon.rs"]}
{"id": "C82", "title": "Equal pixels get equal results, wherever they are", "statement": "Two pixels of one image with the same input samples (for 4:2:0 chroma: two blocks with the same four colours) get the same output samples.", "quantifier": "all valid calls, all pairs of positions in the image", "why_tests_cant": "Vector code, scalar remainder and the last lines treat positions differently; flat areas must not show a border, for every colour and width.", "anchors": ["src/lib.rs: convert_image", "src/convert_image/x86.rs", "src/convert_image/sse2.rs", "src/convert_image/avx2.rs", "src/convert_image/neon.rs"]}
{"id": "C83", "title": "get_buffers_size, exactly", "statement": "For a legal size and plane count and long enough arrays the reported sizes are: for several planes stride times lines of each plane; for one buffer the sum over the channels (RGB) or over luma and chroma (Nv12), each with its own stride entry and a packed line of w bytes if that entry is missing or 0. If a size does not fit usize, builds with overflow checks panic and builds without report it modulo 2^bits.", "quantifier": "all formats, sizes, stride arrays of any length, output arrays, targets of 32 or more bits with and without overflow checks", "why_tests_cant": "Tables packed in nibbles are evaluated for arbitrary strides, and the overflow behaviour depends on products of 64-bit arguments.", "anchors": ["src/lib.rs: get_buffers_size", "src/pixel_format.rs: get_buffers_size, STRIDE_SPECS, HEIGHT_SPECS"]}
{"id": "C84", "title": "Buffers of exactly the reported size hold the image and are accepted", "statement": "If get_buffers_size succeeds for source and destination (no superfluous strides) and the buffers have exactly these sizes, the image fits in the buffers and convert_image does not answer NotEnoughData.", "quantifier": "all legal calls of supported conversions of non-empty images, all strides, all instruction sets, 64-bit and 32-bit targets", "why_tests_cant": "The size query and the checks of convert_image are separate code with different formulas; they agree for some strides and not for others.", "anchors": ["src/lib.rs: get_buffers_size", "src/pixel_format.rs: get_buffers_size, STRIDE_SPECS, HEIGHT_SPECS", "src/convert_image/common.rs: out_of_bounds", "src/convert_image/x86.rs"]}
{"id": "C85", "title": "dcp_convert_image cannot see the size of the buffers", "statement": "The C function answers, for every memory behind the plane pointers, as convert_image does for slices of isize::MAX bytes: it returns NotEnoughData only if the rule of C66 fails even for such slices, and size and contents of the caller's memory do not influence the answer. In particular every legal, supported request with packed lines whose image fits an address space answers OK, even if the buffers are empty.", "quantifier": "all calls of dcp_convert_image whose arrays have an element per plane (illegal formats, zero sizes and any strides included), all contents of the memory behind the arrays, all processors, builds with and without overflow checks, 64-bit and 32-bit targets", "why_tests_cant": "A test cannot hand over memory of every size, and reading beyond an allocation is undefined behaviour; that no path depends on the real size is a statement about all of them.", "anchors": ["src/lib.rs: c_api::dcp_convert_image, UNBOUNDED_C_ARRAY", "include/dcv_color_primitives.h: dcp_convert_image"]}
{"id": "C86", "title": "Longer buffers never turn a success into a failure", "statement": "If convert_image succeeds, it succeeds with the same arguments and longer (or further) buffers of any contents; if it returns an error, it returns the same error with shorter (or missing) buffers.", "quantifier": "all calls (any formats, sizes, strides, also those outside the documented requirements), all pairs of buffer lists with the second at least as long buffer by buffer, all processors, builds with and without overflow checks, 64-bit and 32-bit targets", "why_tests_cant": "Quantifies over pairs of calls with arbitrary buffer lengths; an overflow or a wrapped offset could occur for one length only.", "anchors": ["src/convert_image/common.rs: out_of_bounds", "src/convert_image/x86.rs", "src/convert_image/sse2.rs", "src/convert_image/avx2.rs", "src/convert_image/neon.rs"]}
{"id": "C87", "title": "The C functions answer with the numbers the header documents", "statement": "A C program sees what include/dcv_color_primitives.h says. dcp_convert_image: a null pointer, a number that is no enumerator, a colour space, size or number of planes that does not go with the pixel format give DCP_RESULT_ERR (1) and DCP_ERROR_KIND_INVALID_VALUE (0) and change no plane; otherwise a conversion missing from the table gives DCP_RESULT_ERR and DCP_ERROR_KIND_INVALID_OPERATION (1) and changes no plane; otherwise a call that returns gives DCP_RESULT_OK (0) and leaves the error slot alone, or DCP_RESULT_ERR and DCP_ERROR_KIND_NOT_ENOUGH_DATA (2). dcp_get_buffers_size: null pointers, a pixel format that is none, a wrong size or number of planes give DCP_RESULT_ERR and DCP_ERROR_KIND_INVALID_VALUE and leave the array alone; otherwise, if it returns, DCP_RESULT_OK, and only one element per plane is written; the colour space is ignored.", "quantifier": "all argument combinations of both C functions (null pointers, any 32-bit numbers as enumerators, any sizes, strides, numbers of planes, with or without error slot) whose arrays have an element per plane, all kernels, processors and targets", "why_tests_cant": "The enumerators are arbitrary 32-bit numbers and the arguments can be wrong in any combination; which error wins for combinations of mistakes is a statement about all of them.", "anchors": ["include/dcv_color_primitives.h", "src/lib.rs: c_api::dcp_convert_image, c_api::dcp_get_buffers_size, c_api::Result, ErrorKind", "src/dispatcher.rs: is_pixel_format_valid, is_color_space_valid", "src/pixel_format.rs: are_planes_compatible"]}
{"id": "C88", "title": "Strings handed to C programs can be released exactly once and never leak or corrupt the heap", "statement": "A C program that obtains strings with dcp_describe_acceleration, releases each at most once with dcp_unref_string (or releases NULL), does not use it afterwards and does not make it shorter never misuses the heap. Strings not yet released stay at the address returned, with the text returned unless the program changed it; all other blocks of the heap stay as they were, and when all strings have been released the heap is what it was in the beginning. Releasing a string twice, or after storing a NUL character in its text, is undefined behaviour.", "quantifier": "all C programs (finite sequences of the calls and of stores to the strings), all initial heaps, all choices of addresses by the allocator, all processors", "why_tests_cant": "Leaks and double frees are not visible in results, and the interleavings of calls and the addresses chosen by the allocator are unbounded.", "anchors": ["src/lib.rs: c_api::dcp_describe_acceleration, c_api::dcp_unref_string", "include/dcv_color_primitives.h: dcp_describe_acceleration, dcp_unref_string"]}
{"id": "C89", "title": "The largest errors of encoding are known exactly", "statement": "Over all colours, the distance of a stored sample from the exact real-number value of the standard has a largest value, which is known for each colour space: luma 42651/85000 (Bt601), 213037/425000 (Bt709), 0.501 (Bt601FR), 0.5012 (Bt709FR); Cb 56710/112965, 593932/1182945, 890/1772, 4654/9278; Cr 89981/178755, 504210/1003935, 705/1402, 3958/7874. No encoding exceeds it (luma of every format, chroma of I444), and every encoding of a pixel of the given worst colour attains it, on every processor. In full range, where a coefficient had to be changed by one to fit 16 bits, the tables change the one for which the largest error is smaller, as genweights.py promises.", "quantifier": "all 2^24 colours, all four colour spaces, both ways of rounding ties, all valid encodings on all processors", "why_tests_cant": "The exact maxima are claims about all colours and real numbers; a test samples colours and compares with floating-point numbers.", "anchors": ["genweights.py: max_y_error, max_uv_error", "src/convert_image/common.rs", "src/convert_image/x86.rs", "src/convert_image/sse2.rs", "src/convert_image/avx2.rs", "src/convert_image/neon.rs", "src/lib.rs: convert_image"]}
{"id": "C90", "title": "The largest errors of decoding are known exactly", "statement": "Over all 2^24 sample triples, the distance of a decoded component from the clamped exact value of the standard has a largest value, known for each colour space: red 835217/1635200 = 0.5108 (Bt601), 2093137/4088000 = 0.5120 (Bt709), 1.904 (Bt601FR), 2.0712 (Bt709FR); green 0.5301, 0.5288, 455027/293500 = 1.5503, 1284053/1117500 = 1.1490; blue 0.5128, 0.5148, 2.28, 2.3576. In full range the errors relative to the formula with chroma centred at 127 instead of the documented 128 are at most 0.502 / 0.4964 (red), 0.5291 / 0.5237 (green), 0.508 / 0.502 (blue), attained too: the decoder is accurate, for the wrong centre. No decoding on any processor exceeds the first bounds, and every decoding of the given worst samples attains them; the only exception is blue on SSE2/AVX2 where it overflows 16 bits: there 0 is stored where the exact value is 255.", "quantifier": "all sample triples, four colour spaces, all valid decodings, all processors", "why_tests_cant": "Exact maxima of real-valued errors over 2^24 inputs; the tests sample a few colours with a tolerance of 2.", "anchors": ["src/convert_image/common.rs: RN_*, GP_*, BN_*, XXYM_*", "src/convert_image/x86.rs", "src/convert_image/sse2.rs", "src/convert_image/avx2.rs", "src/convert_image/neon.rs", "genweights.py", "src/lib.rs: convert_image documentation, Algorithm 2"]}
{"id": "C91", "title": "The references formed by the C functions are ones Rust permits", "statement": "The slices and references that dcp_get_buffers_size and dcp_convert_image make of the caller's pointers meet the conditions of std::slice::from_raw_parts (at most isize::MAX bytes, inside the address space, a &mut slice overlaps no other slice) and are all initialised before they are used as references, so that a correct C program does not run into undefined behaviour of the Rust language.", "quantifier": "all calls of the C functions, all addresses, every target", "why_tests_cant": "Undefined behaviour of this kind has no effect a test could observe until the compiler exploits it.", "anchors": ["src/lib.rs: UNBOUNDED_C_ARRAY, dcp_get_buffers_size, dcp_convert_image"]}
{"id": "C92", "title": "The largest error of 4:2:0 chroma is known exactly", "statement": "For each colour space the largest distance between a stored 4:2:0 chroma sample and the exact value for the average colour of its 2x2 block, over all blocks, is a stated fraction (for Bt601 56716/112965 for Cb and 89981/178755 for Cr); the bound is met by every conversion of an image containing a stated block, on every processor. Subsampling never makes the largest error smaller than that of 4:4:4.", "quantifier": "all 2x2 blocks of colours (2^96), both ways of rounding ties, all colour spaces, all valid conversions to I420 and Nv12, every processor", "why_tests_cant": "A test compares some blocks with a tolerance; that no block is worse needs all of them, and the sums alone have 10^9 combinations.", "anchors": ["src/convert_image/x86.rs: rgb_to_i420, rgb_to_nv12", "src/convert_image/common.rs: FORWARD_WEIGHTS", "src/convert_image/neon.rs, sse2.rs, avx2.rs: chroma of blocks"]}
{"id": "C93", "title": "How much a colour changes when it is encoded and decoded, exactly", "statement": "An RGB image that is encoded (I444, or I420/Nv12 where the 2x2 block is of one colour) and decoded again in the same colour space comes back with, in limited range, red and green changed by -1 to 1 and blue by -2 to 2; in full range, red and blue increased by 0 to 3 and green decreased by 0 to 2 (Bt601FR) or 0 to 1 (Bt709FR): the picture gets a magenta tint, red and blue never get darker and green never lighter. All these limits are reached.", "quantifier": "all colours (2^24), all colour spaces, all valid pairs of conversions, every pair of processors (including different rounding of ties)", "why_tests_cant": "Round-trip tests sample colours and accept a tolerance; they do not show that no colour is worse, nor that the error has one sign.", "anchors": ["src/convert_image/common.rs: FORWARD_WEIGHTS, BACKWARD_WEIGHTS", "src/convert_image/x86.rs: rgb_to_i444, i444_to_bgra", "src/lib.rs: convert_image"]}
{"id": "C94", "title": "Which colours cannot be told apart once they are encoded", "statement": "Two pixels that are stored as the same Y, Cb and Cr (I444, or I420/Nv12 where the 2x2 block is of one colour) in the same colour space had red within 2, green within 1 and blue within 2 of each other (blue within 3 in Bt709). So colours further apart always remain distinguishable, whichever processors encoded them. Each limit is reached by a stated pair of colours, which every processor stores alike.", "quantifier": "all pairs of colours, all colour spaces, all pairs of valid encodings on any processors (including different rounding of ties)", "why_tests_cant": "There are 2^48 pairs of colours; a test samples a few.", "anchors": ["src/convert_image/common.rs: coefficient tables", "src/convert_image/x86.rs: rgb_to_i444", "src/convert_image/neon.rs", "src/lib.rs: convert_image"]}
{"id": "C95", "title": "The coefficient tables are those computed by genweights.py", "statement": "Called with the model and range of a colour space, the script genweights.py prints exactly the coefficients the library uses for that colour space, for encoding and decoding. The errors it reports are the largest errors over all colours. In full range, where the nearest coefficients do not fit 16 bits, it decides between two tables by their largest errors over all colours, and it chooses the better one. Rounding of floating point numbers cannot change the outcome. The reference samples it computes for regression tests are what the library stores, for every picture, on every processor without NEON.", "quantifier": "the four colour spaces; all colours and 2x2 blocks; all valid encodings", "why_tests_cant": "Tests compare the library with numbers printed by the script for 64 pixels; they show neither that tables and script agree nor that the choice of the script is right, which depends on all 2^24 colours.", "anchors": ["genweights.py: max_y_error, max_uv_error, main", "src/convert_image/common.rs: coefficient tables", "tests/conversions.rs: reference data"]}
{"id": "C96", "title": "Mirrored, flipped, transposed and rotated pictures convert to mirrored, flipped, transposed and rotated pictures", "statement": "Turning a picture over or around (any of the eight ways) and converting it gives the same as converting it and turning the result. The two calls may use different layouts, RGB formats, targets and processors. This holds for RGB conversions, luma, chroma (4:4:4, and 4:2:0, where blocks go to blocks because the dimensions are even), red and green. Exceptions, determined exactly: ties of chroma rounding where just one of the two columns is converted by NEON vector code; blue above the 16-bit range where just one of the two columns is converted by x86 vector code.", "quantifier": "all valid pairs of conversions of a picture and the turned picture, all eight symmetries, all sizes and contents, all processors", "why_tests_cant": "Tests convert fixed pictures in one orientation; vector code treats columns and lines, and the end of a line, differently.", "anchors": ["src/convert_image/x86.rs", "src/convert_image/sse2.rs", "src/convert_image/avx2.rs", "src/convert_image/neon.rs", "src/lib.rs: convert_image"]}
{"id": "C97", "title": "What 4:2:0 makes of a picture", "statement": "A pixel that is encoded to I420 or Nv12 and decoded in the same colour space becomes the average colour of its 2x2 block, made lighter or darker to the pixel's own luma and clamped, up to rounding (per colour space and component: between 0.5 and 3.8 units, in full range almost only upwards in red and blue). Where the colours in a block differ by at most d, red changes by at most 1.5 (1 - Kr) d plus the rounding, green by 1.5 (1 - Kg) d, blue by 1.5 (1 - Kb) d. So smooth parts of a picture survive, whichever processors encode and decode.", "quantifier": "all pictures, all pixels, all valid pairs of an encoding to 4:2:0 and its decoding, on any processors", "why_tests_cant": "2^96 possible blocks; a test samples a few pictures and compares with stored numbers.", "anchors": ["src/convert_image/x86.rs: rgb to i420/nv12, i420/nv12 to rgb", "src/convert_image/sse2.rs", "src/convert_image/avx2.rs", "src/convert_image/neon.rs", "src/convert_image/common.rs: coefficient tables"]}
{"id": "C98", "title": "Small changes of the picture make small changes of the result", "statement": "If two colours differ by at most d in every component, their Y, Cb and Cr differ by at most d (for chroma d >= 1; 4:2:0: averages of blocks), even if the pixels are in different images converted by processors that round ties differently. If two codes differ by at most d in every component, decoded red differs by at most 3d, green by at most 3d (Bt601) or 2d (Bt709), blue by at most 4d (limited) or 3d (full range). None of the factors can be smaller. The only exception: blue above the 16-bit range in columns converted by x86 vector code, where it jumps from 255 to 0.", "quantifier": "all pairs of pixels of all valid conversions in one colour space, on any processors; all d", "why_tests_cant": "All pairs of colours or codes (2^48), all positions and processors.", "anchors": ["src/convert_image/x86.rs", "src/convert_image/sse2.rs", "src/convert_image/avx2.rs", "src/convert_image/neon.rs", "src/convert_image/common.rs: coefficient tables"]}
{"id": "C99", "title": "Making a picture lighter changes luma only", "statement": "Adding the same number k to red, green and blue of a pixel (without clipping) leaves Cb and Cr exactly as they are, in 4:4:4 and 4:2:0, and moves Y by exactly k in full range and by 56284/65536 k, off by less than one, in limited range. In full range, adding k to Y moves decoded red, green and blue by exactly k, clamped. Exception, determined exactly: chroma ties where just one of the two columns is converted by NEON vector code.", "quantifier": "all pairs of pixels of all valid conversions in one colour space, all k, all processors", "why_tests_cant": "All colours, all k, all positions and processors.", "anchors": ["src/convert_image/common.rs: coefficient tables", "src/convert_image/x86.rs", "src/convert_image/neon.rs", "src/lib.rs: convert_image"]}
{"id": "C100", "title": "The byte order of the target does not matter", "statement": "The crate has no condition on the byte order of the target; on architectures other than x86 and AArch64 its portable code runs, so a conversion should give the same result on a big-endian target as on a little-endian one. It does for every call that encodes or decodes a YCbCr image, and every call ends in the same way (same returned value or panic, same buffers touched). It does not for the three conversions between RGB formats, which move words of 4 and 8 bytes by shifts: on a big-endian target Rgb to Bgra stores blue 255 for every pixel but the last of a line, Bgr to Rgb and Bgra to Rgb store wrong colours in whole groups of eight pixels. What they store is determined byte by byte.", "quantifier": "all calls for the returned value, all calls that do not convert between RGB formats, all valid calls and all bytes for the stored values on big-endian targets", "why_tests_cant": "The tests run on little-endian machines; all sizes, strides and images.", "anchors": ["src/convert_image/x86.rs: loadu, storeu, rgb_to_bgra, bgr_to_rgb, bgra_to_rgb", "src/convert_image.rs", "src/lib.rs: convert_image"]}
{"id": "C101", "title": "Every single write of a conversion is to the image, at every moment", "statement": "While a successful convert_image runs, each single memory write goes to a byte of a line of the destination image, and each such byte is written. So not only at the end but at no time during the call does any other byte (padding between lines, bytes behind the image, further buffers) differ from its old value: padding is not overwritten and restored. Which bytes are written is decided by size, formats and strides; pixels, old contents, buffer lengths and instruction set play no part.", "quantifier": "all valid calls, all processors, all prefixes of the sequence of writes, all bytes", "why_tests_cant": "A test sees memory before and after a call. Wide vector stores that write padding and restore it, or write back what was there, look right in a test and lose updates of other threads.", "anchors": ["src/lib.rs: convert_image", "src/convert_image/x86.rs", "src/convert_image/sse2.rs", "src/convert_image/avx2.rs", "src/convert_image/neon.rs"]}
{"id": "C102", "title": "Images may be interleaved in one memory", "statement": "Programs place images so that their buffers overlap although no byte belongs to two of them: fields of an interlaced frame, pictures side by side in one frame buffer, U and V planes side by side with a common stride, a source and a destination that are two parts of the same frame. Conversions between such images may run at the same time: if no byte belongs to two stored planes or images, and none belongs to both a stored and a converted image, every conversion stores exactly the image it stores when alone, and every byte that belongs to no stored image keeps its value at all times. The order of execution makes no difference.", "quantifier": "all memories, all numbers of conversions, all placements, all interleavings of their writes", "why_tests_cant": "Interleavings and placements are unbounded; a lost update shows up rarely.", "anchors": ["src/lib.rs: convert_image, c_bindings::dcp_convert_image", "include/dcv_color_primitives.h"]}
{"id": "C103", "title": "No intermediate values in the destination", "statement": "Every single store of a successful convert_image already has the final value of the byte. So while the call runs, every byte of the destination is either what it was before the call or what it is after the call, it changes from the one to the other once, and a byte that has its final value keeps it. The stores may take effect in any order, or several times, without changing the result. The same holds for conversions that run at the same time in one memory (C102).", "quantifier": "all valid calls, all processors, all sets and orders of the writes, all bytes; all schedules", "why_tests_cant": "A test sees the destination after the call. Overlapping vector stores that first put wrong bytes and then correct them look right in a test, and tear when another thread or a device reads the frame.", "anchors": ["src/lib.rs: convert_image", "src/convert_image/x86.rs", "src/convert_image/sse2.rs", "src/convert_image/avx2.rs", "src/convert_image/neon.rs"]}
{"id": "C104", "title": "The sequence of stores does not depend on the picture", "statement": "Where a completed convert_image stores, in which order and how often, is decided by size, formats, strides and lengths of the buffers; the contents of the buffers play no part. If two source buffers show the same picture, and differ in alpha bytes, padding or bytes behind the image, the calls perform the same stores one by one, value by value.", "quantifier": "all pairs of calls that differ in the contents of buffers only (first part: valid or not), all processors, all builds", "why_tests_cant": "Relates the executions of all pairs of contents. A shortcut for certain pixels (skipping equal bytes, a fast path for grey or black) passes tests of results and leaks the picture through the places and number of stores.", "anchors": ["src/lib.rs: convert_image", "src/convert_image/x86.rs", "src/convert_image/sse2.rs", "src/convert_image/avx2.rs", "src/convert_image/neon.rs"]}
{"id": "C105", "title": "Changing the colour space through RGB is accurate", "statement": "The library has no conversion between YCbCr colour spaces; programs decode to RGB and encode in the other colour space (BT.601 to BT.709, limited to full range). Every sample obtained in this way lies close to the exact real-number code, in the new colour space, of the colour the source shows: within 0.968 (luma) and 0.985 (chroma) between limited-range spaces, so always one of the two integers around the exact code; within 1.044 and 1.05 from limited to full range; within 2.44 and 2.7 for full-range sources. For 4:2:0 destinations the chroma refers to the average of the four colours of the block. The two steps may run on different processors. The result is not always the nearest integer: a luma of 214.08 is stored as 215.", "quantifier": "all pairs of colour spaces, all YCbCr source formats, all RGB formats in between, all destination formats, all sample values (on SSE2 and AVX2: those whose exact blue is at most 255), all sizes, all pairs of processors", "why_tests_cant": "2^24 codes times 16 pairs of colour spaces, measured against the exact composition of two standards rather than against stored reference output.", "anchors": ["src/lib.rs: convert_image", "src/convert_image/common.rs: coefficient tables", "src/convert_image/x86.rs", "src/convert_image/sse2.rs", "src/convert_image/avx2.rs", "src/convert_image/neon.rs"]}
{"id": "C106", "title": "Every byte of the image is stored exactly once, except by the 24-bit AVX2 decoder", "statement": "During a valid conversion each byte of the destination image is stored exactly once: up to one moment it has its old value, from then on its final value. So the number of bytes stored equals the number of bytes of the image: vector parts and scalar rests of lines neither overlap nor leave gaps, and write-combined or uncached destinations (frame buffers, mapped device memory) see each byte once. The one exception is decoding Nv12 to Rgb with the AVX2 code and at least 32 pixels per line: it stores 16 pixels (48 bytes) with two overlapping 32-byte stores, so a conversion stores 32*(width/32)*height bytes more than the image has, and some bytes twice.", "quantifier": "all valid calls (formats, colour spaces, sizes, strides, contents), all processors, every byte of the image, every moment", "why_tests_cant": "A test sees the final contents; a store that is repeated later leaves no trace in them. Which parts of a line are covered by which of the loops depends on the width and on the instruction set.", "anchors": ["src/lib.rs: convert_image", "src/convert_image/x86.rs", "src/convert_image/sse2.rs", "src/convert_image/avx2.rs: pack_rgb_16x, nv12_to_rgb_avx2", "src/convert_image/neon.rs"]}
{"id": "C107", "title": "No pixel is read or written before all checks have passed", "statement": "A call of convert_image first makes all its checks and only then touches pixels. If a call is refused (invalid value, unsupported conversion, not enough data), has nothing to do, or panics in the checks, then no code that reads source pixels or writes destination bytes has been run: the ending is the same whatever that code does. If that code is run, the call is not refused any more: it answers Ok or does not return. It is run exactly for legal requests of supported conversions of non-empty images with a stride and a buffer for every plane that pass the size checks.", "quantifier": "all calls (formats, colour spaces, sizes, strides, buffers), all targets and processors, with and without overflow checks", "why_tests_cant": "A test that sees an error and an unchanged destination does not know whether the source was read, nor whether a store was undone or happened to store the old value; and there are nine wrappers for four instruction sets, each with its own sequence of checks.", "anchors": ["src/lib.rs: convert_image", "src/convert_image/x86.rs: wrappers", "src/convert_image/sse2.rs: wrappers", "src/convert_image/avx2.rs: wrappers", "src/convert_image/neon.rs: wrappers"]}
{"id": "C108", "title": "A call that panics has not changed the destination", "statement": "If a call panics because of an arithmetic overflow (builds with overflow checks), the destination buffers are as they were: the panic happens before the first store. This is false in two cases: the NEON code for Rgb <-> Bgra stores the first multiple of 16 pixels before it subtracts the rest of the line from a stride that is smaller; and the vectorised encoders to Nv12 and I420 store two lines before they compute the offset of a fourth line that begins beyond usize. In all other cases, and always with the portable code, it holds.", "quantifier": "all legal requests of supported conversions that panic, all targets of at least 32 bits, all processors", "why_tests_cant": "The panics need strides smaller than a line or close to the size of the address space, and depend on the width, the format and the instruction set.", "anchors": ["src/convert_image/neon.rs: rgb_bgra, bgra_rgb", "src/convert_image/x86.rs: rgb_to_bgra, bgra_to_rgb", "src/convert_image/sse2.rs", "src/convert_image/avx2.rs"]}
{"id": "C109", "title": "Printed names identify a value and describe the memory layout", "statement": "The texts printed for errors, pixel formats and colour spaces are different for different values, also when a pixel format and a colour space are printed one after the other. The name of an RGB format says how a pixel is stored: it has one letter per byte, and in every conversion byte k of a pixel is the component whose letter is letter k of the name (r, g, b; bytes named a are written as 255). The name i4ab of a planar format says how chroma is subsampled: for four pixels of a line a chroma plane has a samples, and every line has its own unless b is 0; the sizes reported by get_buffers_size are computed accordingly.", "quantifier": "all values of the three enumerations; all valid conversions (pixels, strides, sizes), all targets and processors; all sizes and strides for which the reported sizes fit usize", "why_tests_cant": "The texts are excluded from coverage and no test looks at them; that the names agree with the bytes the kernels of four instruction sets store is a statement about all images.", "anchors": ["src/lib.rs: Display for ErrorKind, get_buffers_size, convert_image", "src/pixel_format.rs: Display for PixelFormat", "src/color_space.rs: Display for ColorSpace"]}
{"id": "C110", "title": "Buffers need no particular alignment", "statement": "A conversion accepts buffers at any address and lines at any distance; no access demands an aligned address. This is false in one case: with NEON, the encoder to I420 stores four chroma samples at a time with vst1_lane_u32, an assignment through a *mut u32, which is undefined behaviour (and a panic in builds with debug assertions) if a chroma line does not begin at a multiple of 4. It concerns images of at least 8 pixels per line; packed images in aligned buffers are affected exactly if they have more than two lines and the width is not a multiple of 8. In all other cases the addresses do not matter.", "quantifier": "all valid calls, all addresses of the destination buffers, all strides, all targets and processors", "why_tests_cant": "On the hardware the store works at any address; the behaviour is undefined only in the language, needs an AArch64 build with debug assertions to be seen, and depends on where the allocator puts the buffers.", "anchors": ["src/convert_image/neon.rs: rgb_to_i420_8x, rgb_to_i420_neon", "src/convert_image/x86.rs: loadu, storeu", "src/convert_image/sse2.rs: loadu, storeu", "src/convert_image/avx2.rs: loadu, storeu"]}
{"id": "C111", "title": "A picture looks the same whichever processors encode and decode it", "statement": "If a picture is encoded by the library, the image is handed on (possibly copied to other buffers or, in 4:2:0, from I420 to Nv12) and decoded by the library, then the colours shown do not depend on the processor, target or destination format of the receiver: the exceptions of C46 never concern images stored by the library. They do not depend on the sender either (its processor, the layout of the picture in memory, strides) unless one of two senders uses NEON and the other does not; then two receivers may differ by at most 2 in red, 2 in green and 3 in blue (2 in full range), and 3 is attained.", "quantifier": "all valid encodings of a picture, all valid decodings of what they store, all targets and processors of the two senders and the two receivers, all pixels", "why_tests_cant": "Tests run on one processor and check encoders and decoders separately; the number of pictures, and of combinations of senders and receivers, is too large, and the differences arise only for ties of chroma.", "anchors": ["src/convert_image/neon.rs: rgb_to_i420_8x, rgb_to_i444_8x", "src/convert_image/x86.rs: rgb_to_i420, rgb_to_i444", "src/convert_image/sse2.rs: i444_to_bgra_sse2", "src/convert_image/avx2.rs: i444_to_bgra_avx2", "src/lib.rs: convert_image"]}
{"id": "C112", "title": "For grey pictures it does not matter whether Bt601 or Bt709 is chosen", "statement": "A grey pixel in a grey 2x2 block gets the same three codes in Bt601 and in Bt709 (and in Bt601FR and Bt709FR), in every destination format and on every processor. In limited range a code with neutral chroma decodes to the same colour in both standards, so that a grey picture which is decoded with the wrong one of the two standards is shown unchanged. In full range neutral chroma decodes to (Y+1, Y-1, Y+2) in Bt601FR and to (Y+2, Y-1, Y+2) in Bt709FR, clamped: only red depends on the standard, by one step unless it saturates.", "quantifier": "all valid encodings of grey pixels and all valid decodings of neutral chroma, all luma values, positions, formats, targets and processors", "why_tests_cant": "The tests compare with tables of a few colours for each colour space; that two colour spaces agree on all greys, on every code path and for every position, rests on equal sums of coefficients and on the offsets of the decoders.", "anchors": ["src/convert_image/common.rs", "src/convert_image/x86.rs: rgb_to_i420, rgb_to_i444, i444_to_bgra", "src/convert_image/neon.rs: rgb_to_i420_8x, rgb_to_i444_8x"]}
{"id": "C113", "title": "Grey pictures survive encoding and decoding", "statement": "A grey pixel in a grey 2x2 block that is encoded and decoded in limited range (Bt601 or Bt709, also one for the other; any sampling of chroma, any processors) is a grey again, at most one step lighter or darker. Black, white and all but 36 of the 256 greys are unchanged, lighter greys are never shown darker, and encoding what is shown gives the same codes again. In full range it is not a grey: v is shown as (v+1, v-1, v+2) in Bt601FR and (v+2, v-1, v+2) in Bt709FR, clamped.", "quantifier": "all greys, all valid encodings and decodings, all positions, formats, targets and processors of each step", "why_tests_cant": "Tests check encoders and decoders separately with a few colours and with tolerances; the claim concerns all greys and all combinations of code paths.", "anchors": ["src/convert_image/common.rs", "src/convert_image/x86.rs: rgb_to_i420, rgb_to_i444, i444_to_bgra", "src/convert_image/sse2.rs", "src/convert_image/avx2.rs", "src/convert_image/neon.rs"]}
{"id": "C114", "title": "What mistaking the range does to grey pictures", "statement": "A grey picture stored in full range and decoded as limited range stays grey with more contrast: exactly the greys up to 16 become black, exactly those from 235 on become white, those between stay distinct. A grey picture stored in limited range and decoded as full range is tinted as in C113 and reaches neither black nor white: with l the stored luma, between 16 and 235, it is shown as (l+1, l-1, l+2), or (l+2, l-1, l+2) with Bt709FR, never clamped.", "quantifier": "all greys, all valid encodings and decodings in colour spaces of different range, all positions, formats, targets and processors", "why_tests_cant": "No test decodes an image in another colour space than its own; the claim concerns all greys and all combinations of code paths.", "anchors": ["src/convert_image/common.rs", "src/convert_image/x86.rs: rgb_to_i420, rgb_to_i444, i444_to_bgra", "src/color_space.rs: ColorSpace"]}
{"id": "C115", "title": "The negative of a picture has the complementary codes", "statement": "If every component v of a pixel is replaced by 255-v, the luma codes of the pixel and of its negative sum to 255 in full range and to 251 in limited range, or to one more in exactly described cases. Their Cb codes and their Cr codes sum to 256, in 4:4:4 and, if the whole 2x2 block is replaced, in 4:2:0. The exceptions are chroma values exactly between two codes (ties): then the sum is within one of 256 on any processors, and 255 without NEON.", "quantifier": "all valid encodings of a picture and of its negative, all colours, positions, formats, targets and processors", "why_tests_cant": "The relation concerns pairs of pictures and all 2^24 colours on every code path; the exceptions are single colours.", "anchors": ["src/convert_image/common.rs", "src/convert_image/x86.rs: rgb_to_i420, rgb_to_i444", "src/convert_image/neon.rs: rgb_to_i420_8x, rgb_to_i444_8x"]}
{"id": "C116", "title": "Colour bars get the codes of the standards", "statement": "Black, blue, green, cyan, red, magenta, yellow and white of full amplitude are encoded, in every YCbCr format and on every processor, to the codes tabulated for the colour space (for example (81, 90, 240) for red in BT.601). These codes are the exact values of the standards rounded to the nearest integer; the exact 255.5 of blue's Cb and red's Cr in full range is stored as 255 and does not wrap. The codes decode to the colour of the bar, green within one, red and blue within one in limited range and within three in full range, and so does the round trip on any two processors.", "quantifier": "all valid encodings and decodings, all eight bars, positions, colour spaces, formats, sizes, targets and processors", "why_tests_cant": "A test compares the codes for the sizes, strides, formats and processor it runs on; the claim covers every position reached by every loop of every implementation.", "anchors": ["src/convert_image/common.rs", "src/convert_image/x86.rs", "src/convert_image/sse2.rs", "src/convert_image/avx2.rs", "src/convert_image/neon.rs"]}
