{
 "C01": "Model: `registered`, `convert_image`. Case analysis over all pairs of pixel formats and colour spaces against `Spec.Supported`, written from the documentation.",
 "C02": "`decide` over the complete finite table of registrations (exhaustive).",
 "C03": "Unfolds `convert_image` for symbolic arguments; the answer is the first failing check of the documented list.",
 "C04": "`is_compatible` on `UInt32`; bit lemmas for the parity masks.",
 "C05": "Same, on plane counts: consecutive numbers with product 0 mod 2^32.",
 "C06": "`get_buffers_size` unfolded for symbolic sizes and strides.",
 "C07": "Frame condition of the loop that writes the sizes.",
 "C08": "Symbolic products; the literal claim fails where the true size is not representable (C08_overflow).",
 "C09": "Loop invariant over planes.",
 "C10": "False in the code (finding 4); witness, and the case that holds.",
 "C11": "False in the code (findings 1, 4); witness, proved for packed layouts and sufficient strides.",
 "C12": "Arithmetic on `out_of_bounds` with the arguments the wrappers pass.",
 "C13": "False (finding 2); witnesses for reads and writes, exact acceptance criterion.",
 "C14": "False (finding 1); witnesses for reads and writes, exact acceptance criterion.",
 "C15": "False in general (C13, C14). Proved for every call whose planes fit; `C15_exact_partial` gives the exact condition.",
 "C16": "False (finding 3). Proved: what the remaining calls do.",
 "C17": "The checks come before every write in the model of the wrappers; proved for every error answer.",
 "C18": "Early return of `convert_image`.",
 "C19": "The writes of every kernel are the graph of a function on the image area (`Lemmas/Paint`), then address injectivity.",
 "C20": "Kernel invariants line by line, group by group (`Lemmas/*Enc`), stored byte = `Spec.luma` of the pixel.",
 "C21": "Same for 2x2 blocks; NEON rounds exact ties up (finding 8).",
 "C22": "Same for I444.",
 "C23": "Kernel invariants of the decoders; SSE2/AVX2 blue wraps (finding 6).",
 "C24": "Same invariants, alpha component.",
 "C25": "Two runs with sources equal on the image: equal results.",
 "C26": "Kernel invariants of the shuffles.",
 "C27": "C26 composed.",
 "C28": "C23 applied to two destinations.",
 "C29": "C20-C22 applied to two layouts.",
 "C30": "C20-C23 applied to two formats.",
 "C31": "Same, for one and two planes.",
 "C32": "Same, for two strides.",
 "C33": "Output sample is a function of one pixel or block.",
 "C34": "Interval bounds by `omega` for all bytes; `C34_no_overflow` at the level of calls.",
 "C35": "Interval bounds.",
 "C36": "Linear arithmetic over the rationals against `Spec/Ideal`.",
 "C37": "The documented matrices of the README as rationals; false for Bt709 (finding 10). The theorems with `stored` in their names speak of converted images, on every processor.",
 "C38": "Linear arithmetic; false in full range (finding 5), other bound proved.",
 "C39": "`omega` for all bytes.",
 "C40": "False in full range (finding 5). The theorems with `stored` in their names speak of converted images, on every processor: with Cb up to 128 no processor wraps blue.",
 "C41": "Computation on the fixed-point functions for the four spaces; C41_encode_stored and C41_decode_stored carry it over to what conversions store, with C20, C39 and C23.",
 "C42": "Monotonicity of floor and clamp, applied to the exact formulas C20-C23; false of stored Cb on NEON and of stored blue on SSE2/AVX2 (findings 6, 8).",
 "C43": "Interval arithmetic of the two roundings.",
 "C44": "Mask lemma for `fix_to_u8_sat` for every 32-bit value.",
 "C45": "Stored byte equality from C20-C22; false for tight Bgr sources (finding 7).",
 "C46": "`C46_exact` states every stored byte; false for illegal codes (finding 6).",
 "C47": "From C26.",
 "C48": "As C45.",
 "C49": "As C46.",
 "C50": "From C26.",
 "C51": "False for exact ties (finding 8); exact criterion, distance at most one.",
 "C52": "False (finding 7); exact criterion for every valid call.",
 "C53": "`cpu_info::get` for an arbitrary CPUID function.",
 "C54": "Transition system of threads on `OnceLock`; invariant by induction on executions; every fair execution completes.",
 "C55": "Induction on histories of API calls with an arbitrary initial state of the cell.",
 "C56": "String functions on literal names; C string with terminator.",
 "C57": "C entry points on a memory of optional objects.",
 "C58": "Same, result equality with the Rust functions.",
 "C59": "False (findings 1, 4).",
 "C60": "Exact rational computation for the constants of the code.",
 "C61": "Same; false for the full-range offsets (finding 5).",
 "C62": "Interleavings of two write lists to disjoint buffers.",
 "C63": "`set_instruction_set` / hook model on literal names; false for `neon` on x86.",
 "C64": "Target with 32 bits; false: `DEPTH*w` wraps (finding 9).",
 "C65": "False (finding 11); exact set of failing processors from C53.",
 "C66": "Weakest-precondition calculus of the wrappers (`Lemmas/Wp*`): acceptance as an iff.",
 "C67": "Weakest precondition of every kernel (`Lemmas/Wp*`): no fault iff the reach of `Spec/Reach` fits.",
 "C68": "Same calculus: classification of the faults, exceptions as in C75.",
 "C69": "C23 and C36 composed: error of decoding, through the exact linear map, plus error of encoding is below 1.",
 "C70": "Full range: colour = luma + function of chroma; the 65536 chroma codes are exhausted in the kernel, luma symbolically.",
 "C71": "Interval arithmetic of the three roundings with clamping.",
 "C72": "The planes to be stored for a band are lines of the planes for the whole image; slices modelled as buffers without their first bytes.",
 "C73": "Pixel-wise description of the stored image (arithmetic of the instruction set at a column), compared at shifted coordinates.",
 "C74": "Congruence of every wrapper in the effective strides and the first buffers (Lemmas/Args); the wrapped row length of 32-bit builds is handled with the fact that strides are usize values.",
 "C75": "Weakest preconditions with an overflow clause plus the converse (`*_over` lemmas, `Lemmas/Overflow`).",
 "C76": "Combination of the error theorems with C66-C68 and C75; `Spec/Verdict` is the decision list.",
 "C77": "The decision list of C76 mentions the buffers only through their lengths.",
 "C78": "From C21 and C22: both samples are one rounding function of the weighted sums; min/max argument on the four sums.",
 "C79": "From C46_exact for both calls; the columns decoded by vector code are compared.",
 "C80": "The writes of a call are computed from sources and buffer lengths alone and applied afterwards (the model's K monad has no read of destinations because the code has none); each image byte of a valid call is painted.",
 "C81": "Validity and the room for vector groups are monotone in the lengths; source non-interference (C25), exact outputs and the frame theorem (C19).",
 "C82": "Pointwise results (C20-C22, C46) compared at two positions; the exceptions are equivalences.",
 "C83": "The packed tables are evaluated per format; checked arithmetic fails only with overflow and only if the exact sum does not fit, wrapping arithmetic is a homomorphism.",
 "C84": "C83 and the acceptance criterion C66; per kind of format an equivalence between polynomial inequalities.",
 "C85": "The C function is unfolded to a call of convert_image with slices of isize::MAX bytes (the elements behind the arrays are irrelevant, convert_image_with_agree), then C76.",
 "C86": "Monotonicity of the decision list of C76 in the lengths of the buffers.",
 "C87": "Spec/Header transcribes the header (numbers, tables, error lists) without using the Rust tables; the theorems reduce a raw C call to convert_image (dcp_convert_raw) and use the verdict theorems of C01-C05 and C57.",
 "C88": "Model/CString: a heap of blocks and the two functions on it; invariant over the actions of a program (live strings at distinct addresses with their size, everything else as in the beginning).",
 "C89": "The error of chroma and of full-range luma depends on two differences of the colour only; the kernel checks all pairs for which the linear part of the error is large (about 600000) and, for limited-range luma, about 250000 triples; elsewhere the linear bound decides.",
 "C90": "Red and blue: exhaustive check of 65536 sample pairs in the kernel, written with bare natural-number operations. Green in full range: luma contributes no error, 65536 chroma pairs. Green in limited range: lower bound by linear arithmetic; upper bound by chroma pairs, with every luma value for the few pairs where that is needed. Values out of range are clamped to the same end as the exact ones.",
 "C91": "The control flow of the C functions is followed with addresses (Model.CSlices, tied to Model.CApi by convertRefs_none); the shape of the references of any accepted call is determined (convertRefs_some), the rest is arithmetic.",
 "C92": "As C89, with differences of sums of four values: outside two boxes per sample the linear part bounds the error, inside the boxes all points are checked by the kernel (556000 in total).",
 "C93": "The exact worst errors of encoding (C89, C92) and decoding (C90) add up to less than the next integer in every case; in full range the decoder's shifted chroma centre is taken into account.",
 "C94": "Equal samples bound the three linear forms of the difference of the colours; the integer points of that small region are enumerated.",
 "C95": "The script is modelled line by line over the rationals. Its triple loops are shown to compute the maxima of C89; a single colour shows that the table not chosen is worse.",
 "C96": "From the exact formulas of C20, C21, C22 and C46; a turn of a picture of even size maps 2x2 blocks to 2x2 blocks (`turned_sum4`).",
 "C97": "Luma error of C89, chroma error of C92, decoding error of C90, and the identity that the exact decoding of the pixel's luma with the block's chroma is the luma-corrected average.",
 "C98": "The chroma coefficients add up to less than one, so that even differently rounded ties stay within d; decoding by integer arithmetic for each colour space.",
 "C99": "The chroma coefficients of each colour space add up to zero, the full-range luma coefficients to one; then the exact formulas of C20, C21, C22 and C46.",
 "C100": "`Model/Order` has the three conversions with the byte order of word accesses as a parameter; for little endian it is shown to be `Model/X86Rgb`. Two runs of different byte order are related by a simulation that ignores the values written (`K.Alike`). For big endian the writes of groups of eight pixels are computed symbolically.",
 "C101": "From C19 and C80 by choice of old contents: the writes of a call are independent of them, a write outside the image would overwrite a byte that C19 says is kept if the old byte is chosen different from the one written; a byte of the image that is not written would show old contents, which C80 excludes.",
 "C102": "`Model/Memory`: flat memory, buffers as address and length, write steps in any order. Invariant `Advance`: each image is as after the first writes of its own conversion; C101 keeps a step inside the own image; C104 says that bytes between the lines of a source, which other conversions may be changing, do not influence the writes.",
 "C103": "The writes of the kernels are characterised as a set (byte, value) by the lemmas behind C19-C27; the set is a function of the byte.",
 "C104": "Relational logic `K.Trace` on pairs of runs (`Lemmas/Trace*`): all kernels of all instruction sets, wrappers and the dispatcher, with contents of the sources left open; C77 for the ending; values from C103 and C25.",
 "C105": "C38 (error of decoding) and C36 (error of encoding) joined by linearity of the exact forward transform (`codeOf_close`). Specification in `Spec/Recolour`.",
 "C106": "The number of writes of every kernel is bounded by counting (`Lemmas/Count*`); since the places written are exactly the bytes of the image (C101) and these are different, equal numbers mean that no place is repeated. Specification in `Spec/Once`.",
 "C107": "The wrappers are run with arbitrary kernels in place of those of the crate (`Spec/Checks`): kernels that only fail show whether one is run. By induction over the shapes of the wrappers (`Lemmas/Checks`: `guarded_exec`) and the exact outcomes of C66 and C75.",
 "C108": "The kernels of the crate are run with destinations of length 0 (`Spec.blind`), so that the first store ends the call with its own fault; a panic that still is a panic happened before any store, and one that is not any more was preceded by a store (`Lemmas/Blind`). The causes of panics are those of C75.",
 "C109": "`Model/Display` has the texts, `Spec/Names` reads the layout off the printed text without the layout functions of `Spec.Image`. The enumerations are finite; the pixels are those of C20, C23, C24 and C26, the sizes those of C08 and C09.",
 "C110": "`Model/Align` repeats the NEON encoder with a fault at a misaligned word store. A relation between two runs that are equal if a condition holds and otherwise end in the fault (`Lemmas/Align`: `K.Twin`) is carried through the loops.",
 "C111": "Composition of C20-C23 and C35 (`received`: the receiver computes the documented function of the codes, without exception); with NEON luma is equal and chroma within one (C98), and the decoding functions change by the bounds when chroma changes by one. `Spec.SentTwice` and `Spec.Receives` describe the pictures.",
 "C112": "Composition of C20-C23 and C39 with equal sums of luma coefficients; the decoding functions at chroma 128 are evaluated for symbolic luma (`neutral_decode`).",
 "C113": "C112_decode after C20 and C39; distance and order of `greyTrip` by omega, for all integers or all bytes; the number of unchanged greys and the fixed codes by going through all 256.",
 "C114": "C112_decode after C20 and C39; `stretched` by omega for all integers.",
 "C115": "The chroma coefficients sum to zero, so the exact chroma changes sign; the stored codes are within half a unit of the exact ones on every processor (`stored_half_444`, `stored_half_420`). Luma by omega from C20.",
 "C116": "From C20, C21 and C22 with the eight colours evaluated in the four colour spaces; none is a chroma tie, so NEON agrees. Spec/Bars lists the codes as literals and C116_nearest compares them with the exact formulas of Spec/Ideal. Decoding from C23; blue does not wrap at these codes."
}