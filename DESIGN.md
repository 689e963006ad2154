# Formal model of dcv-color-primitives (Lean 4)

`DESIGN.md` is generated from `tools/DESIGN.in.md` and `tools/how.json` by `tools/design.py`;
`MANIFEST.json` from the theorems and `tools/notes.json` by `tools/manifest.py`.

## 1. What is modelled

| Rust source | Lean module under `lean/Verif` | Depth |
|---|---|---|
| `src/pixel_format.rs` | `Model/PixelFormat` | every function, `UInt32` bit operations |
| `src/dispatcher.rs` | `Model/Dispatcher` | every function |
| `src/cpu_info.rs` | `Model/CpuInfo` | every function; CPUID is an arbitrary function from leaf to registers |
| `src/convert_image/common.rs` | `Model/Common` | every function and constant used by the conversions |
| `src/convert_image/x86.rs` | `Model/X86`, `Model/X86Rgb`, `Model/X86Impl` | every kernel, statement by statement |
| word accesses of x86.rs on a big-endian target | `Model/Order` | the three conversions between RGB formats, byte order as a parameter (C100; all else is for little-endian targets, which x86 and AArch64 are) |
| `src/convert_image/sse2.rs` | `Model/Simd`, `Model/Sse2` | intrinsics as functions on bytes, helpers, kernels |
| `src/convert_image/avx2.rs` | `Model/Simd`, `Model/Avx2` | same |
| `src/convert_image/neon.rs` | `Model/Simd`, `Model/Neon` | same |
| the wrappers of the four files | `Model/Wrappers` | once, with the kernel as a parameter (they are textually the same) |
| `src/lib.rs`, `src/color_space.rs` | `Model/Api`, `Model/Lib`, `Model/Crate` | enums, `ImageFormat`, `convert_image`, `get_buffers_size`, `describe_acceleration`, the dispatch table, test hook |
| `OnceLock` and threads | `Model/Global`, `Model/Shared`, `Model/Memory` | transition systems: initialisation of the global state; interleaving of conversions on separate buffers (C62) and on buffers at addresses of one memory, which may overlap (C102) |
| `src/lib.rs`, `mod c_api` | `Model/CApi` | every function, raw pointers as optional objects of an abstract memory |
| same | `Model/CString`, `Model/CSlices` | the heap of strings handed to C programs; the slices and references made of raw pointers |
| `Display` of the enumerations | `Model/Display` | the printed texts |
| the NEON encoder to I420 | `Model/Align` | repeated, with destination buffers at addresses and word stores that demand aligned ones |
| `genweights.py` | `Model/GenWeights` | the computation of the tables and of the reference samples, over the rationals instead of floating point numbers; text output is a record |

Not modelled: Rust's type system (enum values of the Rust API are legal
by construction), allocation failure, the wasm stubs (they use the portable kernels), hardware memory
ordering (`OnceLock` is taken to be linearizable), `_mm_prefetch` (no effect on values), benches,
examples and tests. Accesses are checked, not the formation of pointers by `ptr.add`; every pointer the
kernels form is dereferenced, at its own address, so that a run without a faulting access forms no
pointer outside the buffers either.

### Semantics

* **usize**: `Target` fixes the number of bits and whether overflow checks are on. Every `+ - *` on
  sizes, strides and offsets that can exceed 32 bits goes through `t.add/sub/mul`, which fault
  (`Fault.overflow`) or wrap: in the wrappers, in the size computations, and in the kernels, where
  `wg_index t` computes the offset of every work item at the place where the code does. Loop counters
  and positions inside a line (below `2^35`) are natural numbers; on 32-bit targets, where a line may
  have more than `2^32` bytes, an access leaves the buffer before such a position reaches `2^32`. `Lemmas/Sim*` and `Lemmas/Ideal`
  prove that, for accepted calls, all kernels but those of findings 13 and 14 behave as with exact
  offsets: the first line whose exact offset leaves the buffer has an offset below `2^bits`.
* **i32**: integers with an explicit range check after every operation (`Fault.overflow`).
* **lanes of vectors**: bytes and 16/32-bit values with the wrapping or saturation of the instruction.
* **memory**: `Buf` is a length and a function from index to byte. Source buffers are `&[u8]` and
  cannot change. Destination buffers are addressed by plane and offset. No kernel reads a destination
  buffer, so a kernel is a computation in the monad `K` that reads sources and emits a list of
  writes, which are applied in order. Every access is checked against the slice from which its
  pointer was taken (`Fault.oobRead`, `Fault.oobWrite`).
* **loops**: structural recursion in the order of the source; `while` loops carry fuel, and running
  out of fuel is a fault that the theorems exclude.
* **panics**: `Fault` values; the result is `Except Fault (Result, destination buffers)`.

### Specification

`Spec/*` contains what the theorems are stated against. It imports the types of the API and the shape
of a call (`Model/Api`, `Model/Lib`), no kernel: `Api` (legal
formats, supported conversions, from the documentation), `Image` (pixels of an image in buffers),
`Valid`, `Room`, `Reach` (extent of images), `Color` (fixed-point colour functions as integers),
`Ideal` (exact rational formulas from Kr, Kb), `Gamut`, `Vector` (what the vector code stores where it
differs), `Verdict` (how a call ends, computable), `Sizes`, `Cpu`, `CArgs` (what C04-C10, C53-C58 are
stated with), `Result` (outcome of a call). The proofs are in `Lemmas/*`, the theorems of the properties
in `Props/*` only.

`Props/Golden` evaluates the portable model, inside the kernel, on the reference images of
tests/conversions.rs; the natively compiled model of all four instruction sets was also run on a
sample of these cases. These are tests of the model, not proofs of properties.

## 2. Trusted base

* The Lean 4.33.0 kernel. The theorems named `Cxx_*` depend on no axioms other than `propext`,
  `Classical.choice` and `Quot.sound`: C35_full, C35_no_truncation, C39_grey_luma, C42_luma,
  C42_chroma, C42_decode, C43_grey_pixel, C08_overflow, C10_counterexample on `propext` and `Quot.sound` only;
  C40_counterexample, C41_encode, C60_coefficients_of_code, C61_coefficients_of_code on none; all
  others on the three. `#print axioms` on any of them shows it. No own axioms, no `sorry`, no
  `native_decide`, no `bv_decide`.
* The correspondence of the model with /repo, by reading; each definition cites file and lines.
* The meaning given to the x86 and ARM intrinsics in `Model/Simd`, from the vendor manuals.
* For C110: `vst1_lane_u32` of `core::arch` assigns through its `*mut u32`, and the other memory accesses
  of the kernels are through pointers to bytes or by `read_unaligned`/`write_unaligned`.
* Rust semantics: wrapping and checked integer operations, `as` casts, slices, `OnceLock`.

## 3. Properties

"partial" means that the English statement is false of the code or proved under a condition; the
theorems then contain a witness (`_counterexample`) and what holds (`_partial`, criteria).

| Property | Theorems in `Props/` | Status | Model and proof |
|---|---|---|---|
| C01 Supported conversions are exactly the documented ones | Dispatch | proved | Model: `registered`, `convert_image`. Case analysis over all pairs of pixel formats and colour spaces against `Spec.Supported`, written from the documentation. |
| C02 Dispatch slots never collide and never leave the table | Dispatch | proved | `decide` over the complete finite table of registrations (exhaustive). |
| C03 Which error is reported is fully determined and prioritised | Dispatch | proved | Unfolds `convert_image` for symbolic arguments; the answer is the first failing check of the documented list. |
| C04 Image size constraints | Dispatch | proved | `is_compatible` on `UInt32`; bit lemmas for the parity masks. |
| C05 Plane-count constraints | CApi, Dispatch | proved | Same, on plane counts: consecutive numbers with product 0 mod 2^32. |
| C06 get_buffers_size: outcome and error cases | Sizes | proved | `get_buffers_size` unfolded for symbolic sizes and strides. |
| C07 get_buffers_size: failure leaves the output array untouched, success touches only the plane entries | Sizes | proved | Frame condition of the loop that writes the sizes. |
| C08 get_buffers_size: packed sizes are exact | Sizes | partial | Symbolic products; the literal claim fails where the true size is not representable (C08_overflow). |
| C09 get_buffers_size: custom strides, one size per plane | Sizes | proved | Loop invariant over planes. |
| C10 get_buffers_size reports the minimum size for single-buffer images with custom strides | Sizes | partial | False in the code (finding 4); witness, and the case that holds. |
| C11 Buffers of the reported size are always accepted | Bounds | partial | False in the code (findings 1, 4); witness, proved for packed layouts and sufficient strides. |
| C12 Undersized packed buffers are always rejected (colour-model conversions) | Bounds | proved | Arithmetic on `out_of_bounds` with the arguments the wrappers pass. |
| C13 Undersized buffers are always rejected (RGB<->RGB conversions) | Bounds | partial | False (finding 2); witnesses for reads and writes, exact acceptance criterion. |
| C14 Undersized strided buffers are always rejected | Bounds | partial | False (finding 1); witnesses for reads and writes, exact acceptance criterion. |
| C15 convert_image never touches memory outside the given buffers | Bounds, Exact | partial | False in general (C13, C14). Proved for every call whose planes fit; `C15_exact_partial` gives the exact condition. |
| C16 convert_image never panics | Bounds, Exact | partial | False (finding 3). Proved: what the remaining calls do. |
| C17 A failed conversion has no side effect | Dispatch | proved | The checks come before every write in the model of the wrappers; proved for every error answer. |
| C18 Empty images | Dispatch | proved | Early return of `convert_image`. |
| C19 Only the image area of the destination is written | Pixels | proved | The writes of every kernel are the graph of a function on the image area (`Lemmas/Paint`), then address injectivity. |
| C20 Luma is the documented fixed-point function of the pixel | Pixels | proved | Kernel invariants line by line, group by group (`Lemmas/*Enc`), stored byte = `Spec.luma` of the pixel. |
| C21 4:2:0 chroma is the documented function of the 2x2 block | Pixels | partial | Same for 2x2 blocks; NEON rounds exact ties up (finding 8). |
| C22 4:4:4 chroma is the documented function of the pixel | Pixels | partial | Same for I444. |
| C23 YCbCr->RGB pixels are the documented clamped function | Pixels | partial | Kernel invariants of the decoders; SSE2/AVX2 blue wraps (finding 6). |
| C24 Alpha is opaque | Pixels | proved | Same invariants, alpha component. |
| C25 Source alpha and source padding are irrelevant | Pixels | proved | Two runs with sources equal on the image: equal results. |
| C26 Channel shuffles are exact | Pixels | proved | Kernel invariants of the shuffles. |
| C27 Rgb->Bgra->Rgb round trip is the identity, Bgr->Rgb is an involution | Pixels | proved | C26 composed. |
| C28 Rgba output is Bgra output with red and blue exchanged | Pixels | partial | C23 applied to two destinations. |
| C29 The source pixel layout is irrelevant | Pixels | proved | C20-C22 applied to two layouts. |
| C30 I420 and Nv12 carry the same samples | Pixels | proved | C20-C23 applied to two formats. |
| C31 Single-plane and two-plane Nv12 are equivalent | Pixels | proved | Same, for one and two planes. |
| C32 Results do not depend on strides | Pixels | proved | Same, for two strides. |
| C33 Locality | Pixels | proved | Output sample is a function of one pixel or block. |
| C34 Fixed-point arithmetic never overflows | Numeric | proved | Interval bounds by `omega` for all bytes; `C34_no_overflow` at the level of calls. |
| C35 Forward transform stays in the legal range | Numeric | proved | Interval bounds. |
| C36 Forward transform accuracy | Numeric | proved | Linear arithmetic over the rationals against `Spec/Ideal`. |
| C37 Forward transform follows the documented formulas | Nominal, Numeric | partial | The documented matrices of the README as rationals; false for Bt709 (finding 10). The theorems with `stored` in their names speak of converted images, on every processor. |
| C38 Backward transform accuracy | Numeric | partial | Linear arithmetic; false in full range (finding 5), other bound proved. |
| C39 Greys encode to neutral chroma | Numeric | proved | `omega` for all bytes. |
| C40 Neutral chroma decodes to grey | Nominal, Numeric | partial | False in full range (finding 5). The theorems with `stored` in their names speak of converted images, on every processor: with Cb up to 128 no processor wraps blue. |
| C41 Black and white points | Nominal, Numeric | proved | Computation on the fixed-point functions for the four spaces; C41_encode_stored and C41_decode_stored carry it over to what conversions store, with C20, C39 and C23. |
| C42 Monotonicity | Monotone, Numeric | partial | Monotonicity of floor and clamp, applied to the exact formulas C20-C23; false of stored Cb on NEON and of stored blue on SSE2/AVX2 (findings 6, 8). |
| C43 Encode/decode round-trip error bound | Numeric | proved | Interval arithmetic of the two roundings. |
| C44 Saturation is exact clamping | Numeric | proved | Mask lemma for `fix_to_u8_sat` for every 32-bit value. |
| C45 SSE2 and scalar encode identically | Simd | partial | Stored byte equality from C20-C22; false for tight Bgr sources (finding 7). |
| C46 SSE2 and scalar decode identically | Simd | partial | `C46_exact` states every stored byte; false for illegal codes (finding 6). |
| C47 SSE2 and scalar shuffle identically | Simd | proved | From C26. |
| C48 AVX2 and scalar encode identically | Simd | partial | As C45. |
| C49 AVX2 and scalar decode identically | Simd | partial | As C46. |
| C50 AVX2 and scalar shuffle identically | Simd | proved | From C26. |
| C51 NEON and scalar convert identically | Simd | partial | False for exact ties (finding 8); exact criterion, distance at most one. |
| C52 Vector paths read only inside the source buffer (packed images) | Simd | partial | False (finding 7); exact criterion for every valid call. |
| C53 Instruction set selection is sound | Context | proved | `cpu_info::get` for an arbitrary CPUID function. |
| C54 One-time initialisation under concurrency | Context | proved | Transition system of threads on `OnceLock`; invariant by induction on executions; every fair execution completes. |
| C55 History independence | Context | proved | Induction on histories of API calls with an arbitrary initial state of the cell. |
| C56 describe_acceleration tells the truth and the C string is always produced | CApi, Context | proved | String functions on literal names; C string with terminator. |
| C57 C API: invalid arguments are rejected without effect | CApi | proved | C entry points on a memory of optional objects. |
| C58 C API agrees with the Rust API | CApi | proved | Same, result equality with the Rust functions. |
| C59 Overlapping rows are never accepted | Bounds | partial | False (findings 1, 4). |
| C60 Forward coefficients are those of the standards | Numeric | partial | Exact rational computation for the constants of the code. |
| C61 Backward coefficients are those of the standards | Numeric | partial | Same; false for the full-range offsets (finding 5). |
| C62 Thread-safety of concurrent conversions | Context | proved | Interleavings of two write lists to disjoint buffers. |
| C63 Instruction-set test hook selects the named set | Context | partial | `set_instruction_set` / hook model on literal names; false for `neon` on x86. |
| C64 32-bit targets: size computations | Bounds, Exact | partial | Target with 32 bits; false: `DEPTH*w` wraps (finding 9). |
| C65 AVX2 only when it can be used | Context | partial | False (finding 11); exact set of failing processors from C53. |
| C66 Exactly when NotEnoughData is answered | Exact | proved | Weakest-precondition calculus of the wrappers (`Lemmas/Wp*`): acceptance as an iff. |
| C67 Exactly which calls succeed | Exact | proved | Weakest precondition of every kernel (`Lemmas/Wp*`): no fault iff the reach of `Spec/Reach` fits. |
| C68 An accepted call that does not succeed leaves a buffer, it does not panic | Exact | proved | Same calculus: classification of the faults, exceptions as in C75. |
| C69 Transcoding through RGB loses nothing in limited range | Transcode | proved | C23 and C36 composed: error of decoding, through the exact linear map, plus error of encoding is below 1. |
| C70 Every full-range generation shifts chroma by one | Drift | proved | Full range: colour = luma + function of chroma; the 65536 chroma codes are exhausted in the kernel, luma symbolically. |
| C71 Generation loss is bounded | Generation | proved | Interval arithmetic of the three roundings with clamping. |
| C72 Bands of lines can be converted separately | Bands | proved | The planes to be stored for a band are lines of the planes for the whole image; slices modelled as buffers without their first bytes. |
| C73 Converting a part of an image | Tiles | proved | Pixel-wise description of the stored image (arithmetic of the instruction set at a column), compared at shifted coordinates. |
| C74 Packed strides may be left out; superfluous strides and buffers are ignored | Arguments | proved | Congruence of every wrapper in the effective strides and the first buffers (Lemmas/Args); the wrapped row length of 32-bit builds is handled with the fact that strides are usize values. |
| C75 Exactly when convert_image panics | Exact | proved | Weakest preconditions with an overflow clause plus the converse (`*_over` lemmas, `Lemmas/Overflow`). |
| C76 The ending of every call is decided by sizes, formats, strides and buffer lengths | Verdict | proved | Combination of the error theorems with C66-C68 and C75; `Spec/Verdict` is the decision list. |
| C77 Pixel data do not influence how a call ends | Verdict | proved | The decision list of C76 mentions the buffers only through their lengths. |
| C78 Subsampled chroma lies between the chroma of the four pixels | Sampling | proved | From C21 and C22: both samples are one rounding function of the weighted sums; min/max argument on the four sums. |
| C79 Decoding 4:2:0 is decoding 4:4:4 with repeated chroma | Sampling | partial | From C46_exact for both calls; the columns decoded by vector code are compared. |
| C80 Old contents of the destination do not matter | Overwrite | proved | The writes of a call are computed from sources and buffer lengths alone and applied afterwards (the model's K monad has no read of destinations because the code has none); each image byte of a valid call is painted. |
| C81 Longer buffers change nothing | Overwrite | proved | Validity and the room for vector groups are monotone in the lengths; source non-interference (C25), exact outputs and the frame theorem (C19). |
| C82 Equal pixels get equal results, wherever they are | Uniform | partial | Pointwise results (C20-C22, C46) compared at two positions; the exceptions are equivalences. |
| C83 get_buffers_size, exactly | Reported | proved | The packed tables are evaluated per format; checked arithmetic fails only with overflow and only if the exact sum does not fit, wrapping arithmetic is a homomorphism. |
| C84 Buffers of exactly the reported size hold the image and are accepted | Reported | partial | C83 and the acceptance criterion C66; per kind of format an equivalence between polynomial inequalities. |
| C85 dcp_convert_image cannot see the size of the buffers | CSizes | proved | The C function is unfolded to a call of convert_image with slices of isize::MAX bytes (the elements behind the arrays are irrelevant, convert_image_with_agree), then C76. |
| C86 Longer buffers never turn a success into a failure | Growth | proved | Monotonicity of the decision list of C76 in the lengths of the buffers. |
| C87 The C functions answer with the numbers the header documents | Header | partial | Spec/Header transcribes the header (numbers, tables, error lists) without using the Rust tables; the theorems reduce a raw C call to convert_image (dcp_convert_raw) and use the verdict theorems of C01-C05 and C57. |
| C88 Strings handed to C programs can be released exactly once and never leak or corrupt the heap | CString | proved | Model/CString: a heap of blocks and the two functions on it; invariant over the actions of a program (live strings at distinct addresses with their size, everything else as in the beginning). |
| C89 The largest errors of encoding are known exactly | Worst | proved | The error of chroma and of full-range luma depends on two differences of the colour only; the kernel checks all pairs for which the linear part of the error is large (about 600000) and, for limited-range luma, about 250000 triples; elsewhere the linear bound decides. |
| C90 The largest errors of decoding are known exactly | WorstDecode | proved | Red and blue: exhaustive check of 65536 sample pairs in the kernel, written with bare natural-number operations. Green in full range: luma contributes no error, 65536 chroma pairs. Green in limited range: lower bound by linear arithmetic; upper bound by chroma pairs, with every luma value for the few pairs where that is needed. Values out of range are clamped to the same end as the exact ones. |
| C91 The references formed by the C functions are ones Rust permits | CSlices | partial | The control flow of the C functions is followed with addresses (Model.CSlices, tied to Model.CApi by convertRefs_none); the shape of the references of any accepted call is determined (convertRefs_some), the rest is arithmetic. |
| C92 The largest error of 4:2:0 chroma is known exactly | WorstBlock | proved | As C89, with differences of sums of four values: outside two boxes per sample the linear part bounds the error, inside the boxes all points are checked by the kernel (556000 in total). |
| C93 How much a colour changes when it is encoded and decoded, exactly | Trip | proved | The exact worst errors of encoding (C89, C92) and decoding (C90) add up to less than the next integer in every case; in full range the decoder's shifted chroma centre is taken into account. |
| C94 Which colours cannot be told apart once they are encoded | Same | proved | Equal samples bound the three linear forms of the difference of the colours; the integer points of that small region are enumerated. |
| C95 The coefficient tables are those computed by genweights.py | GenWeights | proved | The script is modelled line by line over the rationals. Its triple loops are shown to compute the maxima of C89; a single colour shows that the table not chosen is worse. |
| C96 Mirrored, flipped, transposed and rotated pictures convert to mirrored, flipped, transposed and rotated pictures | Turn | partial | From the exact formulas of C20, C21, C22 and C46; a turn of a picture of even size maps 2x2 blocks to 2x2 blocks (`turned_sum4`). |
| C97 What 4:2:0 makes of a picture | Block | proved | Luma error of C89, chroma error of C92, decoding error of C90, and the identity that the exact decoding of the pixel's luma with the block's chroma is the luma-corrected average. |
| C98 Small changes of the picture make small changes of the result | Smooth | partial | The chroma coefficients add up to less than one, so that even differently rounded ties stay within d; decoding by integer arithmetic for each colour space. |
| C99 Making a picture lighter changes luma only | Brighten | partial | The chroma coefficients of each colour space add up to zero, the full-range luma coefficients to one; then the exact formulas of C20, C21, C22 and C46. |
| C100 The byte order of the target does not matter | Order | partial | `Model/Order` has the three conversions with the byte order of word accesses as a parameter; for little endian it is shown to be `Model/X86Rgb`. Two runs of different byte order are related by a simulation that ignores the values written (`K.Alike`). For big endian the writes of groups of eight pixels are computed symbolically. |
| C101 Every single write of a conversion is to the image, at every moment | Memory | proved | From C19 and C80 by choice of old contents: the writes of a call are independent of them, a write outside the image would overwrite a byte that C19 says is kept if the old byte is chosen different from the one written; a byte of the image that is not written would show old contents, which C80 excludes. |
| C102 Images may be interleaved in one memory | Parallel | proved | `Model/Memory`: flat memory, buffers as address and length, write steps in any order. Invariant `Advance`: each image is as after the first writes of its own conversion; C101 keeps a step inside the own image; C104 says that bytes between the lines of a source, which other conversions may be changing, do not influence the writes. |
| C103 No intermediate values in the destination | Parallel, Transient | proved | The writes of the kernels are characterised as a set (byte, value) by the lemmas behind C19-C27; the set is a function of the byte. |
| C104 The sequence of stores does not depend on the picture | Trace | proved | Relational logic `K.Trace` on pairs of runs (`Lemmas/Trace*`): all kernels of all instruction sets, wrappers and the dispatcher, with contents of the sources left open; C77 for the ending; values from C103 and C25. |
| C105 Changing the colour space through RGB is accurate | Recolour | proved | C38 (error of decoding) and C36 (error of encoding) joined by linearity of the exact forward transform (`codeOf_close`). Specification in `Spec/Recolour`. |
| C106 Every byte of the image is stored exactly once, except by the 24-bit AVX2 decoder | Once | proved | The number of writes of every kernel is bounded by counting (`Lemmas/Count*`); since the places written are exactly the bytes of the image (C101) and these are different, equal numbers mean that no place is repeated. Specification in `Spec/Once`. |
| C107 No pixel is read or written before all checks have passed | Checks | proved | The wrappers are run with arbitrary kernels in place of those of the crate (`Spec/Checks`): kernels that only fail show whether one is run. By induction over the shapes of the wrappers (`Lemmas/Checks`: `guarded_exec`) and the exact outcomes of C66 and C75. |
| C108 A call that panics has not changed the destination | Checks | partial | The kernels of the crate are run with destinations of length 0 (`Spec.blind`), so that the first store ends the call with its own fault; a panic that still is a panic happened before any store, and one that is not any more was preceded by a store (`Lemmas/Blind`). The causes of panics are those of C75. |
| C109 Printed names identify a value and describe the memory layout | Display | proved | `Model/Display` has the texts, `Spec/Names` reads the layout off the printed text without the layout functions of `Spec.Image`. The enumerations are finite; the pixels are those of C20, C23, C24 and C26, the sizes those of C08 and C09. |
| C110 Buffers need no particular alignment | Align | partial | `Model/Align` repeats the NEON encoder with a fault at a misaligned word store. A relation between two runs that are equal if a condition holds and otherwise end in the fault (`Lemmas/Align`: `K.Twin`) is carried through the loops. |
| C111 A picture looks the same whichever processors encode and decode it | Pipeline | proved | Composition of C20-C23 and C35 (`received`: the receiver computes the documented function of the codes, without exception); with NEON luma is equal and chroma within one (C98), and the decoding functions change by the bounds when chroma changes by one. `Spec.SentTwice` and `Spec.Receives` describe the pictures. |
| C112 For grey pictures it does not matter whether Bt601 or Bt709 is chosen | Grey | proved | Composition of C20-C23 and C39 with equal sums of luma coefficients; the decoding functions at chroma 128 are evaluated for symbolic luma (`neutral_decode`). |
| C113 Grey pictures survive encoding and decoding | GreyTrip | proved | C112_decode after C20 and C39; distance and order of `greyTrip` by omega, for all integers or all bytes; the number of unchanged greys and the fixed codes by going through all 256. |
| C114 What mistaking the range does to grey pictures | GreyTrip | proved | C112_decode after C20 and C39; `stretched` by omega for all integers. |
| C115 The negative of a picture has the complementary codes | Negative | proved | The chroma coefficients sum to zero, so the exact chroma changes sign; the stored codes are within half a unit of the exact ones on every processor (`stored_half_444`, `stored_half_420`). Luma by omega from C20. |
| C116 Colour bars get the codes of the standards | Bars | proved | From C20, C21 and C22 with the eight colours evaluated in the four colour spaces; none is a chroma tie, so NEON agrees. Spec/Bars lists the codes as literals and C116_nearest compares them with the exact formulas of Spec/Ideal. Decoding from C23; blue does not wrap at these codes. |

## 4. Findings in the code

Each is a theorem (a counterexample or an exact criterion) unless marked as a remark.

1. **Bounds check with swapped arguments.** The wrappers call `out_of_bounds(len, stride, h-1, row)`
   although the parameters are `(size, width, height_minus_one, stride)`: a plane is accepted iff
   `stride + row*(h-1) <= len`, while the kernels touch `stride*(h-1) + row`. For `stride > row` and
   `h >= 3` too small buffers are accepted and memory outside is read and written, from safe code
   (C14, C66, C67).
2. The RGB to RGB wrappers pass the width in pixels instead of bytes, so that even packed buffers that
   are too small are accepted: Bgr->Rgb 1x2 accepts 4 bytes and needs 6 (C13).
3. `rgb_to_bgra` and `bgra_to_rgb` compute `stride - depth*width`, which underflows for a stride
   smaller than a line (C16).
4. `get_buffers_size` for single-buffer images with custom strides adds the sizes of the pseudo
   planes: too large for RGB, too small for `convert_image` for Nv12 with one stride (C10, C11).
5. Full-range decoding centres chroma at 127 (genweights.py: `(0+255)>>1`), encoding at 128: neutral
   grey gets a cast (C40, C61), and every decode/encode generation shifts Cb by one (C70).
6. SSE2/AVX2 limited-range decoding wraps in 16 bits for bright blue: Y=255, Cb=255 gives 0 (C46, C49).
7. SSE2 (AVX2) Bgr encoders load 16 (32) bytes for 12 (24) needed ones and read 4 (8) bytes behind the
   end of a tight buffer (C52, C67).
8. NEON rounds chroma ties up, the other paths round them down (C51).
9. 32-bit targets: `DEPTH*w` wraps (C64).
10. Remark: documentation: I422 is said to accept one plane (C05: only three are accepted); printed
    Bt709 coefficients are those of full range (C37).
11. CPUID leaf 7 is read without checking the highest leaf, and OSXSAVE/XCR0 is not checked (C65).
12. The test hook accepts the name `neon` on an x86 processor with AVX2 and selects SSE2 (C63).
13. AVX2 Bgra->Rgb with fewer than 8 pixels per line may panic in checked builds on `stride*(h-1)`
    before any access (C68).
14. The vectorised 4:2:0 encoders (SSE2, AVX2, NEON) compute the offsets of two lines before they
    access the first: with at least four lines and `3*stride >= 2^bits` checked builds panic, where
    other kernels access memory outside the buffer (C68, C75).
15. A consequence of 6: on SSE2/AVX2 repeating every chroma sample of an I420 image to get the I444
    image with the same YUV triples changes the decoded picture, since the number of columns in the
    vector part differs and only that part wraps (C79).
16. A consequence of 6 and of NEON's rounding of ties: a flat area need not stay flat. On SSE2/AVX2 a
    line of pixels with the same out-of-range codes decodes to two colours, on NEON a one-coloured
    picture can be encoded with two chroma values; the border is where the vector part ends (C82).
17. A single line with a stride smaller than the width in pixels: the size reported by
    `get_buffers_size` is too small for the image, is accepted, and the conversion leaves the buffer
    (C84). A single-plane Nv12 buffer of the reported size is accepted only for packed lines (C84).
18. Without overflow checks a single-plane Nv12 image whose `stride*height` exceeds `usize` can be
    accepted, by the wrapped sizes, and the conversion then leaves the buffer (C66, C76). With a stride
    smaller than a line Rgb->Bgra wraps around as intended, but the last group of eight pixels reads
    two bytes beyond the line on every line but the last (C67).
19. Big-endian targets (s390x, some PowerPC): the crate compiles, but the portable conversions between
    RGB formats assume that words are little-endian. Rgb->Bgra stores blue 255 and shifted colours,
    Bgr->Rgb and Bgra->Rgb mix up groups of eight pixels; encoding and decoding are right (C100).
20. neon.rs:310-311 stores 32-bit lanes through a `*mut u8` cast to `*mut u32` at places that need not be
    aligned to four bytes. The instruction allows it, the language does not (C110). Already a packed
    image of 10 by 4 pixels is concerned.

## 5. Wrong versions of the model

`seeded/LOG.jsonl` has one line for each deliberate error put into a scratch copy of the model. In the
entries whose definition is in `Spec/Color.lean` only a coefficient table of the specification was edited
and only the arithmetic lemmas of C111-C116 were checked again, not the project; their `theorems_failed`
are listed by hand. The fields mean:

* `first_failing_declarations`: what Lean rejected. The build stops there, so these are mostly lemmas
  about the edited definition and seldom property theorems.
* `theorems_failed`: the property theorems whose proofs use one of these declarations, computed from
  the dependencies in the unchanged project. They are no longer proved. This does not show that their
  statements are false of the edited model: an error in one kernel takes along every theorem that
  rests on the description of all kernels, for instance theorems about other instruction sets.
* `statements_refuted`: calls, found by evaluation, for which the conclusion of a property is false in
  the edited model although its hypotheses hold. Only this field shows that a statement excludes the
  error. `tools/refute.lean.txt` evaluates C19-C26, C45-C52, C101,
  C103, C104 and success of valid calls with room behind the source (`C67`) on 592 calls, among
  them pictures of chroma ties; earlier entries were made with shorter versions of it. It is a test of the
  statements, not a proof, and is no part of the Lake project. `tools/evaluable.py` prepares the
  copy: vector registers become arrays, because evaluating nested functions takes exponential time.
  On the unchanged model it reports nothing.
  `tools/refute2.lean.txt` does the same for the rest of the library: how 3000 calls end (C76; most of
  them illegal, or with strides and buffers near the limits, on 32- and 64-bit targets, with and without
  overflow checks), 6000 calls of `get_buffers_size` and of its C counterpart (C04-C10, C57, C58), 400
  of `dcp_convert_image`, the dispatch table (C02), selection and names of instruction sets (C53, C56),
  the tables of coefficients (C60, C61) and the test hook (C63).
* `refutation`: `found`, `none found` (the cases evaluated do not reach the error, or it concerns
  another property), or `not attempted`.
* `does_not_compile`: the edit was not a program; the attempt says nothing.
