# Formal model of dcv-color-primitives (Lean 4)

`DESIGN.md` is generated from `tools/DESIGN.in.md` and `tools/how.json` by `tools/design.py`;
`MANIFEST.json` from the theorems and `tools/notes.json` by `tools/manifest.py`.

## 1. What is modelled

| Rust source | Lean module under `lean/Verif` | Depth |
|---|---|---|
| `src/pixel_format.rs` | `Model/PixelFormat` | every function, `UInt32` bit operations |
| `src/dispatcher.rs` | `Model/Dispatcher` | every function |
| `src/cpu_info.rs` | `Model/CpuInfo` | every function; CPUID is an arbitrary function from leaf to registers |
| `src/convert_image/common.rs` | `Model/Common` | every function and constant used by the conversions |
| `src/convert_image/x86.rs` | `Model/X86`, `Model/X86Rgb`, `Model/X86Impl` | every kernel, statement by statement |
| word accesses of x86.rs on a big-endian target | `Model/Order` | the three conversions between RGB formats, byte order as a parameter (C100; all else is for little-endian targets, which x86 and AArch64 are) |
| `src/convert_image/sse2.rs` | `Model/Simd`, `Model/Sse2` | intrinsics as functions on bytes, helpers, kernels |
| `src/convert_image/avx2.rs` | `Model/Simd`, `Model/Avx2` | same |
| `src/convert_image/neon.rs` | `Model/Simd`, `Model/Neon` | same |
| the wrappers of the four files | `Model/Wrappers` | once, with the kernel as a parameter (they are textually the same) |
| `src/lib.rs`, `src/color_space.rs` | `Model/Api`, `Model/Lib`, `Model/Crate` | enums, `ImageFormat`, `convert_image`, `get_buffers_size`, `describe_acceleration`, the dispatch table, test hook |
| `OnceLock` and threads | `Model/Global`, `Model/Shared`, `Model/Memory` | transition systems: initialisation of the global state; interleaving of conversions on separate buffers (C62) and on buffers at addresses of one memory, which may overlap (C102) |
| `src/lib.rs`, `mod c_api` | `Model/CApi` | every function, raw pointers as optional objects of an abstract memory |
| same | `Model/CString`, `Model/CSlices` | the heap of strings handed to C programs; the slices and references made of raw pointers |
| `Display` of the enumerations | `Model/Display` | the printed texts |
| the NEON encoder to I420 | `Model/Align` | repeated, with destination buffers at addresses and word stores that demand aligned ones |
| `genweights.py` | `Model/GenWeights` | the computation of the tables and of the reference samples, over the rationals instead of floating point numbers; text output is a record |

Not modelled: Rust's type system (enum values of the Rust API are legal
by construction), allocation failure, the wasm stubs (they use the portable kernels), hardware memory
ordering (`OnceLock` is taken to be linearizable), `_mm_prefetch` (no effect on values), benches,
examples and tests. Accesses are checked, not the formation of pointers by `ptr.add`; every pointer the
kernels form is dereferenced, at its own address, so that a run without a faulting access forms no
pointer outside the buffers either.

### Semantics

* **usize**: `Target` fixes the number of bits and whether overflow checks are on. Every `+ - *` on
  sizes, strides and offsets that can exceed 32 bits goes through `t.add/sub/mul`, which fault
  (`Fault.overflow`) or wrap: in the wrappers, in the size computations, and in the kernels, where
  `wg_index t` computes the offset of every work item at the place where the code does. Loop counters
  and positions inside a line (below `2^35`) are natural numbers; on 32-bit targets, where a line may
  have more than `2^32` bytes, an access leaves the buffer before such a position reaches `2^32`. `Lemmas/Sim*` and `Lemmas/Ideal`
  prove that, for accepted calls, all kernels but those of findings 13 and 14 behave as with exact
  offsets: the first line whose exact offset leaves the buffer has an offset below `2^bits`.
* **i32**: integers with an explicit range check after every operation (`Fault.overflow`).
* **lanes of vectors**: bytes and 16/32-bit values with the wrapping or saturation of the instruction.
* **memory**: `Buf` is a length and a function from index to byte. Source buffers are `&[u8]` and
  cannot change. Destination buffers are addressed by plane and offset. No kernel reads a destination
  buffer, so a kernel is a computation in the monad `K` that reads sources and emits a list of
  writes, which are applied in order. Every access is checked against the slice from which its
  pointer was taken (`Fault.oobRead`, `Fault.oobWrite`).
* **loops**: structural recursion in the order of the source; `while` loops carry fuel, and running
  out of fuel is a fault that the theorems exclude.
* **panics**: `Fault` values; the result is `Except Fault (Result, destination buffers)`.

### Specification

`Spec/*` contains what the theorems are stated against. It imports the types of the API and the shape
of a call (`Model/Api`, `Model/Lib`), no kernel: `Api` (legal
formats, supported conversions, from the documentation), `Image` (pixels of an image in buffers),
`Valid`, `Room`, `Reach` (extent of images), `Color` (fixed-point colour functions as integers),
`Ideal` (exact rational formulas from Kr, Kb), `Gamut`, `Vector` (what the vector code stores where it
differs), `Verdict` (how a call ends, computable), `Sizes`, `Cpu`, `CArgs` (what C04-C10, C53-C58 are
stated with), `Result` (outcome of a call). The proofs are in `Lemmas/*`, the theorems of the properties
in `Props/*` only.

`Props/Golden` evaluates the portable model, inside the kernel, on the reference images of
tests/conversions.rs; the natively compiled model of all four instruction sets was also run on a
sample of these cases. These are tests of the model, not proofs of properties.

## 2. Trusted base

* The Lean 4.33.0 kernel. The theorems named `Cxx_*` depend on no axioms other than `propext`,
  `Classical.choice` and `Quot.sound`: C35_full, C35_no_truncation, C39_grey_luma, C42_luma,
  C42_chroma, C42_decode, C43_grey_pixel, C08_overflow, C10_counterexample on `propext` and `Quot.sound` only;
  C40_counterexample, C41_encode, C60_coefficients_of_code, C61_coefficients_of_code on none; all
  others on the three. `#print axioms` on any of them shows it. No own axioms, no `sorry`, no
  `native_decide`, no `bv_decide`.
* The correspondence of the model with /repo, by reading; each definition cites file and lines.
* The meaning given to the x86 and ARM intrinsics in `Model/Simd`, from the vendor manuals.
* For C110: `vst1_lane_u32` of `core::arch` assigns through its `*mut u32`, and the other memory accesses
  of the kernels are through pointers to bytes or by `read_unaligned`/`write_unaligned`.
* Rust semantics: wrapping and checked integer operations, `as` casts, slices, `OnceLock`.

## 3. Properties

"partial" means that the English statement is false of the code or proved under a condition; the
theorems then contain a witness (`_counterexample`) and what holds (`_partial`, criteria).

| Property | Theorems in `Props/` | Status | Model and proof |
|---|---|---|---|
@TABLE@

## 4. Findings in the code

Each is a theorem (a counterexample or an exact criterion) unless marked as a remark.

1. **Bounds check with swapped arguments.** The wrappers call `out_of_bounds(len, stride, h-1, row)`
   although the parameters are `(size, width, height_minus_one, stride)`: a plane is accepted iff
   `stride + row*(h-1) <= len`, while the kernels touch `stride*(h-1) + row`. For `stride > row` and
   `h >= 3` too small buffers are accepted and memory outside is read and written, from safe code
   (C14, C66, C67).
2. The RGB to RGB wrappers pass the width in pixels instead of bytes, so that even packed buffers that
   are too small are accepted: Bgr->Rgb 1x2 accepts 4 bytes and needs 6 (C13).
3. `rgb_to_bgra` and `bgra_to_rgb` compute `stride - depth*width`, which underflows for a stride
   smaller than a line (C16).
4. `get_buffers_size` for single-buffer images with custom strides adds the sizes of the pseudo
   planes: too large for RGB, too small for `convert_image` for Nv12 with one stride (C10, C11).
5. Full-range decoding centres chroma at 127 (genweights.py: `(0+255)>>1`), encoding at 128: neutral
   grey gets a cast (C40, C61), and every decode/encode generation shifts Cb by one (C70).
6. SSE2/AVX2 limited-range decoding wraps in 16 bits for bright blue: Y=255, Cb=255 gives 0 (C46, C49).
7. SSE2 (AVX2) Bgr encoders load 16 (32) bytes for 12 (24) needed ones and read 4 (8) bytes behind the
   end of a tight buffer (C52, C67).
8. NEON rounds chroma ties up, the other paths round them down (C51).
9. 32-bit targets: `DEPTH*w` wraps (C64).
10. Remark: documentation: I422 is said to accept one plane (C05: only three are accepted); printed
    Bt709 coefficients are those of full range (C37).
11. CPUID leaf 7 is read without checking the highest leaf, and OSXSAVE/XCR0 is not checked (C65).
12. The test hook accepts the name `neon` on an x86 processor with AVX2 and selects SSE2 (C63).
13. AVX2 Bgra->Rgb with fewer than 8 pixels per line may panic in checked builds on `stride*(h-1)`
    before any access (C68).
14. The vectorised 4:2:0 encoders (SSE2, AVX2, NEON) compute the offsets of two lines before they
    access the first: with at least four lines and `3*stride >= 2^bits` checked builds panic, where
    other kernels access memory outside the buffer (C68, C75).
15. A consequence of 6: on SSE2/AVX2 repeating every chroma sample of an I420 image to get the I444
    image with the same YUV triples changes the decoded picture, since the number of columns in the
    vector part differs and only that part wraps (C79).
16. A consequence of 6 and of NEON's rounding of ties: a flat area need not stay flat. On SSE2/AVX2 a
    line of pixels with the same out-of-range codes decodes to two colours, on NEON a one-coloured
    picture can be encoded with two chroma values; the border is where the vector part ends (C82).
17. A single line with a stride smaller than the width in pixels: the size reported by
    `get_buffers_size` is too small for the image, is accepted, and the conversion leaves the buffer
    (C84). A single-plane Nv12 buffer of the reported size is accepted only for packed lines (C84).
18. Without overflow checks a single-plane Nv12 image whose `stride*height` exceeds `usize` can be
    accepted, by the wrapped sizes, and the conversion then leaves the buffer (C66, C76). With a stride
    smaller than a line Rgb->Bgra wraps around as intended, but the last group of eight pixels reads
    two bytes beyond the line on every line but the last (C67).
19. Big-endian targets (s390x, some PowerPC): the crate compiles, but the portable conversions between
    RGB formats assume that words are little-endian. Rgb->Bgra stores blue 255 and shifted colours,
    Bgr->Rgb and Bgra->Rgb mix up groups of eight pixels; encoding and decoding are right (C100).
20. neon.rs:310-311 stores 32-bit lanes through a `*mut u8` cast to `*mut u32` at places that need not be
    aligned to four bytes. The instruction allows it, the language does not (C110). Already a packed
    image of 10 by 4 pixels is concerned.

## 5. Wrong versions of the model

`seeded/LOG.jsonl` has one line for each deliberate error put into a scratch copy of the model. In the
entries whose definition is in `Spec/Color.lean` only a coefficient table of the specification was edited
and only the arithmetic lemmas of C111-C116 were checked again, not the project; their `theorems_failed`
are listed by hand. The fields mean:

* `first_failing_declarations`: what Lean rejected. The build stops there, so these are mostly lemmas
  about the edited definition and seldom property theorems.
* `theorems_failed`: the property theorems whose proofs use one of these declarations, computed from
  the dependencies in the unchanged project. They are no longer proved. This does not show that their
  statements are false of the edited model: an error in one kernel takes along every theorem that
  rests on the description of all kernels, for instance theorems about other instruction sets.
* `statements_refuted`: calls, found by evaluation, for which the conclusion of a property is false in
  the edited model although its hypotheses hold. Only this field shows that a statement excludes the
  error. `tools/refute.lean.txt` evaluates C19-C26, C45-C52, C101,
  C103, C104 and success of valid calls with room behind the source (`C67`) on 592 calls, among
  them pictures of chroma ties; earlier entries were made with shorter versions of it. It is a test of the
  statements, not a proof, and is no part of the Lake project. `tools/evaluable.py` prepares the
  copy: vector registers become arrays, because evaluating nested functions takes exponential time.
  On the unchanged model it reports nothing.
  `tools/refute2.lean.txt` does the same for the rest of the library: how 3000 calls end (C76; most of
  them illegal, or with strides and buffers near the limits, on 32- and 64-bit targets, with and without
  overflow checks), 6000 calls of `get_buffers_size` and of its C counterpart (C04-C10, C57, C58), 400
  of `dcp_convert_image`, the dispatch table (C02), selection and names of instruction sets (C53, C56),
  the tables of coefficients (C60, C61) and the test hook (C63).
* `refutation`: `found`, `none found` (the cases evaluated do not reach the error, or it concerns
  another property), or `not attempted`.
* `does_not_compile`: the edit was not a program; the attempt says nothing.
