import Verif.Model.Common
/-!
# Vector registers and the x86 vector instructions used by `sse2.rs` and `avx2.rs`

A register is a function from byte positions to bytes (little endian): positions `0..15` of a
128-bit register, `0..31` of a 256-bit register; what lies beyond the width of the register is
never stored. Every AVX2 instruction used by the crate, except the explicit lane permutations, works
on each 128-bit half in the way the SSE2/SSSE3 instruction of the same name works on the whole
register. One definition therefore serves the `_mm_` and the `_mm256_` form; byte `i` belongs to
half `i / 16`.

These definitions transcribe the operation sections of the Intel intrinsics guide; they are part of
the trusted base (see DESIGN.md).
-/

namespace Verif.Simd

/-- A vector register, as bytes. -/
abbrev Reg := Nat → UInt8

/-- The 16-bit lane `k`, unsigned. -/
def w16 (r : Reg) (k : Nat) : Nat := (r (2 * k)).toNat + 256 * (r (2 * k + 1)).toNat

/-- The 32-bit lane `k`, unsigned. -/
def w32 (r : Reg) (k : Nat) : Nat :=
  (r (4 * k)).toNat + 256 * (r (4 * k + 1)).toNat + 65536 * (r (4 * k + 2)).toNat +
    16777216 * (r (4 * k + 3)).toNat

/-- Register with given 16-bit lanes (reduced modulo 2^16). -/
def ofW16 (f : Nat → Nat) : Reg := fun i => UInt8.ofNat (f (i / 2) / 256 ^ (i % 2))

/-- Register with given 32-bit lanes (reduced modulo 2^32). -/
def ofW32 (f : Nat → Nat) : Reg := fun i => UInt8.ofNat (f (i / 4) / 256 ^ (i % 4))

/-- Two's complement reading of a 16-bit value. -/
def s16 (n : Nat) : Int := if n < 32768 then n else (n : Int) - 65536

/-- Two's complement reading of a 32-bit value. -/
def s32 (n : Nat) : Int := if n < 2147483648 then n else (n : Int) - 4294967296

/-- Two's complement representation of an integer (wrapping) on 16 bits. -/
def enc16 (x : Int) : Nat := (x % 65536).toNat

/-- Two's complement representation of an integer (wrapping) on 32 bits. -/
def enc32 (x : Int) : Nat := (x % 4294967296).toNat

/-- Signed saturation to 16 bits. -/
def satS16 (x : Int) : Int := max (-32768) (min 32767 x)

/-- Unsigned saturation to 8 bits. -/
def satU8 (x : Int) : Nat := (max 0 (min 255 x)).toNat

/-! ## Constants -/

/-- `_mm_setzero_si128`, `_mm256_setzero_si256` -/
def setzero : Reg := fun _ => 0

/-- `set1_epi16` -/
def set1_epi16 (x : Int) : Reg := ofW16 fun _ => enc16 x

/-- `set1_epi32` -/
def set1_epi32 (x : Int) : Reg := ofW32 fun _ => enc32 x

/-- `set1_epi64x` of the low 8 bytes of a register -/
def set1_epi64x (r : Reg) : Reg := fun i => r (i % 8)

/-- `_mm_set_epi64x(0, lo)` where `lo` is the low 8 bytes of a register -/
def set_epi64x_lo (r : Reg) : Reg := fun i => if i < 8 then r i else 0

/-- `set_epi32`: lanes listed from the highest to the lowest -/
def set_epi32 (l : List Int) : Reg := ofW32 fun k => enc32 (l.reverse.getD k 0)

/-- `setr_epi32`: lanes listed from the lowest to the highest -/
def setr_epi32 (l : List Int) : Reg := ofW32 fun k => enc32 (l.getD k 0)

/-- `setr_epi8`: bytes listed from the lowest to the highest -/
def setr_epi8 (l : List Int) : Reg := fun i => UInt8.ofNat ((l.getD i 0) % 256).toNat

/-- `_mm256_set_m128i(hi, lo)` -/
def set_m128i (hi lo : Reg) : Reg := fun i => if i < 16 then lo i else hi (i - 16)

/-- `_mm256_extracti128_si256(a, 0)` -/
def extracti128_lo (a : Reg) : Reg := a

/-- `_mm256_extract_epi64(a, n)`: the bytes of a 64-bit lane -/
def extract_epi64 (a : Reg) (n : Nat) : Reg := fun i => a (8 * n + i)

/-! ## Bitwise operations -/

/-- `and_si128`, `and_si256` -/
def and_si (a b : Reg) : Reg := fun i => a i &&& b i
/-- `or_si128`, `or_si256` -/
def or_si (a b : Reg) : Reg := fun i => a i ||| b i
/-- `andnot_si128`: `(!a) & b` -/
def andnot_si (a b : Reg) : Reg := fun i => ~~~ (a i) &&& b i

/-! ## Arithmetic -/

/-- `add_epi16` (wrapping) -/
def add_epi16 (a b : Reg) : Reg := ofW16 fun k => w16 a k + w16 b k
/-- `sub_epi16` (wrapping) -/
def sub_epi16 (a b : Reg) : Reg := ofW16 fun k => w16 a k + 65536 - w16 b k
/-- `add_epi32` (wrapping) -/
def add_epi32 (a b : Reg) : Reg := ofW32 fun k => w32 a k + w32 b k
/-- `mulhi_epu16`: high half of the unsigned product -/
def mulhi_epu16 (a b : Reg) : Reg := ofW16 fun k => w16 a k * w16 b k / 65536
/-- `madd_epi16`: sum of two adjacent signed products (wrapping) -/
def madd_epi16 (a b : Reg) : Reg := ofW32 fun k =>
  enc32 (s16 (w16 a (2 * k)) * s16 (w16 b (2 * k)) +
    s16 (w16 a (2 * k + 1)) * s16 (w16 b (2 * k + 1)))
/-- `cmpeq_epi32` -/
def cmpeq_epi32 (a b : Reg) : Reg := ofW32 fun k => if w32 a k = w32 b k then 4294967295 else 0

/-- `srai_epi16` (shift count below 16) -/
def srai_epi16 (a : Reg) (n : Nat) : Reg := ofW16 fun k => enc16 (s16 (w16 a k) / 2 ^ n)
/-- `srai_epi32` (shift count below 32) -/
def srai_epi32 (a : Reg) (n : Nat) : Reg := ofW32 fun k => enc32 (s32 (w32 a k) / 2 ^ n)
/-- `srli_epi16` -/
def srli_epi16 (a : Reg) (n : Nat) : Reg := ofW16 fun k => w16 a k / 2 ^ n
/-- `slli_epi16` -/
def slli_epi16 (a : Reg) (n : Nat) : Reg := ofW16 fun k => w16 a k * 2 ^ n
/-- `srli_epi32` -/
def srli_epi32 (a : Reg) (n : Nat) : Reg := ofW32 fun k => w32 a k / 2 ^ n
/-- `slli_epi32` -/
def slli_epi32 (a : Reg) (n : Nat) : Reg := ofW32 fun k => w32 a k * 2 ^ n

/-! ## Packing and shuffling -/

/-- `packs_epi32`: in each half, 4 lanes of `a` then 4 lanes of `b`, saturated -/
def packs_epi32 (a b : Reg) : Reg := ofW16 fun k =>
  enc16 (satS16 (s32 (if k % 8 < 4 then w32 a (4 * (k / 8) + k % 8)
    else w32 b (4 * (k / 8) + (k % 8 - 4)))))

/-- `packus_epi16`: in each half, 8 lanes of `a` then 8 lanes of `b`, saturated -/
def packus_epi16 (a b : Reg) : Reg := fun i =>
  UInt8.ofNat (satU8 (s16 (if i % 16 < 8 then w16 a (8 * (i / 16) + i % 16)
    else w16 b (8 * (i / 16) + (i % 16 - 8)))))

/-- `unpacklo_epiN` (`hi = 0`) and `unpackhi_epiN` (`hi = 1`) on elements of `n` bytes: in each
half, alternate the elements of the low (high) 8 bytes of `a` and `b`. -/
def unpack (n hi : Nat) (a b : Reg) : Reg := fun i =>
  let j := 16 * (i / 16) + 8 * hi + n * (i % 16 / n / 2) + i % n
  if (i % 16 / n) % 2 = 0 then a j else b j

/-- `unpacklo_epi8` -/
def unpacklo_epi8 (a b : Reg) : Reg := unpack 1 0 a b
/-- `unpackhi_epi8` -/
def unpackhi_epi8 (a b : Reg) : Reg := unpack 1 1 a b
/-- `unpacklo_epi16` -/
def unpacklo_epi16 (a b : Reg) : Reg := unpack 2 0 a b
/-- `unpackhi_epi16` -/
def unpackhi_epi16 (a b : Reg) : Reg := unpack 2 1 a b
/-- `unpacklo_epi32` -/
def unpacklo_epi32 (a b : Reg) : Reg := unpack 4 0 a b
/-- `unpacklo_epi64` -/
def unpacklo_epi64 (a b : Reg) : Reg := unpack 8 0 a b

/-- `_mm_srli_si128`, `_mm256_srli_si256`: shift each half right by `n` bytes -/
def srli_si (a : Reg) (n : Nat) : Reg := fun i => if i % 16 + n < 16 then a (i + n) else 0
/-- `_mm_slli_si128`, `_mm256_slli_si256`: shift each half left by `n` bytes -/
def slli_si (a : Reg) (n : Nat) : Reg := fun i => if n ≤ i % 16 then a (i - n) else 0

/-- sse2.rs:53-55 and avx2.rs:495-500. Control byte of a four-element shuffle. -/
def mm_shuffle (z y x w : Nat) : Nat := z * 64 + y * 16 + x * 4 + w

/-- `shuffle_epi32` -/
def shuffle_epi32 (a : Reg) (imm : Nat) : Reg := fun i =>
  a (16 * (i / 16) + 4 * (imm / 4 ^ (i % 16 / 4) % 4) + i % 4)

/-- `shufflelo_epi16`: shuffle the 16-bit lanes of the low 8 bytes -/
def shufflelo_epi16 (a : Reg) (imm : Nat) : Reg := fun i =>
  if i % 16 < 8 then a (16 * (i / 16) + 2 * (imm / 4 ^ (i % 16 / 2) % 4) + i % 2) else a i

/-- `shufflehi_epi16`: shuffle the 16-bit lanes of the high 8 bytes -/
def shufflehi_epi16 (a : Reg) (imm : Nat) : Reg := fun i =>
  if i % 16 < 8 then a i
  else a (16 * (i / 16) + 8 + 2 * (imm / 4 ^ ((i % 16 - 8) / 2) % 4) + i % 2)

/-- `shuffle_epi8`: in each half, select bytes by the low four bits of the mask; zero when the top
bit of the mask is set -/
def shuffle_epi8 (a m : Reg) : Reg := fun i =>
  if (m i).toNat < 128 then a (16 * (i / 16) + (m i).toNat % 16) else 0

/-- `_mm256_permutevar8x32_epi32` -/
def permutevar8x32_epi32 (a idx : Reg) : Reg := fun i => a (4 * (w32 idx (i / 4) % 8) + i % 4)

/-- `_mm256_permute4x64_epi64` -/
def permute4x64_epi64 (a : Reg) (imm : Nat) : Reg := fun i =>
  a (8 * (imm / 4 ^ (i / 8) % 4) + i % 8)

/-- `_mm256_permute2x128_si256` (without the zeroing bits, which the crate does not use): each
half of the result is selected by two bits of a nibble -/
def permute2x128_si256 (a b : Reg) (imm : Nat) : Reg := fun i =>
  let c := imm / 16 ^ (i / 16) % 4
  if c < 2 then a (16 * c + i % 16) else b (16 * (c - 2) + i % 16)

/-- `_mm256_blend_epi32` -/
def blend_epi32 (a b : Reg) (imm : Nat) : Reg := fun i =>
  if imm / 2 ^ (i / 4) % 2 = 1 then b i else a i

/-! ## Memory -/

/-- `loadu`: read `n` bytes (4, 8, 16 or 32) from `s.as_ptr().add(i)`. -/
def load (s : Buf) (i n : Nat) : K Reg :=
  if i + n ≤ s.len then pure (fun j => if j < n then s.bytes (i + j) else 0) else K.throw .oobRead

/-- `storeu`: write the low `n` bytes of a register to `d.as_mut_ptr().add(i)`. -/
def store (d : Dst) (i : Nat) (r : Reg) (n : Nat) : K Unit :=
  forK n fun j => wr d (i + j) (r j)

/-! ## Tables shared by sse2.rs and avx2.rs -/

/-- common.rs:22-30. Two 16-bit values in one 32-bit value (up to multiples of 2^32, which
`set1_epi32`/`set_epi32` ignore). -/
def i32x2_to_i32 (x y : Int) : Int := (x % 65536) * 65536 + y % 65536

/-- common.rs:32-41 (up to multiples of 2^16, which `set1_epi16` ignores). -/
def i32_to_i16 (x : Int) : Int := x % 65536

/-- sse2.rs:69-106, avx2.rs:85-122: one row of `FORWARD_WEIGHTS`. -/
def forwardRow (w : Fwd) : List Int :=
  [i32x2_to_i32 (w.xg - SHORT_HALF) w.xr,
   i32x2_to_i32 SHORT_HALF w.xb,
   i32x2_to_i32 w.zg (-(w.yr + w.yg)),
   i32x2_to_i32 w.yg w.yr,
   i32x2_to_i32 0 (-(-(w.yr + w.yg) + w.zg)),
   i32x2_to_i32 0 (-(w.yr + w.yg)),
   w.yo]

/-- sse2.rs:69-106, avx2.rs:85-122: `FORWARD_WEIGHTS[COLORIMETRY][k]`. -/
def FORWARD_WEIGHTS (c : Colorimetry) (k : Nat) : Int :=
  (forwardRow (Verif.FORWARD_WEIGHTS c)).getD k 0

/-- sse2.rs:108-149, avx2.rs:124-165: one row of `BACKWARD_WEIGHTS`. -/
def backwardRow (w : Bwd) : List Int :=
  [i32_to_i16 w.xxym, i32_to_i16 w.rcrm, i32_to_i16 w.gcrm, i32_to_i16 w.gcbm, i32_to_i16 w.bcbm,
   i32_to_i16 w.rn, i32_to_i16 w.gp, i32_to_i16 w.bn]

/-- sse2.rs:108-149, avx2.rs:124-165: `BACKWARD_WEIGHTS[COLORIMETRY][k]`. -/
def BACKWARD_WEIGHTS (c : Colorimetry) (k : Nat) : Int :=
  (backwardRow (Verif.BACKWARD_WEIGHTS c)).getD k 0

/-! ## Helpers with the same text in sse2.rs and avx2.rs -/

/-- Weights of `affine_transform` (`&[__m128i; 3]`, `&[__m256i; 3]`). -/
structure Weights where
  w0 : Reg
  w1 : Reg
  w2 : Reg

/-- sse2.rs:250-254 and 266-270, avx2.rs:335-339 and 351-355: `(red | green, blue | green)` of pixels stored as b, g, r, *. -/
def split_bgrx (line : Reg) : Reg × Reg :=
  let red := srli_epi32 (slli_epi32 line 8) 24
  let blue := srli_epi32 (slli_epi32 line 24) 24
  let green := srli_epi32 (slli_epi32 (srli_epi32 line 8) 24) 8
  (or_si red green, or_si blue green)

/-- sse2.rs:258-262, avx2.rs:343-347: the same for pixels stored as *, r, g, b. -/
def split_xrgb (line : Reg) : Reg × Reg :=
  let red := srli_epi32 (slli_epi32 line 16) 24
  let blue := srli_epi32 line 24
  let green := srli_epi32 (slli_epi32 (srli_epi32 line 16) 24) 8
  (or_si red green, or_si blue green)

/-- sse2.rs:245-248, avx2.rs:330-333: in each half, spread four 3-byte pixels over four 32-bit lanes. -/
def align_bgr (line : Reg) : Reg :=
  unpacklo_epi64 (unpacklo_epi32 line (srli_si line 3))
    (unpacklo_epi32 (srli_si line 6) (srli_si line 9))

/-- sse2.rs:312-320, avx2.rs:369-377. -/
def affine_transform (xy zy : Reg) (weights : Weights) : Reg :=
  add_epi32 (add_epi32 (madd_epi16 xy weights.w0) (madd_epi16 zy weights.w1)) weights.w2

/-- sse2.rs:453-458, avx2.rs:516-521 (repeated in each forward kernel): `y_weigths`. -/
def y_weights (c : Colorimetry) : Weights :=
  ⟨set1_epi32 (FORWARD_WEIGHTS c 0), set1_epi32 (FORWARD_WEIGHTS c 1),
    set1_epi32 (FORWARD_WEIGHTS c 6)⟩

/-- sse2.rs:556-560, avx2.rs:631-635: `u_weights`. -/
def u_weights (c : Colorimetry) : Weights :=
  ⟨set1_epi32 (FORWARD_WEIGHTS c 3), set1_epi32 (FORWARD_WEIGHTS c 5),
    set1_epi32 (FIX16_C_HALF + (FIX16_HALF - 1))⟩

/-- sse2.rs:562-566, avx2.rs:637-641: `v_weights`. -/
def v_weights (c : Colorimetry) : Weights :=
  ⟨set1_epi32 (FORWARD_WEIGHTS c 2), set1_epi32 (FORWARD_WEIGHTS c 4),
    set1_epi32 (FIX16_C_HALF + (FIX16_HALF - 1))⟩

/-- The constants of a backward kernel (sse2.rs:605-613, 696-704, 788-796; avx2.rs:680-688 and repeated). -/
structure Back where
  xxym : Reg
  rcrm : Reg
  gcrm : Reg
  gcbm : Reg
  bcbm : Reg
  rn : Reg
  gp : Reg
  bn : Reg

/-- sse2.rs:605-613, 696-704, 788-796; avx2.rs:680-688 and repeated. -/
def back (c : Colorimetry) : Back :=
  ⟨set1_epi16 (BACKWARD_WEIGHTS c 0), set1_epi16 (BACKWARD_WEIGHTS c 1),
   set1_epi16 (BACKWARD_WEIGHTS c 2), set1_epi16 (BACKWARD_WEIGHTS c 3),
   set1_epi16 (BACKWARD_WEIGHTS c 4), set1_epi16 (BACKWARD_WEIGHTS c 5),
   set1_epi16 (BACKWARD_WEIGHTS c 6), set1_epi16 (BACKWARD_WEIGHTS c 7)⟩

/-- sse2.rs:627-632, avx2.rs:702-707 and repeated: `(sr, sg, sb)`. -/
def chroma_terms (k : Back) (cb cr : Reg) : Reg × Reg × Reg :=
  let sb := sub_epi16 (mulhi_epu16 cb k.bcbm) k.bn
  let sr := sub_epi16 (mulhi_epu16 cr k.rcrm) k.rn
  let sg := sub_epi16 k.gp (add_epi16 (mulhi_epu16 cb k.gcbm) (mulhi_epu16 cr k.gcrm))
  (sr, sg, sb)

end Verif.Simd
