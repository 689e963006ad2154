import Verif.Model.Simd
import Verif.Model.X86
import Verif.Model.X86Rgb
import Verif.Model.X86Impl
/-!
# `src/convert_image/avx2.rs`

Helpers and kernels, instruction by instruction, and the split of every wrapper into a vector part
and a portable remainder. The validation at the beginning of the wrappers is the one of
`Model.Wrappers` (the source text is identical up to this point). `_mm_prefetch` (avx2.rs:1391) has
no effect on the result and is not modelled. The offsets
of the remainder (`x * depth`) are computed exactly; on a 32-bit target they could wrap for images of
2^30 pixels per line or more, but the vector part of such a line is larger than any buffer, so the
run has ended before.
-/

namespace Verif.Avx2

open Verif.Simd

/-- avx2.rs:52. -/
def LANE_COUNT : Nat := 32
/-- avx2.rs:53 and 55. -/
def RGB_TO_YUV_WAVES : Nat := LANE_COUNT / 4
/-- avx2.rs:54 and 56. -/
def YUV_TO_RGB_WAVES : Nat := LANE_COUNT / 1
/-- avx2.rs:58. -/
def PACK_LO_DQWORD_2X256 : Nat := 0x20
/-- avx2.rs:59. -/
def PACK_HI_DQWORD_2X256 : Nat := 0x31

/-- avx2.rs:67-71. -/
def pack_lo_dword_2x128 : Reg := set_epi32 [0, 0, 0, 0, 0, 0, 4, 0]
/-- avx2.rs:73-77. -/
def xcgh_odd_even_words : Reg := set_epi32 [6, 7, 4, 5, 2, 3, 0, 1]
/-- avx2.rs:79-83. -/
def align_dqword_2x96 : Reg := set_epi32 [7, 5, 4, 3, 7, 2, 1, 0]

/-- avx2.rs:189-197. -/
def i16_to_i16x2_16x (x : Reg) : Reg × Reg :=
  let y := unpacklo_epi16 x x
  let z := unpackhi_epi16 x x
  (permute2x128_si256 y z PACK_LO_DQWORD_2X256, permute2x128_si256 y z PACK_HI_DQWORD_2X256)

/-- avx2.rs:201-210. -/
def unpack_ui8_i16be_16x (s : Buf) (i : Nat) : K Reg := do
  let x ← load s i 16
  let xx := set_m128i x x
  let hi := unpackhi_epi8 setzero xx
  let lo := unpacklo_epi8 setzero xx
  return permute2x128_si256 lo hi PACK_LO_DQWORD_2X256

/-- avx2.rs:214-222. -/
def unpack_ui8x2_i16be_16x (s : Buf) (i : Nat) : K (Reg × Reg) := do
  let x ← load s i 32
  return (slli_epi16 x 8, slli_epi16 (srli_epi16 x 8) 8)

/-- avx2.rs:226-260. -/
def pack_i16x3_16x (reversed : Bool) (d : Dst) (i : Nat) (red green blue : Reg) : K Unit := do
  let blue_red := if reversed then packus_epi16 red blue else packus_epi16 blue red
  let green_white := packus_epi16 green (srli_epi16 (cmpeq_epi32 setzero setzero) 8)
  let rgbw_lo := unpacklo_epi8 blue_red green_white
  let rgbw_hi := unpackhi_epi8 blue_red green_white
  let lo := unpacklo_epi16 rgbw_lo rgbw_hi
  let hi := unpackhi_epi16 rgbw_lo rgbw_hi
  store d i (permute2x128_si256 lo hi PACK_LO_DQWORD_2X256) 32
  store d (i + 32) (permute2x128_si256 lo hi PACK_HI_DQWORD_2X256) 32

/-- avx2.rs:264-267. -/
def compress_mask : Reg := setr_epi8 [0, 1, 2, 4, 5, 6, 8, 9, 10, 12, 13, 14, -128, -128, -128, -128,
  0, 1, 2, 4, 5, 6, 8, 9, 10, 12, 13, 14, -128, -128, -128, -128]

/-- avx2.rs:263-315, the registers `a0` (stored at 16) and `a1` (stored at 0). -/
def pack_rgb_16x_regs (red green blue : Reg) : Reg × Reg :=
  let a2 := packus_epi16 red blue
  let a0 := packus_epi16 green green
  let a1 := unpacklo_epi8 a2 a0
  let a0 := unpackhi_epi8 a2 a0
  let a2 := unpacklo_epi16 a1 a0
  let a0 := unpackhi_epi16 a1 a0
  let a2 := shuffle_epi8 a2 compress_mask
  let a1 := shuffle_epi8 a0 compress_mask
  let a0 := slli_si a1 12
  let a1 := srli_si a1 4
  let a2 := or_si a0 a2
  let a0 := permute4x64_epi64 a1 (mm_shuffle 2 3 1 0)
  let a1 := permute4x64_epi64 a2 (mm_shuffle 3 3 2 2)
  let a0 := blend_epi32 a0 a1 0x3C
  let a1 := permute2x128_si256 a2 a0 PACK_LO_DQWORD_2X256
  (a0, a1)

/-- avx2.rs:263-320. -/
def pack_rgb_16x (d : Dst) (i : Nat) (red green blue : Reg) : K Unit := do
  let (a0, a1) := pack_rgb_16x_regs red green blue
  store d (i + 16) a0 32
  store d i a1 32

/-- avx2.rs:325-357. -/
def unpack_ui8x3_i16x2_8x (sampler : Sampler) (s : Buf) (i : Nat) : K (Reg × Reg) := do
  match sampler with
  | .bgr =>
    let line ← load s i 32
    let line := permutevar8x32_epi32 line align_dqword_2x96
    return split_bgrx (align_bgr line)
  | .argb =>
    let line ← load s i 32
    return split_xrgb line
  | .bgra =>
    let line ← load s i 32
    return split_bgrx line

/-- avx2.rs:361-366, without the store: eight bytes. -/
def pack_i32_8x_reg (red : Reg) : Reg :=
  let x := packs_epi32 red red
  let y := packus_epi16 x x
  let z := permutevar8x32_epi32 y pack_lo_dword_2x128
  extract_epi64 z 0

/-- avx2.rs:361-366. -/
def pack_i32_8x (d : Dst) (i : Nat) (red : Reg) : K Unit := store d i (pack_i32_8x_reg red) 8

/-- avx2.rs:381-392. -/
def sum_i16x2_neighborhood_4x (xy0 xy1 : Reg) : Reg :=
  add_epi16 (add_epi16 xy0 (permutevar8x32_epi32 xy0 xcgh_odd_even_words))
    (add_epi16 xy1 (permutevar8x32_epi32 xy1 xcgh_odd_even_words))

/-- avx2.rs:396-422. -/
def rgb_to_yuv_8x (sampler : Sampler) (src : Buf) (rgb0 rgb1 : Nat) (yp : Dst) (y0 y1 : Nat)
    (uvp : Dst) (uv : Nat) (y_weights uv_weights : Weights) : K Unit := do
  let (rg0, bg0) ← unpack_ui8x3_i16x2_8x sampler src rgb0
  pack_i32_8x yp y0 (srai_epi32 (affine_transform rg0 bg0 y_weights) FIX16)
  let (rg1, bg1) ← unpack_ui8x3_i16x2_8x sampler src rgb1
  pack_i32_8x yp y1 (srai_epi32 (affine_transform rg1 bg1 y_weights) FIX16)
  let srg := sum_i16x2_neighborhood_4x rg0 rg1
  let sbg := sum_i16x2_neighborhood_4x bg0 bg1
  let t := affine_transform srg sbg uv_weights
  pack_i32_8x uvp uv (srai_epi32 t FIX18)

/-- avx2.rs:425-470. The 64-bit value `uv_res` is kept in a register; its low and high half are
stored to the two planes. -/
def rgb_to_i420_8x (sampler : Sampler) (src : Buf) (rgb0 rgb1 : Nat) (yp : Dst) (y0 y1 : Nat)
    (up : Dst) (u : Nat) (vp : Dst) (v : Nat) (y_weights uv_weights : Weights) : K Unit := do
  let (rg0, bg0) ← unpack_ui8x3_i16x2_8x sampler src rgb0
  pack_i32_8x yp y0 (srai_epi32 (affine_transform rg0 bg0 y_weights) FIX16)
  let (rg1, bg1) ← unpack_ui8x3_i16x2_8x sampler src rgb1
  pack_i32_8x yp y1 (srai_epi32 (affine_transform rg1 bg1 y_weights) FIX16)
  let srg := sum_i16x2_neighborhood_4x rg0 rg1
  let sbg := sum_i16x2_neighborhood_4x bg0 bg1
  let t := affine_transform srg sbg uv_weights
  let shuff := permutevar8x32_epi32 (srai_epi32 t FIX18) (set_epi32 [7, 5, 3, 1, 6, 4, 2, 0])
  let packed_to_32 := packs_epi32 shuff shuff
  let packed_to_16 := packus_epi16 packed_to_32 packed_to_32
  let permuted := permutevar8x32_epi32 packed_to_16 pack_lo_dword_2x128
  let uv_res := extract_epi64 permuted 0
  store up u uv_res 4
  store vp v (fun i => uv_res (i + 4)) 4

/-- avx2.rs:473-493. -/
def rgb_to_i444_8x (sampler : Sampler) (src : Buf) (rgb : Nat) (yp : Dst) (y : Nat)
    (up : Dst) (u : Nat) (vp : Dst) (v : Nat) (y_weights u_weights v_weights : Weights) :
    K Unit := do
  let (rg, bg) ← unpack_ui8x3_i16x2_8x sampler src rgb
  pack_i32_8x yp y (srai_epi32 (affine_transform rg bg y_weights) FIX16)
  let tu := affine_transform rg bg u_weights
  let tv := affine_transform rg bg v_weights
  pack_i32_8x up u (srai_epi32 tu FIX16)
  pack_i32_8x vp v (srai_epi32 tv FIX16)

/-- avx2.rs:523-533 and 576-586: `uv_weights`. -/
def uv_weights (c : Colorimetry) : Weights :=
  ⟨set_epi32 [Simd.FORWARD_WEIGHTS c 2, Simd.FORWARD_WEIGHTS c 3, Simd.FORWARD_WEIGHTS c 2,
    Simd.FORWARD_WEIGHTS c 3, Simd.FORWARD_WEIGHTS c 2, Simd.FORWARD_WEIGHTS c 3,
    Simd.FORWARD_WEIGHTS c 2, Simd.FORWARD_WEIGHTS c 3],
   set_epi32 [Simd.FORWARD_WEIGHTS c 4, Simd.FORWARD_WEIGHTS c 5, Simd.FORWARD_WEIGHTS c 4,
    Simd.FORWARD_WEIGHTS c 5, Simd.FORWARD_WEIGHTS c 4, Simd.FORWARD_WEIGHTS c 5,
    Simd.FORWARD_WEIGHTS c 4, Simd.FORWARD_WEIGHTS c 5],
   set1_epi32 (FIX18_C_HALF + (FIX18_HALF - 1))⟩

/-- avx2.rs:504-555. -/
def rgb_to_nv12_avx2 (ix : Index) (sampler : Sampler) (depth : Nat) (c : Colorimetry)
    (width height src_stride : Nat) (src : Buf) (y_stride uv_stride : Nat)
    (y_plane uv_plane : Dst) : K Unit := do
  let src_depth := depth * RGB_TO_YUV_WAVES
  let wg_width := width / RGB_TO_YUV_WAVES
  let wg_height := height / 2
  forK wg_height fun y => forK wg_width fun x => do
    rgb_to_yuv_8x sampler src (← ix x (2 * y) src_depth src_stride)
      (← ix x (2 * y + 1) src_depth src_stride)
      y_plane (← ix x (2 * y) RGB_TO_YUV_WAVES y_stride)
      (← ix x (2 * y + 1) RGB_TO_YUV_WAVES y_stride)
      uv_plane (← ix x y RGB_TO_YUV_WAVES uv_stride)
      (y_weights c) (uv_weights c)

/-- avx2.rs:559-610. -/
def rgb_to_i420_avx2 (ix : Index) (sampler : Sampler) (depth : Nat) (c : Colorimetry)
    (width height src_stride : Nat) (src : Buf) (y_stride u_stride v_stride : Nat)
    (y_plane u_plane v_plane : Dst) : K Unit := do
  let src_depth := depth * RGB_TO_YUV_WAVES
  let wg_width := width / RGB_TO_YUV_WAVES
  let wg_height := height / 2
  forK wg_height fun y => forK wg_width fun x => do
    rgb_to_i420_8x sampler src (← ix x (2 * y) src_depth src_stride)
      (← ix x (2 * y + 1) src_depth src_stride)
      y_plane (← ix x (2 * y) RGB_TO_YUV_WAVES y_stride)
      (← ix x (2 * y + 1) RGB_TO_YUV_WAVES y_stride)
      u_plane (← ix x y (RGB_TO_YUV_WAVES / 2) u_stride)
      v_plane (← ix x y (RGB_TO_YUV_WAVES / 2) v_stride)
      (y_weights c) (uv_weights c)

/-- avx2.rs:614-663. -/
def rgb_to_i444_avx2 (ix : Index) (sampler : Sampler) (depth : Nat) (c : Colorimetry)
    (width height src_stride : Nat) (src : Buf) (y_stride u_stride v_stride : Nat)
    (y_plane u_plane v_plane : Dst) : K Unit := do
  let rgb_depth := depth * RGB_TO_YUV_WAVES
  let wg_width := width / RGB_TO_YUV_WAVES
  forK height fun y => forK wg_width fun x => do
    rgb_to_i444_8x sampler src (← ix x y rgb_depth src_stride)
      y_plane (← ix x y RGB_TO_YUV_WAVES y_stride)
      u_plane (← ix x y RGB_TO_YUV_WAVES u_stride)
      v_plane (← ix x y RGB_TO_YUV_WAVES v_stride)
      (y_weights c) (u_weights c) (v_weights c)

/-- avx2.rs:716-720 and repeated: the luma of sixteen pixels, before scaling. -/
def widen (x : Reg) (sel : Nat) : Reg :=
  permute2x128_si256 (unpacklo_epi8 setzero x) (unpackhi_epi8 setzero x) sel

/-- avx2.rs:702-779, 821-898 and 941-1018: a 32x2 block, given its chroma; `put` is
`pack_i16x3_16x::<REVERSED>` or `pack_rgb_16x`. -/
def block_32x2 (k : Back) (put : Nat → Reg → Reg → Reg → K Unit) (cb cr : Reg) (y_plane : Buf)
    (y0 y1 d00 d10 d01 d11 : R Nat) : K Unit := do
  let (sr, sg, sb) := chroma_terms k cb cr
  let (sb_lo, sb_hi) := i16_to_i16x2_16x sb
  let (sr_lo, sr_hi) := i16_to_i16x2_16x sr
  let (sg_lo, sg_hi) := i16_to_i16x2_16x sg
  let l0 ← load y_plane (← y0) 32
  let y00 := mulhi_epu16 (widen l0 PACK_LO_DQWORD_2X256) k.xxym
  put (← d00) (srai_epi16 (add_epi16 sr_lo y00) FIX6) (srai_epi16 (add_epi16 sg_lo y00) FIX6)
    (srai_epi16 (add_epi16 sb_lo y00) FIX6)
  let y10 := mulhi_epu16 (widen l0 PACK_HI_DQWORD_2X256) k.xxym
  put (← d10) (srai_epi16 (add_epi16 sr_hi y10) FIX6) (srai_epi16 (add_epi16 sg_hi y10) FIX6)
    (srai_epi16 (add_epi16 sb_hi y10) FIX6)
  let l1 ← load y_plane (← y1) 32
  let y01 := mulhi_epu16 (widen l1 PACK_LO_DQWORD_2X256) k.xxym
  put (← d01) (srai_epi16 (add_epi16 sr_lo y01) FIX6) (srai_epi16 (add_epi16 sg_lo y01) FIX6)
    (srai_epi16 (add_epi16 sb_lo y01) FIX6)
  let y11 := mulhi_epu16 (widen l1 PACK_HI_DQWORD_2X256) k.xxym
  put (← d11) (srai_epi16 (add_epi16 sr_hi y11) FIX6) (srai_epi16 (add_epi16 sg_hi y11) FIX6)
    (srai_epi16 (add_epi16 sb_hi y11) FIX6)

/-- avx2.rs:667-782. -/
def nv12_to_bgra_avx2 (ix : Index) (c : Colorimetry) (reversed : Bool) (width height : Nat)
    (y_stride uv_stride : Nat) (y_plane uv_plane : Buf) (dst_stride : Nat) (dst : Dst) :
    K Unit := do
  let src_depth := YUV_TO_RGB_WAVES
  let dst_depth := 2 * YUV_TO_RGB_WAVES
  let wg_width := width / YUV_TO_RGB_WAVES
  let wg_height := height / 2
  forK wg_height fun y => forK wg_width fun x => do
    let (cb, cr) ← unpack_ui8x2_i16be_16x uv_plane (← ix x y src_depth uv_stride)
    block_32x2 (back c) (pack_i16x3_16x reversed dst) cb cr y_plane
      (ix x (2 * y) src_depth y_stride)
      (ix x (2 * y + 1) src_depth y_stride)
      (ix (2 * x) (2 * y) dst_depth dst_stride)
      (ix (2 * x + 1) (2 * y) dst_depth dst_stride)
      (ix (2 * x) (2 * y + 1) dst_depth dst_stride)
      (ix (2 * x + 1) (2 * y + 1) dst_depth dst_stride)

/-- avx2.rs:786-901. -/
def nv12_to_rgb_avx2 (ix : Index) (c : Colorimetry) (width height : Nat)
    (y_stride uv_stride : Nat) (y_plane uv_plane : Buf) (dst_stride : Nat) (dst : Dst) :
    K Unit := do
  let src_depth := YUV_TO_RGB_WAVES
  let dst_depth := 48
  let wg_width := width / YUV_TO_RGB_WAVES
  let wg_height := height / 2
  forK wg_height fun y => forK wg_width fun x => do
    let (cb, cr) ← unpack_ui8x2_i16be_16x uv_plane (← ix x y src_depth uv_stride)
    block_32x2 (back c) (pack_rgb_16x dst) cb cr y_plane
      (ix x (2 * y) src_depth y_stride)
      (ix x (2 * y + 1) src_depth y_stride)
      (ix (2 * x) (2 * y) dst_depth dst_stride)
      (ix (2 * x + 1) (2 * y) dst_depth dst_stride)
      (ix (2 * x) (2 * y + 1) dst_depth dst_stride)
      (ix (2 * x + 1) (2 * y + 1) dst_depth dst_stride)

/-- avx2.rs:905-1021. -/
def i420_to_bgra_avx2 (ix : Index) (c : Colorimetry) (reversed : Bool) (width height : Nat)
    (y_stride u_stride v_stride : Nat) (y_plane u_plane v_plane : Buf) (dst_stride : Nat)
    (dst : Dst) : K Unit := do
  let src_depth := YUV_TO_RGB_WAVES
  let dst_depth := 2 * YUV_TO_RGB_WAVES
  let wg_width := width / YUV_TO_RGB_WAVES
  let wg_height := height / 2
  forK wg_height fun y => forK wg_width fun x => do
    let cb ← unpack_ui8_i16be_16x u_plane (← ix x y (src_depth / 2) u_stride)
    let cr ← unpack_ui8_i16be_16x v_plane (← ix x y (src_depth / 2) v_stride)
    block_32x2 (back c) (pack_i16x3_16x reversed dst) cb cr y_plane
      (ix x (2 * y) src_depth y_stride)
      (ix x (2 * y + 1) src_depth y_stride)
      (ix (2 * x) (2 * y) dst_depth dst_stride)
      (ix (2 * x + 1) (2 * y) dst_depth dst_stride)
      (ix (2 * x) (2 * y + 1) dst_depth dst_stride)
      (ix (2 * x + 1) (2 * y + 1) dst_depth dst_stride)

/-- avx2.rs:1025-1109. -/
def i444_to_bgra_avx2 (ix : Index) (c : Colorimetry) (reversed : Bool) (width height : Nat)
    (y_stride u_stride v_stride : Nat) (y_plane u_plane v_plane : Buf) (dst_stride : Nat)
    (dst : Dst) : K Unit := do
  let k := back c
  let src_depth := YUV_TO_RGB_WAVES / 2
  let dst_depth := 2 * YUV_TO_RGB_WAVES
  let wg_width := width / src_depth
  forK height fun y => forK wg_width fun x => do
    let cb := set_m128i setzero (← load u_plane (← ix x y src_depth u_stride) 16)
    let cr := set_m128i setzero (← load v_plane (← ix x y src_depth v_stride) 16)
    let y0 := set_m128i setzero (← load y_plane (← ix x y src_depth y_stride) 16)
    let cb_lo := widen cb PACK_LO_DQWORD_2X256
    let cr_lo := widen cr PACK_LO_DQWORD_2X256
    let (sr_lo, sg_lo, sb_lo) := chroma_terms k cb_lo cr_lo
    let y_lo := mulhi_epu16 (widen y0 PACK_LO_DQWORD_2X256) k.xxym
    pack_i16x3_16x reversed dst (← ix x y dst_depth dst_stride)
      (srai_epi16 (add_epi16 sr_lo y_lo) FIX6) (srai_epi16 (add_epi16 sg_lo y_lo) FIX6)
      (srai_epi16 (add_epi16 sb_lo y_lo) FIX6)

/-! ## RGB to RGB -/

/-- avx2.rs:1124-1127. -/
def swap_mask_bgr0 : Reg := setr_epi8 [
  2, 1, 0, 5, 4, 3, 8, 7, 6, 11, 10, 9, 14, 13, 12, -128, 0, -128, 4, 3, 2, 7, 6, 5, 10, 9,
  8, 13, 12, 11, -128, 15]

/-- avx2.rs:1129-1132. -/
def swap_mask_bgr1 : Reg := setr_epi8 [
  -128, 3, 2, 1, 6, 5, 4, 9, 8, 7, 12, 11, 10, 15, 14, 13, 2, 1, 0, 5, 4, 3, 8, 7, 6, 11, 10,
  9, 14, 13, 12, -128]

/-- avx2.rs:1134-1137. -/
def swap_mask_bgr2 : Reg := setr_epi8 [
  0, -128, 4, 3, 2, 7, 6, 5, 10, 9, 8, 13, 12, 11, -128, 15, -128, 3, 2, 1, 6, 5, 4, 9, 8, 7,
  12, 11, 10, 15, 14, 13]

/-- avx2.rs:1139-1143. -/
def border_mask_bgr0 : Reg := setr_epi8 [
  -128, -128, -128, -128, -128, -128, -128, -128, -128, -128, -128, -128, -128, -128, -128,
  13, -128, 3, -128, -128, -128, -128, -128, -128, -128, -128, -128, -128, -128, -128, -128,
  -128]

/-- avx2.rs:1145-1149. -/
def border_mask_bgr0_bgr1 : Reg := setr_epi8 [
  -128, -128, -128, -128, -128, -128, -128, -128, -128, -128, -128, -128, -128, -128, -128,
  -128, -128, -128, -128, -128, -128, -128, -128, -128, -128, -128, -128, -128, -128, -128,
  12, -128]

/-- avx2.rs:1151-1155. -/
def border_mask_bgr1_bgr0 : Reg := setr_epi8 [
  2, -128, -128, -128, -128, -128, -128, -128, -128, -128, -128, -128, -128, -128, -128,
  -128, -128, -128, -128, -128, -128, -128, -128, -128, -128, -128, -128, -128, -128, -128,
  -128, -128]

/-- avx2.rs:1157-1161. -/
def border_mask_bgr1_bgr2 : Reg := setr_epi8 [
  -128, -128, -128, -128, -128, -128, -128, -128, -128, -128, -128, -128, -128, -128, -128,
  -128, -128, -128, -128, -128, -128, -128, -128, -128, -128, -128, -128, -128, -128, -128,
  -128, 13]

/-- avx2.rs:1163-1167. -/
def border_mask_bgr2 : Reg := setr_epi8 [
  -128, -128, -128, -128, -128, -128, -128, -128, -128, -128, -128, -128, -128, -128, 12,
  -128, 2, -128, -128, -128, -128, -128, -128, -128, -128, -128, -128, -128, -128, -128,
  -128, -128]

/-- avx2.rs:1169-1173. -/
def border_mask_bgr2_bgr1 : Reg := setr_epi8 [
  -128, 3, -128, -128, -128, -128, -128, -128, -128, -128, -128, -128, -128, -128, -128,
  -128, -128, -128, -128, -128, -128, -128, -128, -128, -128, -128, -128, -128, -128, -128,
  -128, -128]

/-- avx2.rs:1175. -/
def sh_mask_intra_lane : Reg := setr_epi32 [0, 1, 2, 4, 3, 5, 6, 7]
/-- avx2.rs:1176. -/
def sh_mask_set_last : Reg := setr_epi32 [0, 1, 2, 3, 4, 5, 6, 0]
/-- avx2.rs:1177. -/
def sh_mask_set_first : Reg := setr_epi32 [7, 1, 2, 3, 4, 5, 6, 7]

/-- avx2.rs:1194-1206. -/
def bgr_to_rgb_reg0 (bgr0 bgr1 : Reg) : Reg :=
  or_si (or_si (shuffle_epi8 bgr0 swap_mask_bgr0)
      (shuffle_epi8 (permutevar8x32_epi32 bgr0 sh_mask_intra_lane) border_mask_bgr0))
    (shuffle_epi8 (permutevar8x32_epi32 bgr1 sh_mask_set_last) border_mask_bgr0_bgr1)

/-- avx2.rs:1208-1220. -/
def bgr_to_rgb_reg1 (bgr0 bgr1 bgr2 : Reg) : Reg :=
  or_si (or_si (shuffle_epi8 bgr1 swap_mask_bgr1)
      (shuffle_epi8 (permutevar8x32_epi32 bgr0 sh_mask_set_first) border_mask_bgr1_bgr0))
    (shuffle_epi8 (permutevar8x32_epi32 bgr2 sh_mask_set_last) border_mask_bgr1_bgr2)

/-- avx2.rs:1222-1234. -/
def bgr_to_rgb_reg2 (bgr1 bgr2 : Reg) : Reg :=
  or_si (or_si (shuffle_epi8 bgr2 swap_mask_bgr2)
      (shuffle_epi8 (permutevar8x32_epi32 bgr2 sh_mask_intra_lane) border_mask_bgr2))
    (shuffle_epi8 (permutevar8x32_epi32 bgr1 sh_mask_set_first) border_mask_bgr2_bgr1)

/-- avx2.rs:1186-1242: 32 pixels. -/
def bgr_to_rgb_32 (src : Buf) (so : Nat) (dst : Dst) (d : Nat) : K Unit := do
  let bgr0 ← load src so 32
  let bgr1 ← load src (so + 32) 32
  let bgr2 ← load src (so + 64) 32
  let rgb0 := bgr_to_rgb_reg0 bgr0 bgr1
  let rgb1 := bgr_to_rgb_reg1 bgr0 bgr1 bgr2
  let rgb2 := bgr_to_rgb_reg2 bgr1 bgr2
  store dst d rgb0 32
  store dst (d + 32) rgb1 32
  store dst (d + 64) rgb2 32

/-- avx2.rs:1114-1244. `width.div_ceil(32)` iterations, like `(0..width).step_by(32)`; `mul`
computes the offset of a line, within a line offsets stay inside the buffers. -/
def bgr_to_rgb_avx2 (mul : Nat → Nat → R Nat) (width height src_stride : Nat)
    (src : Buf) (dst_stride : Nat) (dst : Dst) : K Unit :=
  forK height fun i => do
    let _ ← iterK ((width + (LANE_COUNT - 1)) / LANE_COUNT) (fun ((so, d) : Nat × Nat) => do
      bgr_to_rgb_32 src so dst d
      return (so + 3 * LANE_COUNT, d + 3 * LANE_COUNT)) (← mul src_stride i, ← mul dst_stride i)
    return ()

/-- avx2.rs:1260-1263. -/
def shf_mask : Reg := setr_epi8 [
  2, 1, 0, 6, 5, 4, 10, 9, 8, 14, 13, 12, -128, -128, -128, -128, 2, 1, 0, 6, 5, 4, 10, 9, 8,
  14, 13, 12, -128, -128, -128, -128]

/-- avx2.rs:1264-1267. -/
def shf_mask_no_comb : Reg := setr_epi8 [
  2, 1, 0, 6, 5, 4, 10, 9, 8, 14, 13, 12, 0, 0, 0, 0, 2, 1, 0, 6, 5, 4, 10, 9, 8, 14, 13, 12,
  0, 0, 0, 0]

/-- avx2.rs:1268. -/
def pk_mask : Reg := setr_epi32 [0, 1, 2, 4, 5, 6, 3, 7]

/-- avx2.rs:1292-1295: eight pixels of a 32-pixel group. -/
def bgra_to_rgb_8 (bgra : Reg) : Reg := permutevar8x32_epi32 (shuffle_epi8 bgra shf_mask) pk_mask

/-- avx2.rs:1283-1321: body of the first loop. -/
def bgra_to_rgb_4x (src : Buf) (dst : Dst) (s : X86.Cur) : K X86.Cur := do
  let bgra0 ← load src s.so 32
  let bgra1 ← load src (s.so + 32) 32
  let bgra2 ← load src (s.so + 64) 32
  let bgra3 ← load src (s.so + 96) 32
  let rgb0 := bgra_to_rgb_8 bgra0
  let rgb1 := bgra_to_rgb_8 bgra1
  let rgb2 := bgra_to_rgb_8 bgra2
  let rgb3 := bgra_to_rgb_8 bgra3
  store dst s.d (or_si rgb0 (permute4x64_epi64 rgb1 (mm_shuffle 0 3 3 3))) 32
  store dst (s.d + 32) (or_si (permute4x64_epi64 rgb1 (mm_shuffle 3 3 2 1))
    (permute4x64_epi64 rgb2 (mm_shuffle 1 0 3 3))) 32
  store dst (s.d + 64) (or_si (permute4x64_epi64 rgb2 (mm_shuffle 3 3 3 2))
    (permute4x64_epi64 rgb3 (mm_shuffle 2 1 0 3))) 32
  return ⟨s.x + LANE_COUNT, s.so + 4 * LANE_COUNT, s.d + 3 * LANE_COUNT⟩

/-- avx2.rs:1323-1340: body of the second loop. -/
def bgra_to_rgb_1x (src : Buf) (dst : Dst) (s : X86.Cur) : K X86.Cur := do
  let bgra0 ← load src s.so 32
  let rgb0 := permutevar8x32_epi32 (shuffle_epi8 bgra0 shf_mask_no_comb) pk_mask
  store dst s.d (extracti128_lo rgb0) 16
  store dst (s.d + 16) (extract_epi64 rgb0 2) 8
  return ⟨s.x + 8, s.so + 4 * 8, s.d + 3 * 8⟩

/-- avx2.rs:1348-1355: one pixel of the remainder. -/
def bgra_to_rgb_px (src : Buf) (dst : Dst) (so d y : Nat) : K Unit := do
  wr dst (3 * y + d) (← rd src (4 * y + 2 + so))
  wr dst (3 * y + 1 + d) (← rd src (4 * y + 1 + so))
  wr dst (3 * y + 2 + d) (← rd src (4 * y + so))

/-- avx2.rs:1248-1361. -/
def bgra_to_rgb_avx2 (t : Target) (width height src_stride : Nat) (src : Buf) (dst_stride : Nat)
    (dst : Dst) : K Unit := do
  let src_diff ← (t.sub src_stride (← (t.mul 4 width : R Nat)) : R Nat)
  let dst_diff ← (t.sub dst_stride (← (t.mul 3 width : R Nat)) : R Nat)
  let limit_4x := lower_multiple_of_pot width LANE_COUNT
  let limit := lower_multiple_of_pot width 8
  forK height fun i => do
    let so ← (t.mul (← (t.add (← (t.mul 4 width : R Nat)) src_diff : R Nat)) i : R Nat)
    let d ← (t.mul (← (t.add (← (t.mul 3 width : R Nat)) dst_diff : R Nat)) i : R Nat)
    let s ← whileK width (fun s => s.x < limit_4x) (bgra_to_rgb_4x src dst) ⟨0, so, d⟩
    let _ ← whileK width (fun s => s.x < limit) (bgra_to_rgb_1x src dst) s
    return ()
  if limit ≠ width then do
    let _ ← iterK height (fun ((so, d) : Nat × Nat) => do
      forFrom limit (width - limit) (bgra_to_rgb_px src dst so d)
      let so ← (t.add so (← (t.add (← (t.mul 4 width : R Nat)) src_diff : R Nat)) : R Nat)
      let d ← (t.add d (← (t.add (← (t.mul 3 width : R Nat)) dst_diff : R Nat)) : R Nat)
      return (so, d)) (0, 0)

/-- avx2.rs:1377-1380. -/
def shf_mask_bgra : Reg := setr_epi8 [
  2, 1, 0, -1, 5, 4, 3, -1, 8, 7, 6, -1, 11, 10, 9, -1, 2, 1, 0, -1, 5, 4, 3, -1, 8, 7, 6,
  -1, 11, 10, 9, -1]

/-- avx2.rs:1376 and 1416-1417 (and repeated): reverse the pixels and set alpha. -/
def rgb_to_bgra_8 (input : Reg) : Reg :=
  or_si (shuffle_epi8 input shf_mask_bgra) (set1_epi32 (-16777216))

/-- avx2.rs:1405-1447: 32 pixels. -/
def rgb_to_bgra_32 (src : Buf) (so : Nat) (dst : Dst) (d : Nat) : K Unit := do
  let reg0 ← load src so 32
  let reg1 ← load src (so + 32) 32
  let input := permutevar8x32_epi32 reg0 (set_epi32 [6, 5, 4, 3, 3, 2, 1, 0])
  store dst d (rgb_to_bgra_8 input) 32
  let input1 := blend_epi32 (permute4x64_epi64 reg0 (mm_shuffle 0 0 0 3))
    (permutevar8x32_epi32 reg1 (set_epi32 [4, 3, 2, 1, 1, 0, 0, 0])) 0b11111100
  store dst (d + 32) (rgb_to_bgra_8 input1) 32
  let reg2 ← load src (so + 64) 32
  let input2 := blend_epi32 (permutevar8x32_epi32 reg1 (set_epi32 [0, 0, 0, 7, 7, 6, 5, 4]))
    (permutevar8x32_epi32 reg2 (set_epi32 [2, 1, 0, 0, 0, 0, 0, 0])) 0b11100000
  store dst (d + 64) (rgb_to_bgra_8 input2) 32
  let input3 := permutevar8x32_epi32 reg2 (set_epi32 [4, 7, 6, 5, 5, 4, 3, 2])
  store dst (d + 96) (rgb_to_bgra_8 input3) 32

/-- avx2.rs:1365-1456. The offsets are carried through the loops; within a line they stay inside the
buffers (exact), at the end of a line the target's arithmetic applies. -/
def rgb_to_bgra_avx2 (t : Target) (width height src_stride : Nat) (src : Buf) (dst_stride : Nat)
    (dst : Dst) : K Unit := do
  let src_stride_diff ← (t.sub src_stride (← (t.mul 3 width : R Nat)) : R Nat)
  let dst_stride_diff ← (t.sub dst_stride (← (t.mul 4 width : R Nat)) : R Nat)
  let _ ← iterK height (fun (so, d) => do
    let (so, d) ← iterK ((width + (LANE_COUNT - 1)) / LANE_COUNT) (fun (so, d) => do
      rgb_to_bgra_32 src so dst d
      return (so + LANE_COUNT * 3, d + LANE_COUNT * 4)) (so, d)
    let so ← (t.add so src_stride_diff : R Nat)
    let d ← (t.add d dst_stride_diff : R Nat)
    return (so, d)) (0, 0)
  return ()

/-! ## Wrappers -/

/-- avx2.rs:1807-1811 and repeated: part of a line handled by vector code when reading RGB. -/
def encode_part (depth w : Nat) : Nat :=
  if depth = 3 then (depth * RGB_TO_YUV_WAVES) * (w / (depth * RGB_TO_YUV_WAVES))
  else lower_multiple_of_pot w RGB_TO_YUV_WAVES

/-- avx2.rs:1516-1566. -/
def nv12_rgb (ix : Index) (c : Colorimetry) (depth : Nat) (reversed : Bool) : Wrap.Nv12RgbKernel :=
  fun w h ys uvs y uv ds dst => do
    let vector_part := lower_multiple_of_pot w YUV_TO_RGB_WAVES
    let scalar_part := w - vector_part
    if vector_part > 0 then
      if depth = 4 then nv12_to_bgra_avx2 ix c reversed vector_part h ys uvs y uv ds dst
      else nv12_to_rgb_avx2 ix c vector_part h ys uvs y uv ds dst
    if scalar_part > 0 then do
      let x := vector_part
      let dx := x * depth
      if depth = 4 then
        X86.nv12_to_bgra ix c reversed scalar_part h ys uvs (← y.from x) (← uv.from x) ds
          (← dst.from dx)
      else
        X86.nv12_to_rgb ix c scalar_part h ys uvs (← y.from x) (← uv.from x) ds (← dst.from dx)

/-- avx2.rs:1623-1656. -/
def i420_rgb (ix : Index) (c : Colorimetry) (depth : Nat) (reversed : Bool) : Wrap.PlanarRgbKernel :=
  fun w h ys us vs y u v ds dst => do
    let vector_part := lower_multiple_of_pot w YUV_TO_RGB_WAVES
    let scalar_part := w - vector_part
    if vector_part > 0 then i420_to_bgra_avx2 ix c reversed vector_part h ys us vs y u v ds dst
    if scalar_part > 0 then do
      let x := vector_part
      let cx := x / 2
      let dx := x * depth
      X86.i420_to_bgra ix c reversed scalar_part h ys us vs (← y.from x) (← u.from cx) (← v.from cx) ds
        (← dst.from dx)

/-- avx2.rs:1710-1742. -/
def i444_rgb (ix : Index) (c : Colorimetry) (depth : Nat) (reversed : Bool) : Wrap.PlanarRgbKernel :=
  fun w h ys us vs y u v ds dst => do
    let vector_part := lower_multiple_of_pot w (YUV_TO_RGB_WAVES / 2)
    let scalar_part := w - vector_part
    if vector_part > 0 then i444_to_bgra_avx2 ix c reversed vector_part h ys us vs y u v ds dst
    if scalar_part > 0 then do
      let x := vector_part
      let dx := x * depth
      X86.i444_to_bgra ix c reversed scalar_part h ys us vs (← y.from x) (← u.from x) (← v.from x) ds
        (← dst.from dx)

/-- avx2.rs:1806-1838. -/
def rgb_nv12 (ix : Index) (s : Sampler) (depth : Nat) (c : Colorimetry) : Wrap.RgbNv12Kernel :=
  fun w h ss src ys uvs y uv => do
    let vector_part := encode_part depth w
    let scalar_part := w - vector_part
    if vector_part > 0 then rgb_to_nv12_avx2 ix s depth c vector_part h ss src ys uvs y uv
    if scalar_part > 0 then do
      let x := vector_part
      let sx := x * depth
      X86.rgb_to_nv12 ix s depth c scalar_part h ss (← src.from sx) ys uvs (← y.from x) (← uv.from x)

/-- avx2.rs:1896-1929. -/
def rgb_i420 (ix : Index) (s : Sampler) (depth : Nat) (c : Colorimetry) : Wrap.RgbPlanarKernel :=
  fun w h ss src ys us vs y u v => do
    let vector_part := encode_part depth w
    let scalar_part := w - vector_part
    if vector_part > 0 then rgb_to_i420_avx2 ix s depth c vector_part h ss src ys us vs y u v
    if scalar_part > 0 then do
      let x := vector_part
      let cx := x / 2
      let sx := x * depth
      X86.rgb_to_i420 ix s depth c scalar_part h ss (← src.from sx) ys us vs (← y.from x)
        (← u.from cx) (← v.from cx)

/-- avx2.rs:1985-2017. -/
def rgb_i444 (ix : Index) (s : Sampler) (depth : Nat) (c : Colorimetry) : Wrap.RgbPlanarKernel :=
  fun w h ss src ys us vs y u v => do
    let vector_part := encode_part depth w
    let scalar_part := w - vector_part
    if vector_part > 0 then rgb_to_i444_avx2 ix s depth c vector_part h ss src ys us vs y u v
    if scalar_part > 0 then do
      let x := vector_part
      let sx := x * depth
      X86.rgb_to_i444 ix s depth c scalar_part h ss (← src.from sx) ys us vs (← y.from x)
        (← u.from x) (← v.from x)

/-- avx2.rs:2131-2160. -/
def rgb_bgra (t : Target) : Wrap.RgbRgbKernel := fun w h ss src ds dst => do
  let vector_part := lower_multiple_of_pot w LANE_COUNT
  let scalar_part := w - vector_part
  if vector_part > 0 then rgb_to_bgra_avx2 t vector_part h ss src ds dst
  if scalar_part > 0 then do
    let x := vector_part
    let sx := x * 3
    let dx := x * 4
    X86.rgb_to_bgra t scalar_part h ss (← src.from sx) ds (← dst.from dx)

/-- avx2.rs:2209-2211. -/
def bgra_rgb (t : Target) : Wrap.RgbRgbKernel := fun w h ss src ds dst =>
  bgra_to_rgb_avx2 t w h ss src ds dst

/-- avx2.rs:2259-2287. -/
def bgr_rgb (mul : Nat → Nat → R Nat) : Wrap.RgbRgbKernel := fun w h ss src ds dst => do
  let vector_part := lower_multiple_of_pot w LANE_COUNT
  let scalar_part := w - vector_part
  if vector_part > 0 then bgr_to_rgb_avx2 mul vector_part h ss src ds dst
  if scalar_part > 0 then do
    let x := vector_part
    let sx := x * 3
    let dx := x * 3
    X86.bgr_to_rgb mul scalar_part h ss (← src.from sx) ds (← dst.from dx)

/-- The kernels behind the wrapper functions of avx2.rs, for given `usize` arithmetic of the offsets. -/
def implWith (ix : Target → Index) (mul : Target → Nat → Nat → R Nat) : Impl where
  nv12_rgb t := nv12_rgb (ix t)
  i420_rgb t := i420_rgb (ix t)
  i444_rgb t := i444_rgb (ix t)
  rgb_i444 t := rgb_i444 (ix t)
  rgb_i420 t := rgb_i420 (ix t)
  rgb_nv12 t := rgb_nv12 (ix t)
  rgb_bgra := rgb_bgra
  bgra_rgb := bgra_rgb
  bgr_rgb t := bgr_rgb (mul t)

/-- The kernels of avx2.rs. -/
def impl : Impl := implWith wg_index Target.mul

end Verif.Avx2
