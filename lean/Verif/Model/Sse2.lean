import Verif.Model.Simd
import Verif.Model.X86
import Verif.Model.X86Rgb
import Verif.Model.X86Impl
/-!
# `src/convert_image/sse2.rs`

Helpers and kernels, instruction by instruction, and the split of every wrapper into a vector part
and a portable remainder. The validation at the beginning of the wrappers is the one of
`Model.Wrappers` (the source text is identical up to this point). The offsets
of the remainder (`x * depth`) are computed exactly; on a 32-bit target they could wrap for images of
2^30 pixels per line or more, but the vector part of such a line is larger than any buffer, so the
run has ended before.
-/

namespace Verif.Sse2

open Verif.Simd

/-- sse2.rs:171-173. -/
def i16_to_i16x2_8x (x : Reg) : Reg × Reg := (unpacklo_epi16 x x, unpackhi_epi16 x x)

/-- sse2.rs:181-184. -/
def unpack_ui8_i16be_8x (s : Buf) (i : Nat) : K Reg := do
  let q ← load s i 8
  let x := set1_epi64x q
  return unpacklo_epi8 setzero x

/-- sse2.rs:193-199. -/
def unpack_ui8x2_i16be_8x (s : Buf) (i : Nat) : K (Reg × Reg) := do
  let x ← load s i 16
  return (slli_epi16 x 8, slli_epi16 (srli_epi16 x 8) 8)

/-- sse2.rs:210-229. -/
def pack_i16x3_8x (reversed : Bool) (d : Dst) (i : Nat) (red green blue : Reg) : K Unit := do
  let x := if reversed then packus_epi16 red blue else packus_epi16 blue red
  let y := packus_epi16 green (srli_epi16 (cmpeq_epi32 setzero setzero) 8)
  let z := unpacklo_epi8 x y
  let w := unpackhi_epi8 x y
  store d i (unpacklo_epi16 z w) 16
  store d (i + 16) (unpackhi_epi16 z w) 16

/-- sse2.rs:241-272. -/
def unpack_ui8x3_i16x2_4x (sampler : Sampler) (s : Buf) (i : Nat) : K (Reg × Reg) := do
  match sampler with
  | .bgr =>
    let line ← load s i 16
    return split_bgrx (align_bgr line)
  | .argb =>
    let line ← load s i 16
    return split_xrgb line
  | .bgra =>
    let line ← load s i 16
    return split_bgrx line

/-- sse2.rs:275-298, without the store. -/
def rgb_to_bgra_4x_reg (input : Reg) : Reg :=
  let alpha_mask := set1_epi32 0xff
  let aligned_line := unpacklo_epi64
    (unpacklo_epi32 (slli_si input 1) (srli_si input 2))
    (unpacklo_epi32 (srli_si input 5) (srli_si input 8))
  let res := or_si aligned_line alpha_mask
  let shr := srli_epi16 res 8
  let shl := slli_epi16 res 8
  let ored := or_si shl shr
  let pshuf32 := shuffle_epi32 ored (mm_shuffle 1 0 3 2)
  let pshufl16 := shufflelo_epi16 pshuf32 (mm_shuffle 0 1 2 3)
  let pshufh16 := shufflehi_epi16 pshufl16 (mm_shuffle 0 1 2 3)
  shuffle_epi32 pshufh16 (mm_shuffle 0 1 2 3)

/-- sse2.rs:275-298. -/
def rgb_to_bgra_4x (input : Reg) (d : Dst) (i : Nat) : K Unit :=
  store d i (rgb_to_bgra_4x_reg input) 16

/-- sse2.rs:305-309, without the store: four bytes. -/
def pack_i32_4x_reg (red : Reg) : Reg :=
  let y := packs_epi32 red red
  packus_epi16 y y

/-- sse2.rs:305-309. -/
def pack_i32_4x (d : Dst) (i : Nat) (red : Reg) : K Unit := store d i (pack_i32_4x_reg red) 4

/-- sse2.rs:333-338. -/
def sum_i16x2_neighborhood_2x (xy0 xy1 : Reg) : Reg :=
  add_epi16 (add_epi16 xy0 (shuffle_epi32 xy0 (mm_shuffle 2 3 0 1)))
    (add_epi16 xy1 (shuffle_epi32 xy1 (mm_shuffle 2 3 0 1)))

/-- sse2.rs:342-368. -/
def rgb_to_yuv_4x (sampler : Sampler) (src : Buf) (rgb0 rgb1 : Nat) (yp : Dst) (y0 y1 : Nat)
    (uvp : Dst) (uv : Nat) (y_weights uv_weights : Weights) : K Unit := do
  let (rg0, bg0) ← unpack_ui8x3_i16x2_4x sampler src rgb0
  pack_i32_4x yp y0 (srai_epi32 (affine_transform rg0 bg0 y_weights) FIX16)
  let (rg1, bg1) ← unpack_ui8x3_i16x2_4x sampler src rgb1
  pack_i32_4x yp y1 (srai_epi32 (affine_transform rg1 bg1 y_weights) FIX16)
  let srg := sum_i16x2_neighborhood_2x rg0 rg1
  let sbg := sum_i16x2_neighborhood_2x bg0 bg1
  let t := affine_transform srg sbg uv_weights
  pack_i32_4x uvp uv (srai_epi32 t FIX18)

/-- sse2.rs:371-414. The 32-bit value `uv_res` is kept in a register; its low and high half are
stored to the two planes. -/
def rgb_to_i420_4x (sampler : Sampler) (src : Buf) (rgb0 rgb1 : Nat) (yp : Dst) (y0 y1 : Nat)
    (up : Dst) (u : Nat) (vp : Dst) (v : Nat) (y_weights uv_weights : Weights) : K Unit := do
  let (rg0, bg0) ← unpack_ui8x3_i16x2_4x sampler src rgb0
  pack_i32_4x yp y0 (srai_epi32 (affine_transform rg0 bg0 y_weights) FIX16)
  let (rg1, bg1) ← unpack_ui8x3_i16x2_4x sampler src rgb1
  pack_i32_4x yp y1 (srai_epi32 (affine_transform rg1 bg1 y_weights) FIX16)
  let srg := sum_i16x2_neighborhood_2x rg0 rg1
  let sbg := sum_i16x2_neighborhood_2x bg0 bg1
  let t := affine_transform srg sbg uv_weights
  let shuff := shuffle_epi32 (srai_epi32 t FIX18) (mm_shuffle 3 1 2 0)
  let packed_to_32 := packs_epi32 shuff shuff
  let packed_to_16 := packus_epi16 packed_to_32 packed_to_32
  store up u packed_to_16 2
  store vp v (fun i => packed_to_16 (i + 2)) 2

/-- sse2.rs:417-436. -/
def rgb_to_i444_4x (sampler : Sampler) (src : Buf) (rgb : Nat) (yp : Dst) (y : Nat)
    (up : Dst) (u : Nat) (vp : Dst) (v : Nat) (y_weights u_weights v_weights : Weights) :
    K Unit := do
  let (rg, bg) ← unpack_ui8x3_i16x2_4x sampler src rgb
  pack_i32_4x yp y (srai_epi32 (affine_transform rg bg y_weights) FIX16)
  let tu := affine_transform rg bg u_weights
  let tv := affine_transform rg bg v_weights
  pack_i32_4x up u (srai_epi32 tu FIX16)
  pack_i32_4x vp v (srai_epi32 tv FIX16)

/-- sse2.rs:460-464 and 507-511: `uv_weights`. -/
def uv_weights (c : Colorimetry) : Weights :=
  ⟨set_epi32 [Simd.FORWARD_WEIGHTS c 2, Simd.FORWARD_WEIGHTS c 3, Simd.FORWARD_WEIGHTS c 2, Simd.FORWARD_WEIGHTS c 3],
   set_epi32 [Simd.FORWARD_WEIGHTS c 4, Simd.FORWARD_WEIGHTS c 5, Simd.FORWARD_WEIGHTS c 4, Simd.FORWARD_WEIGHTS c 5],
   set1_epi32 (FIX18_C_HALF + (FIX18_HALF - 1))⟩

/-- sse2.rs:49. -/
def RGB_TO_YUV_WAVES : Nat := 4
/-- sse2.rs:50. -/
def YUV_TO_RGB_WAVES : Nat := 16
/-- sse2.rs:46. -/
def LANE_COUNT : Nat := 16

/-- sse2.rs:441-486. -/
def rgb_to_nv12_sse2 (ix : Index) (sampler : Sampler) (depth : Nat) (c : Colorimetry)
    (width height src_stride : Nat) (src : Buf) (y_stride uv_stride : Nat)
    (y_plane uv_plane : Dst) : K Unit := do
  let src_depth := depth * RGB_TO_YUV_WAVES
  let wg_width := width / RGB_TO_YUV_WAVES
  let wg_height := height / 2
  forK wg_height fun y => forK wg_width fun x => do
    rgb_to_yuv_4x sampler src (← ix x (2 * y) src_depth src_stride)
      (← ix x (2 * y + 1) src_depth src_stride)
      y_plane (← ix x (2 * y) RGB_TO_YUV_WAVES y_stride)
      (← ix x (2 * y + 1) RGB_TO_YUV_WAVES y_stride)
      uv_plane (← ix x y RGB_TO_YUV_WAVES uv_stride)
      (y_weights c) (uv_weights c)

/-- sse2.rs:490-535. -/
def rgb_to_i420_sse2 (ix : Index) (sampler : Sampler) (depth : Nat) (c : Colorimetry)
    (width height src_stride : Nat) (src : Buf) (y_stride u_stride v_stride : Nat)
    (y_plane u_plane v_plane : Dst) : K Unit := do
  let src_depth := depth * RGB_TO_YUV_WAVES
  let wg_width := width / RGB_TO_YUV_WAVES
  let wg_height := height / 2
  forK wg_height fun y => forK wg_width fun x => do
    rgb_to_i420_4x sampler src (← ix x (2 * y) src_depth src_stride)
      (← ix x (2 * y + 1) src_depth src_stride)
      y_plane (← ix x (2 * y) RGB_TO_YUV_WAVES y_stride)
      (← ix x (2 * y + 1) RGB_TO_YUV_WAVES y_stride)
      u_plane (← ix x y (RGB_TO_YUV_WAVES / 2) u_stride)
      v_plane (← ix x y (RGB_TO_YUV_WAVES / 2) v_stride)
      (y_weights c) (uv_weights c)

/-- sse2.rs:539-588. -/
def rgb_to_i444_sse2 (ix : Index) (sampler : Sampler) (depth : Nat) (c : Colorimetry)
    (width height src_stride : Nat) (src : Buf) (y_stride u_stride v_stride : Nat)
    (y_plane u_plane v_plane : Dst) : K Unit := do
  let rgb_depth := depth * RGB_TO_YUV_WAVES
  let wg_width := width / RGB_TO_YUV_WAVES
  forK height fun y => forK wg_width fun x => do
    rgb_to_i444_4x sampler src (← ix x y rgb_depth src_stride)
      y_plane (← ix x y RGB_TO_YUV_WAVES y_stride)
      u_plane (← ix x y RGB_TO_YUV_WAVES u_stride)
      v_plane (← ix x y RGB_TO_YUV_WAVES v_stride)
      (y_weights c) (u_weights c) (v_weights c)

/-- sse2.rs:641-646 and repeated: store eight pixels with luma term `y` and chroma terms. -/
def put_8x (reversed : Bool) (d : Dst) (i : Nat) (sr sg sb y : Reg) : K Unit :=
  pack_i16x3_8x reversed d i (srai_epi16 (add_epi16 sr y) FIX6) (srai_epi16 (add_epi16 sg y) FIX6)
    (srai_epi16 (add_epi16 sb y) FIX6)

/-- sse2.rs:627-676 and 719-768: a 16x2 block, given its chroma. -/
def block_16x2 (k : Back) (reversed : Bool) (cb cr : Reg) (y_plane : Buf) (y0 y1 : R Nat)
    (dst : Dst) (d00 d10 d01 d11 : R Nat) : K Unit := do
  let (sr, sg, sb) := chroma_terms k cb cr
  let (sb_lo, sb_hi) := i16_to_i16x2_8x sb
  let (sr_lo, sr_hi) := i16_to_i16x2_8x sr
  let (sg_lo, sg_hi) := i16_to_i16x2_8x sg
  let l0 ← load y_plane (← y0) 16
  let y00 := mulhi_epu16 (unpacklo_epi8 setzero l0) k.xxym
  put_8x reversed dst (← d00) sr_lo sg_lo sb_lo y00
  let y10 := mulhi_epu16 (unpackhi_epi8 setzero l0) k.xxym
  put_8x reversed dst (← d10) sr_hi sg_hi sb_hi y10
  let l1 ← load y_plane (← y1) 16
  let y01 := mulhi_epu16 (unpacklo_epi8 setzero l1) k.xxym
  put_8x reversed dst (← d01) sr_lo sg_lo sb_lo y01
  let y11 := mulhi_epu16 (unpackhi_epi8 setzero l1) k.xxym
  put_8x reversed dst (← d11) sr_hi sg_hi sb_hi y11

/-- sse2.rs:592-679. -/
def nv12_to_bgra_sse2 (ix : Index) (c : Colorimetry) (reversed : Bool) (width height : Nat)
    (y_stride uv_stride : Nat) (y_plane uv_plane : Buf) (dst_stride : Nat) (dst : Dst) :
    K Unit := do
  let src_depth := YUV_TO_RGB_WAVES
  let dst_depth := 2 * YUV_TO_RGB_WAVES
  let wg_width := width / YUV_TO_RGB_WAVES
  let wg_height := height / 2
  forK wg_height fun y => forK wg_width fun x => do
    let (cb, cr) ← unpack_ui8x2_i16be_8x uv_plane (← ix x y src_depth uv_stride)
    block_16x2 (back c) reversed cb cr y_plane (ix x (2 * y) src_depth y_stride)
      (ix x (2 * y + 1) src_depth y_stride) dst
      (ix (2 * x) (2 * y) dst_depth dst_stride)
      (ix (2 * x + 1) (2 * y) dst_depth dst_stride)
      (ix (2 * x) (2 * y + 1) dst_depth dst_stride)
      (ix (2 * x + 1) (2 * y + 1) dst_depth dst_stride)

/-- sse2.rs:683-771. -/
def i420_to_bgra_sse2 (ix : Index) (c : Colorimetry) (reversed : Bool) (width height : Nat)
    (y_stride u_stride v_stride : Nat) (y_plane u_plane v_plane : Buf) (dst_stride : Nat)
    (dst : Dst) : K Unit := do
  let src_depth := YUV_TO_RGB_WAVES
  let dst_depth := 2 * YUV_TO_RGB_WAVES
  let wg_width := width / YUV_TO_RGB_WAVES
  let wg_height := height / 2
  forK wg_height fun y => forK wg_width fun x => do
    let cb ← unpack_ui8_i16be_8x u_plane (← ix x y (src_depth / 2) u_stride)
    let cr ← unpack_ui8_i16be_8x v_plane (← ix x y (src_depth / 2) v_stride)
    block_16x2 (back c) reversed cb cr y_plane (ix x (2 * y) src_depth y_stride)
      (ix x (2 * y + 1) src_depth y_stride) dst
      (ix (2 * x) (2 * y) dst_depth dst_stride)
      (ix (2 * x + 1) (2 * y) dst_depth dst_stride)
      (ix (2 * x) (2 * y + 1) dst_depth dst_stride)
      (ix (2 * x + 1) (2 * y + 1) dst_depth dst_stride)

/-- sse2.rs:775-839. -/
def i444_to_bgra_sse2 (ix : Index) (c : Colorimetry) (reversed : Bool) (width height : Nat)
    (y_stride u_stride v_stride : Nat) (y_plane u_plane v_plane : Buf) (dst_stride : Nat)
    (dst : Dst) : K Unit := do
  let k := back c
  let src_depth := YUV_TO_RGB_WAVES / 2
  let dst_depth := 2 * YUV_TO_RGB_WAVES
  let wg_width := width / src_depth
  forK height fun y => forK wg_width fun x => do
    let cb0 := set_epi64x_lo (← load u_plane (← ix x y src_depth u_stride) 8)
    let cr0 := set_epi64x_lo (← load v_plane (← ix x y src_depth v_stride) 8)
    let y0 := set_epi64x_lo (← load y_plane (← ix x y src_depth y_stride) 8)
    let cb_lo := unpacklo_epi8 setzero cb0
    let cr_lo := unpacklo_epi8 setzero cr0
    let y_lo := mulhi_epu16 (unpacklo_epi8 setzero y0) k.xxym
    let (sr_lo, sg_lo, sb_lo) := chroma_terms k cb_lo cr_lo
    put_8x reversed dst (← ix x y dst_depth dst_stride) sr_lo sg_lo sb_lo y_lo

/-- sse2.rs:867-902: sixteen pixels. -/
def rgb_to_bgra_16 (src : Buf) (so : Nat) (dst : Dst) (d : Nat) : K Unit := do
  let first_pixel_mask := set_epi32 [0, 0, 0, -1]
  let first_two_pixels_mask := set_epi32 [0, 0, -1, -1]
  let input0 ← load src so 16
  let input1 ← load src (so + 16) 16
  let input2 ← load src (so + 32) 16
  rgb_to_bgra_4x input0 dst d
  let last4 := shuffle_epi32 input0 (mm_shuffle 0 0 0 3)
  let first8 := shuffle_epi32 input1 (mm_shuffle 0 1 0 0)
  let input := or_si (and_si last4 first_pixel_mask) (andnot_si first_pixel_mask first8)
  rgb_to_bgra_4x input dst (d + 16)
  let last8 := shuffle_epi32 input1 (mm_shuffle 0 0 3 2)
  let first8 := shuffle_epi32 input2 (mm_shuffle 1 0 0 0)
  let input := or_si (and_si last8 first_two_pixels_mask) (andnot_si first_two_pixels_mask first8)
  rgb_to_bgra_4x input dst (d + 32)
  rgb_to_bgra_4x (shuffle_epi32 input2 (mm_shuffle 0 3 2 1)) dst (d + 48)

/-- sse2.rs:843-911. The offsets are carried through the loops; within a line they stay inside the
buffers (exact), at the end of a line the target's arithmetic applies.  `width.div_ceil(16)`
iterations, like `(0..width).step_by(16)`. -/
def rgb_to_bgra_sse2 (t : Target) (width height src_stride : Nat) (src : Buf) (dst_stride : Nat)
    (dst : Dst) : K Unit := do
  let src_stride_diff ← (t.sub src_stride (← (t.mul 3 width : R Nat)) : R Nat)
  let dst_stride_diff ← (t.sub dst_stride (← (t.mul 4 width : R Nat)) : R Nat)
  let _ ← iterK height (fun (so, d) => do
    let (so, d) ← iterK ((width + (LANE_COUNT - 1)) / LANE_COUNT) (fun (so, d) => do
      rgb_to_bgra_16 src so dst d
      return (so + LANE_COUNT * 3, d + LANE_COUNT * 4)) (so, d)
    let so ← (t.add so src_stride_diff : R Nat)
    let d ← (t.add d dst_stride_diff : R Nat)
    return (so, d)) (0, 0)
  return ()

/-- sse2.rs:1254-1258 and repeated: part of a line handled by vector code when reading RGB. -/
def encode_part (depth w : Nat) : Nat :=
  if depth = 3 then (depth * RGB_TO_YUV_WAVES) * (w / (depth * RGB_TO_YUV_WAVES))
  else lower_multiple_of_pot w RGB_TO_YUV_WAVES

/-- sse2.rs:971-1013. -/
def nv12_rgb (ix : Index) (c : Colorimetry) (depth : Nat) (reversed : Bool) : Wrap.Nv12RgbKernel :=
  fun w h ys uvs y uv ds dst => do
    if depth = 3 then X86.nv12_to_rgb ix c w h ys uvs y uv ds dst
    else do
      let vector_part := lower_multiple_of_pot w YUV_TO_RGB_WAVES
      let scalar_part := w - vector_part
      if vector_part > 0 then nv12_to_bgra_sse2 ix c reversed vector_part h ys uvs y uv ds dst
      if scalar_part > 0 then do
        let x := vector_part
        let dx := x * depth
        X86.nv12_to_bgra ix c reversed scalar_part h ys uvs (← y.from x) (← uv.from x) ds
          (← dst.from dx)

/-- sse2.rs:1070-1103. -/
def i420_rgb (ix : Index) (c : Colorimetry) (depth : Nat) (reversed : Bool) : Wrap.PlanarRgbKernel :=
  fun w h ys us vs y u v ds dst => do
    let vector_part := lower_multiple_of_pot w YUV_TO_RGB_WAVES
    let scalar_part := w - vector_part
    if vector_part > 0 then i420_to_bgra_sse2 ix c reversed vector_part h ys us vs y u v ds dst
    if scalar_part > 0 then do
      let x := vector_part
      let cx := x / 2
      let dx := x * depth
      X86.i420_to_bgra ix c reversed scalar_part h ys us vs (← y.from x) (← u.from cx) (← v.from cx) ds
        (← dst.from dx)

/-- sse2.rs:1157-1189. -/
def i444_rgb (ix : Index) (c : Colorimetry) (depth : Nat) (reversed : Bool) : Wrap.PlanarRgbKernel :=
  fun w h ys us vs y u v ds dst => do
    let vector_part := lower_multiple_of_pot w (YUV_TO_RGB_WAVES / 2)
    let scalar_part := w - vector_part
    if vector_part > 0 then i444_to_bgra_sse2 ix c reversed vector_part h ys us vs y u v ds dst
    if scalar_part > 0 then do
      let x := vector_part
      let dx := x * depth
      X86.i444_to_bgra ix c reversed scalar_part h ys us vs (← y.from x) (← u.from x) (← v.from x) ds
        (← dst.from dx)

/-- sse2.rs:1253-1285. -/
def rgb_nv12 (ix : Index) (s : Sampler) (depth : Nat) (c : Colorimetry) : Wrap.RgbNv12Kernel :=
  fun w h ss src ys uvs y uv => do
    let vector_part := encode_part depth w
    let scalar_part := w - vector_part
    if vector_part > 0 then rgb_to_nv12_sse2 ix s depth c vector_part h ss src ys uvs y uv
    if scalar_part > 0 then do
      let x := vector_part
      let sx := x * depth
      X86.rgb_to_nv12 ix s depth c scalar_part h ss (← src.from sx) ys uvs (← y.from x) (← uv.from x)

/-- sse2.rs:1343-1376. -/
def rgb_i420 (ix : Index) (s : Sampler) (depth : Nat) (c : Colorimetry) : Wrap.RgbPlanarKernel :=
  fun w h ss src ys us vs y u v => do
    let vector_part := encode_part depth w
    let scalar_part := w - vector_part
    if vector_part > 0 then rgb_to_i420_sse2 ix s depth c vector_part h ss src ys us vs y u v
    if scalar_part > 0 then do
      let x := vector_part
      let cx := x / 2
      let sx := x * depth
      X86.rgb_to_i420 ix s depth c scalar_part h ss (← src.from sx) ys us vs (← y.from x)
        (← u.from cx) (← v.from cx)

/-- sse2.rs:1432-1464. -/
def rgb_i444 (ix : Index) (s : Sampler) (depth : Nat) (c : Colorimetry) : Wrap.RgbPlanarKernel :=
  fun w h ss src ys us vs y u v => do
    let vector_part := encode_part depth w
    let scalar_part := w - vector_part
    if vector_part > 0 then rgb_to_i444_sse2 ix s depth c vector_part h ss src ys us vs y u v
    if scalar_part > 0 then do
      let x := vector_part
      let sx := x * depth
      X86.rgb_to_i444 ix s depth c scalar_part h ss (← src.from sx) ys us vs (← y.from x)
        (← u.from x) (← v.from x)

/-- sse2.rs:1622-1651. -/
def rgb_bgra (t : Target) : Wrap.RgbRgbKernel := fun w h ss src ds dst => do
  let vector_part := lower_multiple_of_pot w LANE_COUNT
  let scalar_part := w - vector_part
  if vector_part > 0 then rgb_to_bgra_sse2 t vector_part h ss src ds dst
  if scalar_part > 0 then do
    let x := vector_part
    let sx := x * 3
    let dx := x * 4
    X86.rgb_to_bgra t scalar_part h ss (← src.from sx) ds (← dst.from dx)

/-- The kernels behind the wrapper functions of sse2.rs, for given `usize` arithmetic of the offsets;
`bgra_rgb` and `bgr_rgb` call the portable
wrappers (sse2.rs:1534-1576). -/
def implWith (ix : Target → Index) (mul : Target → Nat → Nat → R Nat) : Impl where
  nv12_rgb t := nv12_rgb (ix t)
  i420_rgb t := i420_rgb (ix t)
  i444_rgb t := i444_rgb (ix t)
  rgb_i444 t := rgb_i444 (ix t)
  rgb_i420 t := rgb_i420 (ix t)
  rgb_nv12 t := rgb_nv12 (ix t)
  rgb_bgra := rgb_bgra
  bgra_rgb := (X86.implWith ix mul).bgra_rgb
  bgr_rgb := (X86.implWith ix mul).bgr_rgb

/-- The kernels of sse2.rs. -/
def impl : Impl := implWith wg_index Target.mul

end Verif.Sse2
