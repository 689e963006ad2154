import Verif.Model.Simd
import Verif.Model.X86Impl
/-!
# `src/convert_image/neon.rs`

A NEON vector is a function from lane numbers to lane values: `UInt8` for 8-bit lanes (`Reg`, shared
with the x86 model), `Nat` below the power of two for unsigned lanes, `Int` for signed lanes; what
lies beyond the last lane is never used. The intrinsics transcribe the Arm architecture reference
manual and are part of the trusted base (see DESIGN.md). The offsets
of the remainder (`x * depth`) are computed exactly; on a 32-bit target they could wrap for images of
2^30 pixels per line or more, but the vector part of such a line is larger than any buffer, so the
run has ended before.
-/

namespace Verif.Neon

open Verif.Simd (Reg load store s16 enc16 s32 enc32)

/-- `uint16x4_t`, `uint16x8_t`, `uint32x4_t` -/
abbrev U := Nat → Nat
/-- `int16x4_t`, `int16x8_t`, `int32x4_t` -/
abbrev S := Nat → Int

/-! ## Intrinsics -/

/-- Two's complement truncation to 16 bits. -/
def trunc16 (x : Int) : Int := s16 (enc16 x)
/-- Two's complement truncation to 32 bits. -/
def trunc32 (x : Int) : Int := s32 (enc32 x)

/-- `vmovl_u8` -/
def vmovl_u8 (a : Reg) : U := fun k => (a k).toNat
/-- `vaddq_u16` -/
def vaddq_u16 (a b : U) : U := fun k => (a k + b k) % 65536
/-- `vaddq_s16` -/
def vaddq_s16 (a b : S) : S := fun k => trunc16 (a k + b k)
/-- `vpaddq_u16`: sums of adjacent lanes of `a`, then of `b` -/
def vpaddq_u16 (a b : U) : U := fun k =>
  if k < 4 then (a (2 * k) + a (2 * k + 1)) % 65536
  else (b (2 * (k - 4)) + b (2 * (k - 4) + 1)) % 65536
/-- `vdupq_n_u16` -/
def vdupq_n_u16 (n : Nat) : U := fun _ => n
/-- `vdupq_n_s16` -/
def vdupq_n_s16 (n : Int) : S := fun _ => n
/-- `vdupq_n_u8` -/
def vdupq_n_u8 (n : UInt8) : Reg := fun _ => n
/-- `vget_low_u16`: lanes 0..3 -/
def vget_low_u16 (a : U) : U := a
/-- `vcombine_u16` -/
def vcombine_u16 (lo hi : U) : U := fun k => if k < 4 then lo k else hi (k - 4)
/-- `vcombine_s16` -/
def vcombine_s16 (lo hi : S) : S := fun k => if k < 4 then lo k else hi (k - 4)
/-- `vmull_n_u16` -/
def vmull_n_u16 (a : U) (n : Nat) : U := fun k => a k * n % 4294967296
/-- `vmull_high_n_u16` -/
def vmull_high_n_u16 (a : U) (n : Nat) : U := fun k => a (4 + k) * n % 4294967296
/-- `vmlal_n_u16` -/
def vmlal_n_u16 (acc a : U) (n : Nat) : U := fun k => (acc k + a k * n) % 4294967296
/-- `vmlal_high_n_u16` -/
def vmlal_high_n_u16 (acc a : U) (n : Nat) : U := fun k => (acc k + a (4 + k) * n) % 4294967296
/-- `vmull_n_s16` -/
def vmull_n_s16 (a : S) (n : Int) : S := fun k => trunc32 (a k * n)
/-- `vmull_high_n_s16` -/
def vmull_high_n_s16 (a : S) (n : Int) : S := fun k => trunc32 (a (4 + k) * n)
/-- `vmlal_n_s16` -/
def vmlal_n_s16 (acc a : S) (n : Int) : S := fun k => trunc32 (acc k + a k * n)
/-- `vmlal_high_n_s16` -/
def vmlal_high_n_s16 (acc a : S) (n : Int) : S := fun k => trunc32 (acc k + a (4 + k) * n)
/-- `vrshrn_n_u32`: rounding (half up, no intermediate overflow) right shift, low 16 bits -/
def vrshrn_n_u32 (n : Nat) (a : U) : U := fun k => (a k + 2 ^ (n - 1)) / 2 ^ n % 65536
/-- `vrshrn_n_s32`: rounding (half up, no intermediate overflow) right shift, low 16 bits -/
def vrshrn_n_s32 (n : Nat) (a : S) : S := fun k => trunc16 ((a k + 2 ^ (n - 1)) / 2 ^ n)
/-- `vshrq_n_s32`: arithmetic right shift -/
def vshrq_n_s32 (n : Nat) (a : S) : S := fun k => a k / 2 ^ n
/-- `vqmovn_u16`: unsigned saturating narrow -/
def vqmovn_u16 (a : U) : Reg := fun k => UInt8.ofNat (min 255 (a k))
/-- `vreinterpretq_s16_u16`, `vreinterpret_s16_u16` -/
def vreinterpret_s16_u16 (a : U) : S := fun k => s16 (a k)
/-- `vreinterpretq_u16_s16` -/
def vreinterpret_u16_s16 (a : S) : U := fun k => enc16 (a k)
/-- `vzip1_s16` (4 lanes) -/
def vzip1_s16 (a b : S) : S := fun k => if k % 2 = 0 then a (k / 2) else b (k / 2)
/-- `vzip2_s16` (4 lanes) -/
def vzip2_s16 (a b : S) : S := fun k => if k % 2 = 0 then a (2 + k / 2) else b (2 + k / 2)

/-- `vld3_u8` (`n = 8`), `vld3q_u8` (`n = 16`): `n` structures of 3 bytes, de-interleaved -/
def vld3 (n : Nat) (s : Buf) (i : Nat) : K (Reg × Reg × Reg) := do
  let r ← load s i (3 * n)
  return (fun k => r (3 * k), fun k => r (3 * k + 1), fun k => r (3 * k + 2))
/-- `vld4_u8` (`n = 8`), `vld4q_u8` (`n = 16`) -/
def vld4 (n : Nat) (s : Buf) (i : Nat) : K (Reg × Reg × Reg × Reg) := do
  let r ← load s i (4 * n)
  return (fun k => r (4 * k), fun k => r (4 * k + 1), fun k => r (4 * k + 2), fun k => r (4 * k + 3))
/-- `vst1_u8` -/
def vst1_u8 (d : Dst) (i : Nat) (r : Reg) : K Unit := store d i r 8
/-- `vst1_lane_u32` of a register reinterpreted from bytes -/
def vst1_lane_u32 (d : Dst) (i : Nat) (r : Reg) (lane : Nat) : K Unit :=
  store d i (fun j => r (4 * lane + j)) 4
/-- `vst3q_u8`: 16 structures of 3 bytes -/
def vst3q_u8 (d : Dst) (i : Nat) (a b c : Reg) : K Unit :=
  store d i (fun j => if j % 3 = 0 then a (j / 3) else if j % 3 = 1 then b (j / 3) else c (j / 3)) 48
/-- `vst4q_u8`: 16 structures of 4 bytes -/
def vst4q_u8 (d : Dst) (i : Nat) (a b c e : Reg) : K Unit :=
  store d i (fun j => if j % 4 = 0 then a (j / 4) else if j % 4 = 1 then b (j / 4)
    else if j % 4 = 2 then c (j / 4) else e (j / 4)) 64

/-! ## Constants and helpers -/

/-- neon.rs:28-30. -/
def LANE_COUNT : Nat := 16
def RGB_TO_YUV_WG_SIZE : Nat := 2
def RGB_TO_YUV_WAVES : Nat := LANE_COUNT / RGB_TO_YUV_WG_SIZE

/-- neon.rs:24-26: `YWeights`, `UVWeights` in one structure. -/
structure Weights where
  y0 : Nat
  y1 : Nat
  y2 : Nat
  y3 : Nat
  uv0 : Int
  uv1 : Int
  uv2 : Int
  uv3 : Int
  uv4 : Int

/-- common.rs:70-75 (`X & 0xFFFF`). The compile-time assertion on the range is proved in
`Lemmas/Neon.lean`. -/
def as_u16 (x : Int) : Nat := (x % 65536).toNat

/-- common.rs:62-68. -/
def as_i16 (x : Int) : Int := s16 (x % 65536).toNat

/-- neon.rs:32-93: `FORWARD_WEIGHTS[COLORIMETRY]`. The constants are those of the portable table. -/
def FORWARD_WEIGHTS (c : Colorimetry) : Weights :=
  let w := Verif.FORWARD_WEIGHTS c
  let y3 := match c with
    | .bt601 => as_u16 Y_MIN
    | .bt709 => as_u16 Y_MIN
    | .bt601FR => 0
    | .bt709FR => 0
  { y0 := as_u16 w.xr, y1 := as_u16 w.xg, y2 := as_u16 w.xb, y3 := y3,
    uv0 := as_i16 w.yr, uv1 := as_i16 w.yg, uv2 := as_i16 w.zg,
    uv3 := as_i16 (-(w.yr + w.yg)), uv4 := as_i16 (-w.zg + w.yr + w.yg) }

/-- neon.rs:94. -/
def UV_BIAS : Int := as_i16 C_HALF

/-- neon.rs:96-110. -/
def load_rgb_8x (s : Sampler) (rgb : Buf) (o : Nat) : K (U × U × U) :=
  match s with
  | .bgr => do
    let (a, b, c) ← vld3 8 rgb o
    return (vmovl_u8 c, vmovl_u8 b, vmovl_u8 a)
  | .argb => do
    let (_, b, c, e) ← vld4 8 rgb o
    return (vmovl_u8 b, vmovl_u8 c, vmovl_u8 e)
  | .bgra => do
    let (a, b, c, _) ← vld4 8 rgb o
    return (vmovl_u8 c, vmovl_u8 b, vmovl_u8 a)

/-- neon.rs:112-129. -/
def rgb_to_avg_8x (top bot : U × U × U) : U × U × U :=
  let r := vaddq_u16 top.1 bot.1
  let r := vpaddq_u16 r r
  let g := vaddq_u16 top.2.1 bot.2.1
  let g := vpaddq_u16 g g
  let b := vaddq_u16 top.2.2 bot.2.2
  let b := vpaddq_u16 b b
  (r, g, b)

/-- neon.rs:131-145. -/
def rgb_to_us_8x (rgb lo : U × U × U) (w0 w1 w2 : Nat) : U :=
  let l := vmull_n_u16 lo.1 w0
  let h := vmull_high_n_u16 rgb.1 w0
  let l := vmlal_n_u16 l lo.2.1 w1
  let h := vmlal_high_n_u16 h rgb.2.1 w1
  let l := vmlal_n_u16 l lo.2.2 w2
  let h := vmlal_high_n_u16 h rgb.2.2 w2
  vcombine_u16 (vrshrn_n_u32 FIX16 l) (vrshrn_n_u32 FIX16 h)

/-- neon.rs:147-161. -/
def rgb_to_s_8x (rgb lo : S × S × S) (w0 w1 w2 : Int) : S :=
  let l := vmull_n_s16 lo.1 w0
  let h := vmull_high_n_s16 rgb.1 w0
  let l := vmlal_n_s16 l lo.2.1 w1
  let h := vmlal_high_n_s16 h rgb.2.1 w1
  let l := vmlal_n_s16 l lo.2.2 w2
  let h := vmlal_high_n_s16 h rgb.2.2 w2
  vcombine_s16 (vrshrn_n_s32 FIX16 l) (vrshrn_n_s32 FIX16 h)

/-- `(vget_low_u16(rgb.0), vget_low_u16(rgb.1), vget_low_u16(rgb.2))`. -/
def get_low (rgb : U × U × U) : U × U × U :=
  (vget_low_u16 rgb.1, vget_low_u16 rgb.2.1, vget_low_u16 rgb.2.2)

/-- neon.rs:163-178. -/
def rgb_to_y_8x (rgb : U × U × U) (w : Weights) : Reg :=
  let v := rgb_to_us_8x rgb (get_low rgb) w.y0 w.y1 w.y2
  let v := vaddq_u16 v (vdupq_n_u16 w.y3)
  vqmovn_u16 v

/-- neon.rs:180-204. -/
def rgb_to_uv_8x (rgb : U × U × U) (w : Weights) : S × S :=
  let r_lo := vreinterpret_s16_u16 rgb.1
  let g_lo := vreinterpret_s16_u16 rgb.2.1
  let b_lo := vreinterpret_s16_u16 rgb.2.2
  let lo := vmull_high_n_s16 r_lo w.uv0
  let hi := vmull_high_n_s16 r_lo w.uv3
  let lo := vmlal_high_n_s16 lo g_lo w.uv1
  let hi := vmlal_high_n_s16 hi g_lo w.uv2
  let lo := vmlal_high_n_s16 lo b_lo w.uv3
  let hi := vmlal_high_n_s16 hi b_lo w.uv4
  let lo := vshrq_n_s32 (FIX18 - FIX16) lo
  let hi := vshrq_n_s32 (FIX18 - FIX16) hi
  (vrshrn_n_s32 FIX16 lo, vrshrn_n_s32 FIX16 hi)

/-- neon.rs:206-229. -/
def rgb_to_y_and_avg_uv_8x (s : Sampler) (src : Buf) (top bot : Nat) (yp : Dst) (y_top y_bot : Nat)
    (w : Weights) : K (S × S) := do
  let rt ← load_rgb_8x s src top
  vst1_u8 yp y_top (rgb_to_y_8x rt w)
  let rb ← load_rgb_8x s src bot
  vst1_u8 yp y_bot (rgb_to_y_8x rb w)
  return rgb_to_uv_8x (rgb_to_avg_8x rt rb) w

/-- neon.rs:266-267, 271-272, 288-289, 307-308: bias and narrow. -/
def add_bias (v : S) : Reg :=
  vqmovn_u16 (vreinterpret_u16_s16 (vaddq_s16 v (vdupq_n_s16 UV_BIAS)))

/-- `vreinterpretq_s16_u16` of three vectors. -/
def as_signed (rgb : U × U × U) : S × S × S :=
  (vreinterpret_s16_u16 rgb.1, vreinterpret_s16_u16 rgb.2.1, vreinterpret_s16_u16 rgb.2.2)

/-- neon.rs:231-274. -/
def rgb_to_i444_8x (s : Sampler) (src : Buf) (o : Nat) (yp : Dst) (y : Nat) (up : Dst) (u : Nat)
    (vp : Dst) (v : Nat) (w : Weights) : K Unit := do
  let rgb ← load_rgb_8x s src o
  vst1_u8 yp y (rgb_to_y_8x rgb w)
  let srgb := as_signed rgb
  let slo := as_signed (get_low rgb)
  vst1_u8 up u (add_bias (rgb_to_s_8x srgb slo w.uv0 w.uv1 w.uv3))
  vst1_u8 vp v (add_bias (rgb_to_s_8x srgb slo w.uv3 w.uv2 w.uv4))

/-- neon.rs:276-292. -/
def rgb_to_nv12_8x (s : Sampler) (src : Buf) (top bot : Nat) (yp : Dst) (y_top y_bot : Nat)
    (uvp : Dst) (uv : Nat) (w : Weights) : K Unit := do
  let (lo, hi) ← rgb_to_y_and_avg_uv_8x s src top bot yp y_top y_bot w
  vst1_u8 uvp uv (add_bias (vcombine_s16 (vzip1_s16 lo hi) (vzip2_s16 lo hi)))

/-- neon.rs:294-312. -/
def rgb_to_i420_8x (s : Sampler) (src : Buf) (top bot : Nat) (yp : Dst) (y_top y_bot : Nat)
    (up : Dst) (u : Nat) (vp : Dst) (v : Nat) (w : Weights) : K Unit := do
  let (lo, hi) ← rgb_to_y_and_avg_uv_8x s src top bot yp y_top y_bot w
  let u_then_v := add_bias (vcombine_s16 lo hi)
  vst1_lane_u32 up u u_then_v 0
  vst1_lane_u32 vp v u_then_v 1

/-! ## Kernels -/

/-- neon.rs:314-348. -/
def rgb_to_nv12_neon (ix : Index) (s : Sampler) (depth : Nat) (c : Colorimetry)
    (width height src_stride : Nat) (src : Buf) (y_stride uv_stride : Nat) (y_plane uv_plane : Dst) : K Unit := do
  let src_depth := depth * RGB_TO_YUV_WAVES
  let wg_width := width / RGB_TO_YUV_WAVES
  let wg_height := height / 2
  forK wg_height fun y => forK wg_width fun x => do
    rgb_to_nv12_8x s src (← ix x (2 * y) src_depth src_stride)
      (← ix x (2 * y + 1) src_depth src_stride) y_plane
      (← ix x (2 * y) RGB_TO_YUV_WAVES y_stride)
      (← ix x (2 * y + 1) RGB_TO_YUV_WAVES y_stride) uv_plane
      (← ix x y RGB_TO_YUV_WAVES uv_stride) (FORWARD_WEIGHTS c)

/-- neon.rs:350-384. -/
def rgb_to_i420_neon (ix : Index) (s : Sampler) (depth : Nat) (c : Colorimetry)
    (width height src_stride : Nat) (src : Buf) (y_stride u_stride v_stride : Nat) (y_plane u_plane v_plane : Dst) : K Unit := do
  let src_depth := depth * RGB_TO_YUV_WAVES
  let wg_width := width / RGB_TO_YUV_WAVES
  let wg_height := height / 2
  forK wg_height fun y => forK wg_width fun x => do
    rgb_to_i420_8x s src (← ix x (2 * y) src_depth src_stride)
      (← ix x (2 * y + 1) src_depth src_stride) y_plane
      (← ix x (2 * y) RGB_TO_YUV_WAVES y_stride)
      (← ix x (2 * y + 1) RGB_TO_YUV_WAVES y_stride) u_plane
      (← ix x y (RGB_TO_YUV_WAVES / 2) u_stride) v_plane
      (← ix x y (RGB_TO_YUV_WAVES / 2) v_stride) (FORWARD_WEIGHTS c)

/-- neon.rs:386-417. -/
def rgb_to_i444_neon (ix : Index) (s : Sampler) (depth : Nat) (c : Colorimetry)
    (width height src_stride : Nat) (src : Buf) (y_stride u_stride v_stride : Nat) (y_plane u_plane v_plane : Dst) : K Unit := do
  let rgb_depth := depth * RGB_TO_YUV_WAVES
  let wg_width := width / RGB_TO_YUV_WAVES
  forK height fun y => forK wg_width fun x => do
    rgb_to_i444_8x s src (← ix x y rgb_depth src_stride) y_plane
      (← ix x y RGB_TO_YUV_WAVES y_stride) u_plane (← ix x y RGB_TO_YUV_WAVES u_stride)
      v_plane (← ix x y RGB_TO_YUV_WAVES v_stride) (FORWARD_WEIGHTS c)

/-- neon.rs:702-704: sixteen pixels. -/
def bgr_to_rgb_16 (src : Buf) (so : Nat) (dst : Dst) (d : Nat) : K Unit := do
  let (a, b, c) ← vld3 16 src so
  vst3q_u8 dst d c b a

/-- neon.rs:733-735: sixteen pixels. -/
def bgra_to_rgb_16 (src : Buf) (so : Nat) (dst : Dst) (d : Nat) : K Unit := do
  let (a, b, c, _) ← vld4 16 src so
  vst3q_u8 dst d c b a

/-- neon.rs:764-766: sixteen pixels. -/
def rgb_to_bgra_16 (src : Buf) (so : Nat) (dst : Dst) (d : Nat) : K Unit := do
  let (a, b, c) ← vld3 16 src so
  vst4q_u8 dst d c b a (vdupq_n_u8 DEFAULT_ALPHA)

/-- neon.rs:682-710. `mul` computes the offset of a line, within a line offsets stay inside the
buffers; `width.div_ceil(16)` iterations like `(0..width).step_by(16)`. -/
def bgr_to_rgb_neon (mul : Nat → Nat → R Nat) (width height src_stride : Nat)
    (src : Buf) (dst_stride : Nat) (dst : Dst) : K Unit :=
  forK height fun i => do
    let _ ← iterK ((width + (LANE_COUNT - 1)) / LANE_COUNT) (fun (so, d) => do
      bgr_to_rgb_16 src so dst d
      return (so + 3 * LANE_COUNT, d + 3 * LANE_COUNT)) (← mul src_stride i, ← mul dst_stride i)
    return ()

/-- neon.rs:712-741. -/
def bgra_to_rgb_neon (mul : Nat → Nat → R Nat) (width height src_stride : Nat)
    (src : Buf) (dst_stride : Nat) (dst : Dst) : K Unit :=
  forK height fun i => do
    let _ ← iterK ((width + (LANE_COUNT - 1)) / LANE_COUNT) (fun (so, d) => do
      bgra_to_rgb_16 src so dst d
      return (so + 4 * LANE_COUNT, d + 3 * LANE_COUNT)) (← mul src_stride i, ← mul dst_stride i)
    return ()

/-- neon.rs:743-772. -/
def rgb_to_bgra_neon (mul : Nat → Nat → R Nat) (width height src_stride : Nat)
    (src : Buf) (dst_stride : Nat) (dst : Dst) : K Unit :=
  forK height fun i => do
    let _ ← iterK ((width + (LANE_COUNT - 1)) / LANE_COUNT) (fun (so, d) => do
      rgb_to_bgra_16 src so dst d
      return (so + 3 * LANE_COUNT, d + 4 * LANE_COUNT)) (← mul src_stride i, ← mul dst_stride i)
    return ()

/-! ## The part of the wrappers after validation -/

/-- neon.rs:478-506. -/
def rgb_nv12 (ix : Index) (s : Sampler) (depth : Nat) (c : Colorimetry) : Wrap.RgbNv12Kernel :=
  fun w h ss src ys uvs y uv => do
    let vector_part := lower_multiple_of_pot w RGB_TO_YUV_WAVES
    let scalar_part := w - vector_part
    if vector_part > 0 then rgb_to_nv12_neon ix s depth c vector_part h ss src ys uvs y uv
    if scalar_part > 0 then do
      let x := vector_part
      let sx := x * depth
      X86.rgb_to_nv12 ix s depth c scalar_part h ss (← src.from sx) ys uvs (← y.from x) (← uv.from x)

/-- neon.rs:564-593. -/
def rgb_i420 (ix : Index) (s : Sampler) (depth : Nat) (c : Colorimetry) : Wrap.RgbPlanarKernel :=
  fun w h ss src ys us vs y u v => do
    let vector_part := lower_multiple_of_pot w RGB_TO_YUV_WAVES
    let scalar_part := w - vector_part
    if vector_part > 0 then rgb_to_i420_neon ix s depth c vector_part h ss src ys us vs y u v
    if scalar_part > 0 then do
      let x := vector_part
      let cx := x / 2
      let sx := x * depth
      X86.rgb_to_i420 ix s depth c scalar_part h ss (← src.from sx) ys us vs (← y.from x)
        (← u.from cx) (← v.from cx)

/-- neon.rs:649-677. -/
def rgb_i444 (ix : Index) (s : Sampler) (depth : Nat) (c : Colorimetry) : Wrap.RgbPlanarKernel :=
  fun w h ss src ys us vs y u v => do
    let vector_part := lower_multiple_of_pot w RGB_TO_YUV_WAVES
    let scalar_part := w - vector_part
    if vector_part > 0 then rgb_to_i444_neon ix s depth c vector_part h ss src ys us vs y u v
    if scalar_part > 0 then do
      let x := vector_part
      let sx := x * depth
      X86.rgb_to_i444 ix s depth c scalar_part h ss (← src.from sx) ys us vs (← y.from x)
        (← u.from x) (← v.from x)

/-- neon.rs:882-910. -/
def bgr_rgb (mul : Nat → Nat → R Nat) : Wrap.RgbRgbKernel := fun w h ss src ds dst => do
  let vector_part := lower_multiple_of_pot w LANE_COUNT
  let scalar_part := w - vector_part
  if vector_part > 0 then bgr_to_rgb_neon mul vector_part h ss src ds dst
  if scalar_part > 0 then do
    let x := vector_part
    let sx := x * 3
    let dx := x * 3
    X86.bgr_to_rgb mul scalar_part h ss (← src.from sx) ds (← dst.from dx)

/-- neon.rs:959-988. -/
def bgra_rgb (mul : Nat → Nat → R Nat) (t : Target) : Wrap.RgbRgbKernel := fun w h ss src ds dst => do
  let vector_part := lower_multiple_of_pot w LANE_COUNT
  let scalar_part := w - vector_part
  if vector_part > 0 then bgra_to_rgb_neon mul vector_part h ss src ds dst
  if scalar_part > 0 then do
    let x := vector_part
    let sx := x * 4
    let dx := x * 3
    X86.bgra_to_rgb t scalar_part h ss (← src.from sx) ds (← dst.from dx)

/-- neon.rs:1037-1066. -/
def rgb_bgra (mul : Nat → Nat → R Nat) (t : Target) : Wrap.RgbRgbKernel := fun w h ss src ds dst => do
  let vector_part := lower_multiple_of_pot w LANE_COUNT
  let scalar_part := w - vector_part
  if vector_part > 0 then rgb_to_bgra_neon mul vector_part h ss src ds dst
  if scalar_part > 0 then do
    let x := vector_part
    let sx := x * 3
    let dx := x * 4
    X86.rgb_to_bgra t scalar_part h ss (← src.from sx) ds (← dst.from dx)

/-- The kernels behind the wrapper functions of neon.rs, for given `usize` arithmetic of the offsets;
decoding is left to the portable wrappers
(neon.rs:810-837). -/
def implWith (ix : Target → Index) (mul : Target → Nat → Nat → R Nat) : Impl where
  nv12_rgb := (X86.implWith ix mul).nv12_rgb
  i420_rgb := (X86.implWith ix mul).i420_rgb
  i444_rgb := (X86.implWith ix mul).i444_rgb
  rgb_i444 t := rgb_i444 (ix t)
  rgb_i420 t := rgb_i420 (ix t)
  rgb_nv12 t := rgb_nv12 (ix t)
  rgb_bgra t := rgb_bgra (mul t) t
  bgra_rgb t := bgra_rgb (mul t) t
  bgr_rgb t := bgr_rgb (mul t)

/-- The kernels of neon.rs. -/
def impl : Impl := implWith wg_index Target.mul

end Verif.Neon
