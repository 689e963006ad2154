import Verif.Model.Crate
/-!
# Accesses that demand an aligned address

In Rust an access through a pointer to a type of alignment `n` is defined only at addresses that are
multiples of `n`; a build with debug assertions panics otherwise.  The kernels of x86.rs, sse2.rs and
avx2.rs access memory as bytes or through `read_unaligned` and `write_unaligned` (`loadu`, `storeu`:
x86.rs:21, sse2.rs:22, avx2.rs:22), the kernels of neon.rs through intrinsics on `*const u8` and
`*mut u8` - with one exception: the encoder to I420 stores its chroma with `vst1_lane_u32`
(neon.rs:310-311), which takes a `*mut u32` and assigns to what it points to.  This file repeats that
encoder with the demand: a store at an address that is not a multiple of 4 ends in the fault `e`.  Any
fault will do: the model has none of its own for this, and nothing is concluded from which one it is.

`a i` is the address of the first byte of destination buffer `i`.  The address of a source buffer does
not matter.
-/

namespace Verif.Align

open Verif.Simd (Reg)
open Verif.Neon

/-- `vst1_lane_u32` with the alignment of `u32` demanded. -/
def vst1_lane_u32 (e : Fault) (a : Nat → Nat) (d : Dst) (i : Nat) (r : Reg) (lane : Nat) : K Unit :=
  if (a d.plane + d.off + i) % 4 = 0 then Neon.vst1_lane_u32 d i r lane else K.throw e

/-- neon.rs:294-312. -/
def rgb_to_i420_8x (e : Fault) (a : Nat → Nat) (s : Sampler) (src : Buf) (top bot : Nat) (yp : Dst)
    (y_top y_bot : Nat) (up : Dst) (u : Nat) (vp : Dst) (v : Nat) (w : Neon.Weights) : K Unit := do
  let (lo, hi) ← rgb_to_y_and_avg_uv_8x s src top bot yp y_top y_bot w
  let u_then_v := add_bias (vcombine_s16 lo hi)
  vst1_lane_u32 e a up u u_then_v 0
  vst1_lane_u32 e a vp v u_then_v 1

/-- neon.rs:350-384. -/
def rgb_to_i420_neon (e : Fault) (a : Nat → Nat) (ix : Index) (s : Sampler) (depth : Nat)
    (c : Colorimetry) (width height src_stride : Nat) (src : Buf) (y_stride u_stride v_stride : Nat)
    (y_plane u_plane v_plane : Dst) : K Unit := do
  let src_depth := depth * RGB_TO_YUV_WAVES
  let wg_width := width / RGB_TO_YUV_WAVES
  let wg_height := height / 2
  forK wg_height fun y => forK wg_width fun x => do
    rgb_to_i420_8x e a s src (← ix x (2 * y) src_depth src_stride)
      (← ix x (2 * y + 1) src_depth src_stride) y_plane
      (← ix x (2 * y) RGB_TO_YUV_WAVES y_stride)
      (← ix x (2 * y + 1) RGB_TO_YUV_WAVES y_stride) u_plane
      (← ix x y (RGB_TO_YUV_WAVES / 2) u_stride) v_plane
      (← ix x y (RGB_TO_YUV_WAVES / 2) v_stride) (Neon.FORWARD_WEIGHTS c)

/-- neon.rs:564-593. -/
def rgb_i420 (e : Fault) (a : Nat → Nat) (ix : Index) (s : Sampler) (depth : Nat) (c : Colorimetry) :
    Wrap.RgbPlanarKernel :=
  fun w h ss src ys us vs y u v => do
    let vector_part := lower_multiple_of_pot w RGB_TO_YUV_WAVES
    let scalar_part := w - vector_part
    if vector_part > 0 then rgb_to_i420_neon e a ix s depth c vector_part h ss src ys us vs y u v
    if scalar_part > 0 then do
      let x := vector_part
      let cx := x / 2
      let sx := x * depth
      X86.rgb_to_i420 ix s depth c scalar_part h ss (← src.from sx) ys us vs (← y.from x)
        (← u.from cx) (← v.from cx)

/-- The modules of the library, for destination buffers at the addresses `a`. -/
def impls (e : Fault) (a : Nat → Nat) : InstructionSet → Impl
  | .neon => { Neon.impl with rgb_i420 := fun t => rgb_i420 e a (wg_index t) }
  | set => crate set

end Verif.Align
