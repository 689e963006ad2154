import Verif.Model.X86
import Verif.Model.X86Rgb
import Verif.Model.Lib
/-! # Kernels of the portable module `x86.rs` -/

namespace Verif.X86

/-- x86.rs:1036-1047. -/
def nv12_rgb (ix : Index) (c : Colorimetry) (depth : Nat) (reversed : Bool) : Wrap.Nv12RgbKernel :=
  fun w h ys uvs y uv ds dst =>
    if depth = 4 then nv12_to_bgra ix c reversed w h ys uvs y uv ds dst
    else nv12_to_rgb ix c w h ys uvs y uv ds dst

/-- The kernel calls at the end of the wrapper functions of x86.rs (lines 1036-1047, 1104, 1158,
1214-1221, 1279-1286, 1350-1357, 1471, 1520, 1568), for given `usize` arithmetic of the offsets. -/
def implWith (ix : Target → Index) (mul : Target → Nat → Nat → R Nat) : Impl where
  nv12_rgb t := nv12_rgb (ix t)
  i420_rgb t c _ reversed := i420_to_bgra (ix t) c reversed
  i444_rgb t c _ reversed := i444_to_bgra (ix t) c reversed
  rgb_i444 t s depth c := rgb_to_i444 (ix t) s depth c
  rgb_i420 t s depth c := rgb_to_i420 (ix t) s depth c
  rgb_nv12 t s depth c := rgb_to_nv12 (ix t) s depth c
  rgb_bgra t := rgb_to_bgra t
  bgra_rgb t := bgra_to_rgb t
  bgr_rgb t := bgr_to_rgb (mul t)

/-- The kernels of x86.rs. -/
def impl : Impl := implWith wg_index Target.mul

end Verif.X86
