import Verif.Model.Lib
import Verif.Spec.Reach
/-!
# Before and after the checks

The pixels of the source are read, and the bytes of the destination are written, by nothing but the
kernels. A call whose ending is the same for all kernels has not run one; a call that runs one at all
ends, when the kernels do nothing but fail, with their failure.
-/

namespace Verif.Spec

/-- Kernels that fail at once. -/
def failing (e : Fault) : Impl where
  nv12_rgb := fun _ _ _ _ _ _ _ _ _ _ _ _ => K.throw e
  i420_rgb := fun _ _ _ _ _ _ _ _ _ _ _ _ _ _ => K.throw e
  i444_rgb := fun _ _ _ _ _ _ _ _ _ _ _ _ _ _ => K.throw e
  rgb_i444 := fun _ _ _ _ _ _ _ _ _ _ _ _ _ _ => K.throw e
  rgb_i420 := fun _ _ _ _ _ _ _ _ _ _ _ _ _ _ => K.throw e
  rgb_nv12 := fun _ _ _ _ _ _ _ _ _ _ _ _ => K.throw e
  rgb_bgra := fun _ _ _ _ _ _ _ => K.throw e
  bgra_rgb := fun _ _ _ _ _ _ _ => K.throw e
  bgr_rgb := fun _ _ _ _ _ _ _ => K.throw e

/-- The slice with which nothing can be stored. -/
def shut (d : Dst) : Dst := { d with len := 0 }

/-- The same kernels; they are handed destinations of length 0, so that their first store is reported as
a fault at the moment it is made. -/
def blind (I : Impl) : Impl where
  nv12_rgb := fun t c n r w h ys uvs y uv ds d => I.nv12_rgb t c n r w h ys uvs y uv ds (shut d)
  i420_rgb := fun t c n r w h ys us vs y u v ds d =>
    I.i420_rgb t c n r w h ys us vs y u v ds (shut d)
  i444_rgb := fun t c n r w h ys us vs y u v ds d =>
    I.i444_rgb t c n r w h ys us vs y u v ds (shut d)
  rgb_i444 := fun t s n c w h ss b ys us vs y u v =>
    I.rgb_i444 t s n c w h ss b ys us vs (shut y) (shut u) (shut v)
  rgb_i420 := fun t s n c w h ss b ys us vs y u v =>
    I.rgb_i420 t s n c w h ss b ys us vs (shut y) (shut u) (shut v)
  rgb_nv12 := fun t s n c w h ss b ys uvs y uv =>
    I.rgb_nv12 t s n c w h ss b ys uvs (shut y) (shut uv)
  rgb_bgra := fun t w h ss b ds d => I.rgb_bgra t w h ss b ds (shut d)
  bgra_rgb := fun t w h ss b ds d => I.bgra_rgb t w h ss b ds (shut d)
  bgr_rgb := fun t w h ss b ds d => I.bgr_rgb t w h ss b ds (shut d)

/-- All checks are passed: the request is legal and supported, the image is not empty, there are a stride
and a buffer for every plane, and the buffers are accepted; in builds without overflow checks sizes that
exceed `usize` are tested modulo the size of the address space. -/
structure Passes (t : Target) (c : Call) : Prop where
  src_legal : Legal c.src_format c.width c.height
  dst_legal : Legal c.dst_format c.width c.height
  supported : Supported c.src_format.pixel_format c.dst_format.pixel_format
  width_ne : c.width ≠ 0
  height_ne : c.height ≠ 0
  src_supplied : Supplied c.src_format c.src_strides c.src_buffers
  dst_supplied : Supplied c.dst_format c.dst_strides c.dst_buffers
  accepted :
    (SizesFit t c.src_format c.width c.height c.src_strides ∧
      SizesFit t c.dst_format c.width c.height c.dst_strides ∧ Accepts c) ∨
    (¬ (SizesFit t c.src_format c.width c.height c.src_strides ∧
      SizesFit t c.dst_format c.width c.height c.dst_strides) ∧ t.checked = false ∧ WrapAccepts t c)

/-- Calls that store something before they panic: the NEON code for Rgb <-> Bgra converts the first
multiple of 16 pixels of every line before it subtracts the rest of the line from the strides; the
vectorised 4:2:0 encoders convert the first two lines before they compute the offset of the fourth. -/
def StoresFirst (t : Target) (set : InstructionSet) (c : Call) : Prop :=
  (set = .neon ∧ 16 ≤ c.width.toNat ∧ ¬ PartsFit .neon c) ∨ FourthLineOverflow t set c

end Verif.Spec
