import Verif.Spec.Api
import Verif.Model.Api
/-!
# Bytes the vector kernels read after the image

The SSE2 and AVX2 encoders read a group of 3-byte pixels with one load that is wider than the group.
After the last group of the last line these loads end 4 (SSE2) or 8 (AVX2) bytes after the group.
-/

namespace Verif.Spec

/-- Length of a buffer whose last line begins at `last` and has `w` 3-byte pixels: bytes read by the
vector kernels of `set`. -/
def GroupRoom : InstructionSet → (w last len : Nat) → Prop
  | .sse2, w, last, len => 12 ≤ w → last + 3 * (12 * (w / 12)) + 4 ≤ len
  | .avx2, w, last, len => 24 ≤ w → last + 3 * (24 * (w / 24)) + 8 ≤ len
  | .x86, _, _, _ => True
  | .neon, _, _, _ => True

/-- The source buffer has the bytes the vector kernels of `set` read. Only encodings of Bgr images
that are at least one group wide are concerned. -/
def VectorRoom (set : InstructionSet) (c : Call) : Prop :=
  c.src_format.pixel_format = .bgr → isRgb c.dst_format.pixel_format = false →
    ∀ b, c.src_buffers[0]? = some b → GroupRoom set c.width.toNat
      (strideOf c.src_strides 0 (3 * c.width.toNat) * (c.height.toNat - 1)) b.len

end Verif.Spec
