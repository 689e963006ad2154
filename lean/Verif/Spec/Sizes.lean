import Verif.Spec.Api
/-!
# What `get_buffers_size` reports
-/

namespace Verif

/-- Strides (if given) and output entries exist for every plane. -/
def Spec.ArraysOk (f : ImageFormat) (strides : Option (List Nat)) (sizes : List Nat) : Prop :=
  (∀ l, strides = some l → f.num_planes.toNat ≤ l.length) ∧ f.num_planes.toNat ≤ sizes.length

/-- Number of bytes of every plane of a tightly packed image. -/
def Spec.packedSizes : PixelFormat → (planes w h : Nat) → List Nat
  | .argb, _, w, h | .bgra, _, w, h | .rgba, _, w, h => [4 * w * h]
  | .bgr, _, w, h | .rgb, _, w, h => [3 * w * h]
  | .i444, _, w, h => [w * h, w * h, w * h]
  | .i422, _, w, h => [w * h, w * h / 2, w * h / 2]
  | .i420, _, w, h => [w * h, w * h / 4, w * h / 4]
  | .nv12, 1, w, h => [w * h + w * h / 2]
  | .nv12, _, w, h => [w * h, w * h / 2]

/-- Write the list `vs` over the beginning of `sizes`. -/
def Spec.overwrite (vs sizes : List Nat) : List Nat := vs ++ sizes.drop vs.length

end Verif
