import Verif.Spec.Verdict
import Verif.Model.CApi
/-!
# Calls of the C interface
-/

namespace Verif.Spec

/-- What a C function has to rely on: the arrays have an element for each plane. Nothing is assumed
about the memory the plane pointers point at. -/
structure CArrays (c : Call) : Prop where
  src_strides : PlanesOk c.src_format.pixel_format c.src_format.num_planes.toNat →
    ∀ l, c.src_strides = some l → c.src_format.num_planes.toNat ≤ l.length
  src_buffers : PlanesOk c.src_format.pixel_format c.src_format.num_planes.toNat →
    c.src_format.num_planes.toNat ≤ c.src_buffers.length
  dst_strides : PlanesOk c.dst_format.pixel_format c.dst_format.num_planes.toNat →
    ∀ l, c.dst_strides = some l → c.dst_format.num_planes.toNat ≤ l.length
  dst_buffers : PlanesOk c.dst_format.pixel_format c.dst_format.num_planes.toNat →
    c.dst_format.num_planes.toNat ≤ c.dst_buffers.length

/-- The call with the longest slices there can be. -/
def unsized (t : Target) (c : Call) : Call :=
  { c with
    src_buffers := c.src_buffers.map fun b => ⟨t.imax, b.bytes⟩
    dst_buffers := c.dst_buffers.map fun b => ⟨t.imax, b.bytes⟩ }

/-- How a C call with an error slot ended. -/
def cVerdictOf : R CApi.ConvertOut → Verdict
  | .ok ⟨.ok, _, _⟩ => .done
  | .ok ⟨.err, e, _⟩ => .rejected (e.getD .invalidValue)
  | .error .oobRead => .stray
  | .error .oobWrite => .stray
  | .error _ => .panic

/-- Two calls that differ in nothing but the memory behind the plane pointers: size and contents. -/
structure SamePointers (c c' : Call) : Prop where
  width : c'.width = c.width
  height : c'.height = c.height
  src_format : c'.src_format = c.src_format
  dst_format : c'.dst_format = c.dst_format
  src_strides : c'.src_strides = c.src_strides
  dst_strides : c'.dst_strides = c.dst_strides
  src_count : c'.src_buffers.length = c.src_buffers.length
  dst_count : c'.dst_buffers.length = c.dst_buffers.length

end Verif.Spec
