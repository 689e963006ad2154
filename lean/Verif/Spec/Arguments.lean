import Verif.Spec.Api
import Verif.Model.Api
/-! # Arguments that mean the same -/

namespace Verif.Spec

/-- Two stride arguments that mean the same for an image of this format and size: both have enough
elements or both have not, and for every plane they denote the same distance between lines (`None`
and 0, `STRIDE_AUTO`, denote packed lines). -/
structure SameStrides (t : Target) (f : ImageFormat) (w h : UInt32) (s s' : Option (List Nat)) :
    Prop where
  enough : (∀ l, s = some l → f.num_planes.toNat ≤ l.length) ↔
    (∀ l, s' = some l → f.num_planes.toNat ≤ l.length)
  same : ∀ i rc, (dims f.pixel_format f.num_planes.toNat w.toNat h.toNat)[i]? = some rc →
    strideOf s i rc.1 = strideOf s' i rc.1
  /-- Strides are `usize` values. -/
  usize : ∀ l, s = some l → ∀ a, a ∈ l → a < 2 ^ t.bits
  usize' : ∀ l, s' = some l → ∀ a, a ∈ l → a < 2 ^ t.bits

end Verif.Spec

namespace Verif

/-- Two calls that differ only in the way strides are given and in buffers beyond the planes of the
images. -/
structure Call.SameArguments (t : Target) (c c' : Call) : Prop where
  width : c'.width = c.width
  height : c'.height = c.height
  src_format : c'.src_format = c.src_format
  dst_format : c'.dst_format = c.dst_format
  src_strides : Spec.SameStrides t c.src_format c.width c.height c.src_strides c'.src_strides
  dst_strides : Spec.SameStrides t c.dst_format c.width c.height c.dst_strides c'.dst_strides
  src_buffers : ∀ i, i < c.src_format.num_planes.toNat → c.src_buffers[i]? = c'.src_buffers[i]?
  dst_buffers : ∀ i, i < c.dst_format.num_planes.toNat → c.dst_buffers[i]? = c'.dst_buffers[i]?

end Verif
