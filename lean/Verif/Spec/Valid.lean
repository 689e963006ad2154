import Verif.Spec.Api
import Verif.Model.Api
/-!
# Calls that satisfy the documented requirements
-/

namespace Verif.Spec

/-- A real Rust slice: at most `isize::MAX` bytes. -/
def Real (t : Target) (bufs : List Buf) : Prop := ∀ b, b ∈ bufs → b.len ≤ t.imax

/-- A call whose image descriptions are legal, whose conversion is in the documented table, whose
image is not empty and whose planes fit the given buffers; `usize` holds every `u32`. -/
structure Valid (t : Target) (c : Call) : Prop where
  bits : 32 ≤ t.bits
  src_legal : Legal c.src_format c.width c.height
  dst_legal : Legal c.dst_format c.width c.height
  supported : Supported c.src_format.pixel_format c.dst_format.pixel_format
  width_ne : c.width ≠ 0
  height_ne : c.height ≠ 0
  src_fits : Fits c.src_format c.width c.height c.src_strides c.src_buffers
  dst_fits : Fits c.dst_format c.width c.height c.dst_strides c.dst_buffers
  src_real : Real t c.src_buffers
  dst_real : Real t c.dst_buffers

/-- Both image descriptions of a call are legal. -/
def LegalCall (c : Call) : Prop :=
  Legal c.src_format c.width c.height ∧ Legal c.dst_format c.width c.height

/-- Strides `None` or all zero: packed lines. -/
def Packed (strides : Option (List Nat)) : Prop :=
  ∀ l, strides = some l → ∀ s, s ∈ l → s = 0

/-- Strides are given for every plane. -/
def StridesGiven (f : ImageFormat) (strides : Option (List Nat)) : Prop :=
  ∀ l, strides = some l → f.num_planes.toNat ≤ l.length

/-- Every plane has a buffer that can hold its packed lines. -/
def HoldsPacked (f : ImageFormat) (w h : UInt32) (bufs : List Buf) : Prop :=
  ∀ (i : Nat) (rc : Nat × Nat),
    (dims f.pixel_format f.num_planes.toNat w.toNat h.toNat)[i]? = some rc →
    ∃ b, bufs[i]? = some b ∧ rc.1 * rc.2 ≤ b.len

/-- Either the call converts between an RGB and a YCbCr image or the other way round. -/
def ColourModel (c : Call) : Prop :=
  isRgb c.src_format.pixel_format ≠ isRgb c.dst_format.pixel_format

/-- A legal and supported request for a non-empty image; nothing is assumed about the sizes of the
buffers. -/
structure Request (t : Target) (c : Call) : Prop where
  src_legal : Legal c.src_format c.width c.height
  dst_legal : Legal c.dst_format c.width c.height
  supported : Supported c.src_format.pixel_format c.dst_format.pixel_format
  width_ne : c.width ≠ 0
  height_ne : c.height ≠ 0
  src_strides : StridesGiven c.src_format c.src_strides
  dst_strides : StridesGiven c.dst_format c.dst_strides
  src_real : Real t c.src_buffers
  dst_real : Real t c.dst_buffers

/-- Lines do not overlap. -/
def StridesOk (f : ImageFormat) (w h : UInt32) (strides : Option (List Nat)) : Prop :=
  ∀ (i : Nat) (rc : Nat × Nat),
    (dims f.pixel_format f.num_planes.toNat w.toNat h.toNat)[i]? = some rc →
    rc.1 ≤ strideOf strides i rc.1

/-- There is a buffer of at least the reported size for every plane. -/
def Allocated (f : ImageFormat) (sizes : List Nat) (bufs : List Buf) : Prop :=
  ∀ i, i < f.num_planes.toNat → ∃ z b, sizes[i]? = some z ∧ bufs[i]? = some b ∧ z ≤ b.len

/-- No strides are given beyond the planes of the format. For single-plane Nv12, the second stride
(which `get_buffers_size` uses for the chroma lines, `convert_image` does not) is not smaller than
the first one. -/
def NoExtraStrides (f : ImageFormat) (w : UInt32) (strides : Option (List Nat)) : Prop :=
  if f.pixel_format = .nv12 ∧ f.num_planes.toNat = 1 then
    strideOf strides 0 w.toNat ≤ strideOf strides 1 w.toNat
  else ∀ l, strides = some l → l.length ≤ f.num_planes.toNat

theorem Valid.bits_pos {t : Target} {c : Call} (h : Valid t c) : 1 ≤ t.bits := by
  have := h.bits
  omega

end Verif.Spec
