import Verif.Model.CApi
import Verif.Spec.Valid
/-!
# Arguments and answers of the C functions
-/

namespace Verif.CApi

/-- The C structure for a Rust format. -/
def ofFormat (f : ImageFormat) : CFormat := ⟨f.pixel_format.toU32, f.color_space.toU32, f.num_planes⟩

end Verif.CApi

namespace Verif

open CApi

/-- The number of planes of a format, as the header documents it; also for numbers that are no
pixel format (then there is none). -/
def Spec.CPlanesOk (f : CFormat) : Prop :=
  ∃ pf : PixelFormat, f.pixel_format = pf.toU32 ∧ Spec.PlanesOk pf f.num_planes.toNat

/-- A C format whose enum fields are values of the enums and whose number of planes is legal. -/
def Spec.CFormatOk (f : CFormat) : Prop :=
  Spec.CPlanesOk f ∧ ∃ cs : ColorSpace, f.color_space = cs.toU32

/-- Pointer to a good format. -/
def Spec.GoodFormat (p : Option CFormat) : Prop := ∃ f, p = some f ∧ Spec.CFormatOk f

/-- Pointer to an array with a non-null pointer for each plane. -/
def Spec.GoodPlanes (f : Option CFormat) (p : Option (List (Option Buf))) : Prop :=
  ∃ g arr, f = some g ∧ p = some arr ∧
    ∀ j, j < g.num_planes.toNat → arr[j]? ≠ some none

/-- The caller's arrays have an element for each plane (a C function has to rely on that). -/
def Spec.ArrayReadable {α : Type} (f : Option CFormat) (p : Option (List α)) : Prop :=
  ∀ g l, f = some g → Spec.CPlanesOk g → p = some l → g.num_planes.toNat ≤ l.length

/-- What the C function has to answer for a Rust result. -/
def cResult : Except ErrorKind Unit → CResult
  | .ok () => .ok
  | .error _ => .err

/-- The error slot after a call with a given Rust result. -/
def cError (slot : Option ErrorKind) : Except ErrorKind Unit → Option ErrorKind
  | .ok () => slot
  | .error e => slot.map fun _ => e

/-- The C call with the arguments of a Rust call. -/
def cCall (c : Call) (error : Option ErrorKind) : CCall :=
  ⟨c.width, c.height, some (ofFormat c.src_format), c.src_strides, some (c.src_buffers.map some),
    some (ofFormat c.dst_format), c.dst_strides, some (c.dst_buffers.map some), error⟩

/-- The caller's destination planes after a C call. -/
def planesAfter (before : List Buf) (o : ConvertOut) : List Buf :=
  match o.planes with
  | none => before
  | some p => p.1 ++ before.drop p.1.length

/-- A C function has to rely on this: strides and buffers exist for each plane, are real objects,
and are large enough for the image (`PlaneFits`, `Spec.Fits`) if it is going to be converted. -/
structure Spec.CRelies (t : Target) (c : Call) : Prop where
  bits : 32 ≤ t.bits
  src_strides : Spec.PlanesOk c.src_format.pixel_format c.src_format.num_planes.toNat →
    ∀ l, c.src_strides = some l → c.src_format.num_planes.toNat ≤ l.length
  src_buffers : Spec.PlanesOk c.src_format.pixel_format c.src_format.num_planes.toNat →
    c.src_format.num_planes.toNat ≤ c.src_buffers.length
  dst_strides : Spec.PlanesOk c.dst_format.pixel_format c.dst_format.num_planes.toNat →
    ∀ l, c.dst_strides = some l → c.dst_format.num_planes.toNat ≤ l.length
  dst_buffers : Spec.PlanesOk c.dst_format.pixel_format c.dst_format.num_planes.toNat →
    c.dst_format.num_planes.toNat ≤ c.dst_buffers.length
  real : Spec.Real t c.src_buffers ∧ Spec.Real t c.dst_buffers
  fits : Spec.LegalCall c → Spec.Supported c.src_format.pixel_format c.dst_format.pixel_format →
    c.width ≠ 0 → c.height ≠ 0 →
    Spec.Fits c.src_format c.width c.height c.src_strides c.src_buffers ∧
    Spec.Fits c.dst_format c.width c.height c.dst_strides c.dst_buffers

end Verif
