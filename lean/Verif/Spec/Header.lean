import Verif.Spec.Api
import Verif.Model.CApi
/-!
# What the C header documents

Written from include/dcv_color_primitives.h: the numbers of the enumerators, the constraints on
image formats, and the answers of the two functions.
-/

namespace Verif.Spec

open CApi

/-- `DcpResult` (header lines 258-261). -/
def DCP_RESULT_OK : UInt32 := 0
def DCP_RESULT_ERR : UInt32 := 1

/-- `DcpErrorKind` (header lines 272-276). -/
def DCP_ERROR_KIND_INVALID_VALUE : UInt32 := 0
def DCP_ERROR_KIND_INVALID_OPERATION : UInt32 := 1
def DCP_ERROR_KIND_NOT_ENOUGH_DATA : UInt32 := 2

/-- `DcpPixelFormat` (header lines 301-311): what a number means to a C program. -/
def headerPixelFormat (n : UInt32) : Option PixelFormat :=
  if n = 0 then some .argb
  else if n = 1 then some .bgra
  else if n = 2 then some .bgr
  else if n = 3 then some .rgba
  else if n = 4 then some .rgb
  else if n = 5 then some .i444
  else if n = 6 then some .i422
  else if n = 7 then some .i420
  else if n = 8 then some .nv12
  else none

/-- `DcpColorSpace` (header lines 335-342). -/
def headerColorSpace (n : UInt32) : Option ColorSpace :=
  if n = 0 then some .rgb
  else if n = 1 then some .bt601
  else if n = 2 then some .bt709
  else if n = 3 then some .bt601FR
  else if n = 4 then some .bt709FR
  else none

/-- The column `#planes` of the table of image formats. -/
def HeaderPlanes : PixelFormat → Nat → Prop
  | .i422, n => n = 1 ∨ n = 3
  | .i444, n | .i420, n => n = 3
  | .nv12, n => n = 1 ∨ n = 2
  | _, n => n = 1

/-- The columns `w` and `h`: multiples of what width and height have to be. -/
def headerMultiples : PixelFormat → Nat × Nat
  | .i422 => (2, 1)
  | .i420 | .nv12 => (2, 2)
  | _ => (1, 1)

/-- A structure that describes an image of the given size, ignoring the colour space. -/
def HeaderShape (f : CFormat) (w h : UInt32) : Prop :=
  ∃ pf, headerPixelFormat f.pixel_format = some pf ∧ HeaderPlanes pf f.num_planes.toNat ∧
    (headerMultiples pf).1 ∣ w.toNat ∧ (headerMultiples pf).2 ∣ h.toNat

/-- The colour space is one of the column `color_space` of the table of image formats. -/
def HeaderSpace (f : CFormat) : Prop :=
  ∃ pf cs, headerPixelFormat f.pixel_format = some pf ∧ headerColorSpace f.color_space = some cs ∧
    (pf ∈ [PixelFormat.argb, .bgra, .bgr, .rgba, .rgb] ∧ cs = .rgb ∨
      pf ∈ [PixelFormat.i444, .i422, .i420, .nv12] ∧
        cs ∈ [ColorSpace.bt601, .bt709, .bt601FR, .bt709FR])

/-- An array of pointers without a null pointer for one of the planes. -/
def HeaderPlanePointers (f : CFormat) (arr : List (Option Buf)) : Prop :=
  ∀ j, j < f.num_planes.toNat → arr[j]? ≠ some none

/-- Nothing the header answers with `DCP_ERROR_KIND_INVALID_VALUE`: no null pointer, and two image
formats the size is fit for. -/
def HeaderValues (c : CCall) : Prop :=
  ∃ sf df sb db, c.src_format = some sf ∧ c.dst_format = some df ∧
    c.src_buffers = some sb ∧ c.dst_buffers = some db ∧
    HeaderShape sf c.width c.height ∧ HeaderSpace sf ∧ HeaderPlanePointers sf sb ∧
    HeaderShape df c.width c.height ∧ HeaderSpace df ∧ HeaderPlanePointers df db

/-- The table of conversions, by numbers (19 pairs). -/
def headerConversions : List (UInt32 × UInt32) := [
  (0, 7), (0, 5), (0, 8),
  (1, 7), (1, 5), (1, 8), (1, 4),
  (2, 7), (2, 5), (2, 8), (2, 4),
  (7, 1), (7, 3),
  (5, 1), (5, 3),
  (8, 1), (8, 4), (8, 3),
  (4, 1)]

/-- The conversion asked for is in the table. -/
def HeaderConversion (c : CCall) : Prop :=
  ∀ sf df, c.src_format = some sf → c.dst_format = some df →
    (sf.pixel_format, df.pixel_format) ∈ headerConversions

/-- The header documents that an I422 image may have one plane; the library does not agree. -/
def OnePlaneI422 (p : Option CFormat) : Prop :=
  ∃ f, p = some f ∧ f.pixel_format = 6 ∧ f.num_planes = 1

/-- The array has an element for each plane (otherwise the behaviour is documented to be
undefined). -/
def HeaderReadable {α : Type} (f : Option CFormat) (p : Option (List α)) : Prop :=
  ∀ g l, f = some g → p = some l →
    (∃ pf, headerPixelFormat g.pixel_format = some pf ∧ HeaderPlanes pf g.num_planes.toNat) →
    g.num_planes.toNat ≤ l.length

/-- A C program that passed the error slot `slot` finds the number `n` in it afterwards. -/
def SlotHolds (slot after : Option ErrorKind) (n : UInt32) : Prop :=
  after.map errorNumber = slot.map fun _ => n

/-- No plane of the caller has changed. -/
def PlanesKept (c : CCall) (o : ConvertOut) : Prop :=
  ∀ p, o.planes = some p → ∃ db, c.dst_buffers = some db ∧ p.1.map some = db.take p.1.length

end Verif.Spec
