import Verif.Model.CApi
/-!
# The references the C interface makes of the caller's pointers

`src/lib.rs:1054-1164`, followed once more with addresses: which slices are formed by
`slice::from_raw_parts`, with which element size and length, and which elements of the arrays of
references remain uninitialised. The control flow is that of `dcp_get_buffers_size` and
`dcp_convert_image` in `Model.CApi` (`convertRefs_none` ties them together).
-/

namespace Verif.CApi

/-- A slice: address, bytes per element, number of elements, and whether it is a `&mut`. -/
structure Slice where
  addr : Nat
  elem : Nat
  len : Nat
  excl : Bool
  deriving DecidableEq, Repr

/-- Where the arrays and planes of a call are. -/
structure Places where
  src_strides : Nat
  dst_strides : Nat
  sizes : Nat
  src : Nat → Nat
  dst : Nat → Nat

/-- `size_of::<usize>()`. -/
def usizeBytes (t : Target) : Nat := t.bits / 8

/-- lib.rs:1043-1068: the slices `dcp_get_buffers_size` forms. -/
def sizesSlices (t : Target) (p : Places) (format : Option CFormat) (strides : Option (List Nat))
    (buffers_size : Option (List Nat)) : R (List Slice) := do
  if format.isNone || buffers_size.isNone then
    return []
  let format ← deref format
  if !Dispatcher.is_pixel_format_valid format.pixel_format then
    return []
  let num_planes := format.num_planes.toNat
  if !(← PixFmt.are_planes_compatible format.pixel_format format.num_planes) then
    return []
  let strides := match strides with
    | none => []
    | some _ => [⟨p.src_strides, usizeBytes t, num_planes, false⟩]
  return strides ++ [⟨p.sizes, usizeBytes t, num_planes, true⟩]

/-- The arguments `dcp_convert_image` prepares for `convert_image`: two arrays of four references to
planes (`none`: uninitialised), and the slices made of the stride arrays. -/
structure Refs where
  src : List (Option Slice)
  dst : List (Option Slice)
  strides : List Slice

/-- lib.rs:1117-1133 and 1135-1151, for `n` planes that are there: the references, one for each plane,
and uninitialised elements. -/
def planeRefs (t : Target) (place : Nat → Nat) (excl : Bool) (n : Nat) : List (Option Slice) :=
  (List.range n).map (fun i => some ⟨place i, 1, t.imax, excl⟩) ++
    List.replicate (PixFmt.MAX_NUMBER_OF_PLANES - n) none

/-- lib.rs:1153-1164: the slice made of a stride array. -/
def strideRef (t : Target) (addr : Nat) : Option (List Nat) → List Slice
  | none => []
  | some _ => [⟨addr, usizeBytes t, t.imax, false⟩]

/-- lib.rs:1087-1164: the references `dcp_convert_image` hands to `convert_image`; `none` if the call
is rejected before. -/
def convertRefs (t : Target) (p : Places) (c : CCall) : R (Option Refs) := do
  if c.src_format.isNone || c.dst_format.isNone || c.src_buffers.isNone
      || c.dst_buffers.isNone then
    return none
  let sf ← deref c.src_format
  let df ← deref c.dst_format
  if !Dispatcher.is_pixel_format_valid sf.pixel_format
      || !Dispatcher.is_pixel_format_valid df.pixel_format
      || !Dispatcher.is_color_space_valid sf.color_space
      || !Dispatcher.is_color_space_valid df.color_space then
    return none
  let a ← PixFmt.are_planes_compatible sf.pixel_format sf.num_planes
  let b ← PixFmt.are_planes_compatible df.pixel_format df.num_planes
  if !a || !b then
    return none
  let src ← deref c.src_buffers
  match ← planePtrs src 0 (min sf.num_planes.toNat PixFmt.MAX_NUMBER_OF_PLANES) with
  | none => return none
  | some src => do
    let dst ← deref c.dst_buffers
    match ← planePtrs dst 0 (min df.num_planes.toNat PixFmt.MAX_NUMBER_OF_PLANES) with
    | none => return none
    | some dst => return some ⟨planeRefs t p.src false src.length, planeRefs t p.dst true dst.length,
        strideRef t p.src_strides c.src_strides ++ strideRef t p.dst_strides c.dst_strides⟩

end Verif.CApi
