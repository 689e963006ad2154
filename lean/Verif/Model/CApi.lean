import Verif.Model.Api
/-!
# `src/lib.rs`: the C interface (`mod c_api`, lib.rs:984-1180)

Pointers are options (`none` is the null pointer) to what they point at.  Reading through a null
pointer, or an element behind the end of a caller's array, is undefined behaviour: the model faults.
The caller's enums are raw 32-bit numbers (the Rust code reads them through a reference to a Rust
enum and converts them with `as u32`; that an out-of-range discriminant is undefined behaviour for
the compiler is not modelled).

The library does not know the size of the caller's arrays and pretends that they have `isize::MAX`
elements.  The contents behind the real end are parameters of the model (`World`): a run whose
result is the same in every world has not used them.
-/

namespace Verif.CApi

/-- A C `ImageFormat`: lib.rs:366-373 with raw enum values. -/
structure CFormat where
  pixel_format : UInt32
  color_space : UInt32
  num_planes : UInt32
  deriving DecidableEq, Repr

/-- The Rust pixel format with a given discriminant (pixel_format.rs:21-62). -/
def pixelFormat? (x : UInt32) : Option PixelFormat :=
  [PixelFormat.argb, .bgra, .bgr, .rgba, .rgb, .i444, .i422, .i420, .nv12][x.toNat]?

/-- The Rust colour space with a given discriminant (color_space.rs:26-42). -/
def colorSpace? (x : UInt32) : Option ColorSpace :=
  [ColorSpace.rgb, .bt601, .bt709, .bt601FR, .bt709FR][x.toNat]?

/-- The `&ImageFormat` a C structure is seen as. Only used after validation of the pixel format; an
invalid colour space, which `dcp_get_buffers_size` does not check, is replaced by `Rgb` (the function
never looks at it). -/
def CFormat.rust (f : CFormat) : ImageFormat :=
  ⟨(pixelFormat? f.pixel_format).getD .argb, (colorSpace? f.color_space).getD .rgb, f.num_planes⟩

/-- lib.rs:1001-1005. -/
inductive CResult where
  | ok | err
  deriving DecidableEq, Repr

/-- The number of a `#[repr(C)]` enumerator is its position (lib.rs:1001-1005). -/
def CResult.toU32 : CResult → UInt32
  | .ok => 0
  | .err => 1

/-- The number a C program finds in its error slot (lib.rs:291-301, `#[repr(C)]`). -/
def errorNumber : ErrorKind → UInt32
  | .invalidValue => 0
  | .invalidOperation => 1
  | .notEnoughData => 2

/-- `*p`. -/
def deref {α : Type} : Option α → R α
  | some x => .ok x
  | none => .error .oobRead

/-- lib.rs:1007-1013. The value of the error slot (`none` if the pointer is null) after the call. -/
def set_error (error : Option ErrorKind) (value : ErrorKind) : Option ErrorKind :=
  error.map fun _ => value

/-- lib.rs:1015-1024 with `CString::new`: `none` (null) if the text contains a NUL character,
otherwise the bytes (all ASCII) followed by NUL. -/
def dcp_describe_acceleration (ctx : Context) : Option (List Nat) :=
  let acc := (describe_acceleration ctx).toList.map Char.toNat
  if 0 ∈ acc then none else some (acc ++ [0])

/-- `slice::from_raw_parts(p, n)` for an array of known real size. -/
def rawSlice {α : Type} (l : List α) (n : Nat) : R (List α) :=
  if n ≤ l.length then .ok (l.take n) else .error .oobRead

/-- Outcome of `dcp_get_buffers_size`: the result, the error slot, the caller's array. -/
structure SizesOut where
  res : CResult
  error : Option ErrorKind
  sizes : Option (List Nat)
  deriving DecidableEq, Repr

/-- lib.rs:1033-1073. -/
def dcp_get_buffers_size (t : Target) (width height : UInt32) (format : Option CFormat)
    (strides : Option (List Nat)) (buffers_size : Option (List Nat)) (error : Option ErrorKind) :
    R SizesOut := do
  if format.isNone || buffers_size.isNone then
    return ⟨.err, set_error error .invalidValue, buffers_size⟩
  let format ← deref format
  if !Dispatcher.is_pixel_format_valid format.pixel_format then
    return ⟨.err, set_error error .invalidValue, buffers_size⟩
  let num_planes := format.num_planes.toNat
  if !(← PixFmt.are_planes_compatible format.pixel_format format.num_planes) then
    return ⟨.err, set_error error .invalidValue, buffers_size⟩
  let strides ← match strides with
    | none => pure none
    | some l => some <$> rawSlice l num_planes
  let array ← deref buffers_size
  let slice ← rawSlice array num_planes
  let (r, slice) ← get_buffers_size t width height format.rust strides slice
  match r with
  | .ok () => return ⟨.ok, error, some (slice ++ array.drop num_planes)⟩
  | .error e => return ⟨.err, set_error error e, some (slice ++ array.drop num_planes)⟩

/-- What lies behind the ends of the caller's stride arrays, and the contents of uninitialised array
elements. -/
structure World where
  src_strides : Nat → Nat
  dst_strides : Nat → Nat
  src_planes : List Buf
  dst_planes : List Buf

/-- `slice::from_raw_parts(p, UNBOUNDED_C_ARRAY)` (lib.rs:997, 1154-1164): the caller's elements
followed by whatever is there. -/
def unbounded (t : Target) (l : List Nat) (behind : Nat → Nat) : List Nat :=
  (List.range t.imax).map fun i => l.getD i (behind i)

/-- `slice::from_raw_parts(ptr, UNBOUNDED_C_ARRAY)` for a plane (lib.rs:1129, 1147): the real length
is replaced by `isize::MAX`. -/
def inflate (t : Target) (b : Buf) : Buf := ⟨t.imax, b.bytes⟩

/-- lib.rs:1123-1130, 1141-1148: read `n` plane pointers, starting with number `i`; `none` at the
first null pointer. -/
def planePtrs (arr : List (Option Buf)) : (i n : Nat) → R (Option (List Buf))
  | _, 0 => .ok (some [])
  | i, n + 1 =>
    match arr[i]? with
    | none => .error .oobRead
    | some none => .ok none
    | some (some b) => do
      match ← planePtrs arr (i + 1) n with
      | none => pure none
      | some bs => pure (some (b :: bs))

/-- The arguments of `dcp_convert_image` (lib.rs:1076-1086). -/
structure CCall where
  width : UInt32
  height : UInt32
  src_format : Option CFormat
  src_strides : Option (List Nat)
  src_buffers : Option (List (Option Buf))
  dst_format : Option CFormat
  dst_strides : Option (List Nat)
  dst_buffers : Option (List (Option Buf))
  error : Option ErrorKind

/-- Outcome of `dcp_convert_image`: the result, the error slot, the destination planes that were
handed to the library (with their real lengths; `none` if the call was rejected before), and the
uninitialised elements. -/
structure ConvertOut where
  res : CResult
  error : Option ErrorKind
  planes : Option (List Buf × List Buf)

/-- lib.rs:1075-1179. -/
def dcp_convert_image (t : Target) (impls : InstructionSet → Impl) (cpu : Cpu) (world : World)
    (c : CCall) : R ConvertOut := do
  let invalid : ConvertOut := ⟨.err, set_error c.error .invalidValue, none⟩
  if c.src_format.isNone || c.dst_format.isNone || c.src_buffers.isNone
      || c.dst_buffers.isNone then
    return invalid
  let sf ← deref c.src_format
  let df ← deref c.dst_format
  if !Dispatcher.is_pixel_format_valid sf.pixel_format
      || !Dispatcher.is_pixel_format_valid df.pixel_format
      || !Dispatcher.is_color_space_valid sf.color_space
      || !Dispatcher.is_color_space_valid df.color_space then
    return invalid
  let a ← PixFmt.are_planes_compatible sf.pixel_format sf.num_planes
  let b ← PixFmt.are_planes_compatible df.pixel_format df.num_planes
  if !a || !b then
    return invalid
  let src ← deref c.src_buffers
  match ← planePtrs src 0 (min sf.num_planes.toNat PixFmt.MAX_NUMBER_OF_PLANES) with
  | none => return invalid
  | some src => do
    let dst ← deref c.dst_buffers
    match ← planePtrs dst 0 (min df.num_planes.toNat PixFmt.MAX_NUMBER_OF_PLANES) with
    | none => return invalid
    | some dst => do
      let (r, out) ← convert t impls cpu
        ⟨c.width, c.height, sf.rust,
          c.src_strides.map fun l => unbounded t l world.src_strides,
          src.map (inflate t) ++ world.src_planes.take (PixFmt.MAX_NUMBER_OF_PLANES - src.length),
          df.rust,
          c.dst_strides.map fun l => unbounded t l world.dst_strides,
          dst.map (inflate t) ++ world.dst_planes.take (PixFmt.MAX_NUMBER_OF_PLANES - dst.length)⟩
      let planes := some (dst.zipWith (fun b o => ⟨b.len, o.bytes⟩) out, out.drop dst.length)
      match r with
      | .ok () => return ⟨.ok, c.error, planes⟩
      | .error e => return ⟨.err, set_error c.error e, planes⟩

end Verif.CApi
