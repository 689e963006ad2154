import Verif.Model.PixelFormat
import Verif.Model.Dispatcher
import Verif.Model.CpuInfo
import Verif.Model.Wrappers
/-!
# `src/lib.rs`: dispatch table, `Context`, `get_buffers_size`, `convert_image`
-/

namespace Verif

/-- lib.rs:293-301. -/
inductive ErrorKind where
  | invalidValue | invalidOperation | notEnoughData
  deriving DecidableEq, Repr

/-- lib.rs:366-373. -/
structure ImageFormat where
  pixel_format : PixelFormat
  color_space : ColorSpace
  num_planes : UInt32
  deriving DecidableEq, Repr

/-- The kernels provided by one instruction-set module (x86.rs, sse2.rs, avx2.rs, neon.rs), i.e.
what its wrapper functions run once the arguments are validated. -/
structure Impl where
  /-- `nv12_rgb::<COLORIMETRY, DEPTH, REVERSED>` -/
  nv12_rgb : Target → Colorimetry → (depth : Nat) → (reversed : Bool) → Wrap.Nv12RgbKernel
  /-- `i420_rgb::<COLORIMETRY, DEPTH, REVERSED>` -/
  i420_rgb : Target → Colorimetry → (depth : Nat) → (reversed : Bool) → Wrap.PlanarRgbKernel
  /-- `i444_rgb::<COLORIMETRY, DEPTH, REVERSED>` -/
  i444_rgb : Target → Colorimetry → (depth : Nat) → (reversed : Bool) → Wrap.PlanarRgbKernel
  /-- `rgb_i444::<SAMPLER, DEPTH, COLORIMETRY>` -/
  rgb_i444 : Target → Sampler → (depth : Nat) → Colorimetry → Wrap.RgbPlanarKernel
  /-- `rgb_i420::<SAMPLER, DEPTH, COLORIMETRY>` -/
  rgb_i420 : Target → Sampler → (depth : Nat) → Colorimetry → Wrap.RgbPlanarKernel
  /-- `rgb_nv12::<SAMPLER, DEPTH, COLORIMETRY>` -/
  rgb_nv12 : Target → Sampler → (depth : Nat) → Colorimetry → Wrap.RgbNv12Kernel
  /-- `rgb_bgra` -/
  rgb_bgra : Target → Wrap.RgbRgbKernel
  /-- `bgra_rgb` -/
  bgra_rgb : Target → Wrap.RgbRgbKernel
  /-- `bgr_rgb` -/
  bgr_rgb : Target → Wrap.RgbRgbKernel

/-- YCbCr formats for which routines exist. -/
inductive YuvFmt where
  | i420 | i444 | nv12
  deriving DecidableEq, Repr

/-- RGB formats that are destinations of YCbCr conversions. -/
inductive RgbOut where
  | bgra | rgba | rgb
  deriving DecidableEq, Repr

/-- RGB to RGB routines. -/
inductive RgbRgb where
  | bgrRgb | bgraRgb | rgbBgra
  deriving DecidableEq, Repr

/-- The converter functions generated by the macros of dispatcher.rs:22-113; e.g.
`argb_i420_bt601` is `rgbYuv .argb .i420 .bt601`. -/
inductive Routine where
  | rgbYuv (src : Sampler) (dst : YuvFmt) (cs : Colorimetry)
  | yuvRgb (src : YuvFmt) (cs : Colorimetry) (dst : RgbOut)
  | rgbRgb (r : RgbRgb)
  deriving DecidableEq, Repr

/-- A routine of one instruction-set module (`convert_image::$set::...`). -/
structure Conv where
  set : InstructionSet
  routine : Routine
  deriving DecidableEq, Repr

/-- Pixel format named like the sampler (`Sampler::$src_pf`, dispatcher.rs:37). -/
def Sampler.pf : Sampler → PixelFormat
  | .argb => .argb | .bgra => .bgra | .bgr => .bgr

/-- Pixel format of the same name. -/
def YuvFmt.pf : YuvFmt → PixelFormat
  | .i420 => .i420 | .i444 => .i444 | .nv12 => .nv12

/-- Pixel format of the same name. -/
def RgbOut.pf : RgbOut → PixelFormat
  | .bgra => .bgra | .rgba => .rgba | .rgb => .rgb

/-- Colour space of the same name (`Colorimetry::$dst_cs` vs `ColorSpace::$dst_cs`). -/
def Colorimetry.cs : Colorimetry → ColorSpace
  | .bt601 => .bt601 | .bt709 => .bt709 | .bt601FR => .bt601FR | .bt709FR => .bt709FR

/-- Source and destination (pixel format, colour space) under which a routine is registered
(lib.rs:378-433). -/
def Routine.key : Routine → (PixelFormat × ColorSpace) × (PixelFormat × ColorSpace)
  | .rgbYuv s d c => ((s.pf, .rgb), (d.pf, c.cs))
  | .yuvRgb s c d => ((s.pf, c.cs), (d.pf, .rgb))
  | .rgbRgb .bgrRgb => ((.bgr, .rgb), (.rgb, .rgb))
  | .rgbRgb .bgraRgb => ((.bgra, .rgb), (.rgb, .rgb))
  | .rgbRgb .rgbBgra => ((.rgb, .rgb), (.bgra, .rgb))

/-- Signature of a converter after binding target and kernels (lib.rs:375-376,
`ConvertDispatcher`). -/
abbrev Converter := (width height last_src_plane : UInt32) → List Nat → List Buf →
  (last_dst_plane : UInt32) → List Nat → List Dst → K Bool

/-- dispatcher.rs:24-113: which wrapper with which const-generic arguments a routine is. -/
def Routine.exec (t : Target) (I : Impl) : Routine → Converter
  | .rgbYuv s .i420 c => fun w h _ ss sb _ ds db =>
      Wrap.rgb_i420 t s.pf.depth (I.rgb_i420 t s s.pf.depth c) w h ss sb ds db
  | .rgbYuv s .i444 c => fun w h _ ss sb _ ds db =>
      Wrap.rgb_i444 t s.pf.depth (I.rgb_i444 t s s.pf.depth c) w h ss sb ds db
  | .rgbYuv s .nv12 c => fun w h _ ss sb ldp ds db =>
      Wrap.rgb_nv12 t s.pf.depth (I.rgb_nv12 t s s.pf.depth c) w h ss sb ldp.toNat ds db
  | .yuvRgb .i420 c d => fun w h _ ss sb _ ds db =>
      Wrap.i420_rgb t d.pf.depth (I.i420_rgb t c d.pf.depth d.pf.reversed) w h ss sb ds db
  | .yuvRgb .i444 c d => fun w h _ ss sb _ ds db =>
      Wrap.i444_rgb t d.pf.depth (I.i444_rgb t c d.pf.depth d.pf.reversed) w h ss sb ds db
  | .yuvRgb .nv12 c d => fun w h lsp ss sb _ ds db =>
      Wrap.nv12_rgb t d.pf.depth (I.nv12_rgb t c d.pf.depth d.pf.reversed) w h lsp.toNat ss sb ds db
  | .rgbRgb .rgbBgra => fun w h _ ss sb _ ds db =>
      Wrap.rgb_rgb t 3 4 (I.rgb_bgra t) w h ss sb ds db
  | .rgbRgb .bgraRgb => fun w h _ ss sb _ ds db =>
      Wrap.rgb_rgb t 4 3 (I.bgra_rgb t) w h ss sb ds db
  | .rgbRgb .bgrRgb => fun w h _ ss sb _ ds db =>
      Wrap.rgb_rgb t 3 3 (I.bgr_rgb t) w h ss sb ds db

/-- lib.rs:510, `DispatchTable`: `TABLE_SIZE` slots. -/
abbrev DispatchTable := Nat → Option Conv

/-- `[None; TABLE_SIZE]` -/
def DispatchTable.empty : DispatchTable := fun _ => none

/-- `$conv[i] = Some(c)`; panics when out of range. -/
def DispatchTable.set (tb : DispatchTable) (i : Nat) (c : Conv) : R DispatchTable :=
  if i < Dispatcher.TABLE_SIZE then .ok fun j => if j = i then some c else tb j
  else .error .sliceIndex

/-- Slot of an image-format pair: the nested calls of lib.rs:379-391 and 931-933. -/
def slot (src dst : PixelFormat × ColorSpace) : Nat :=
  Dispatcher.get_index
    (Dispatcher.get_image_index src.1.toU32 src.2.toU32
      (Dispatcher.get_pixel_format_mode src.1.toU32))
    (Dispatcher.get_image_index dst.1.toU32 dst.2.toU32
      (Dispatcher.get_pixel_format_mode dst.1.toU32))

/-- lib.rs:435-505, `set_dispatch_table!`: the routines in registration order. -/
def registered : List Routine := [
  .rgbRgb .bgrRgb,
  .rgbRgb .bgraRgb,
  .rgbRgb .rgbBgra,
  .rgbYuv .argb .i420 .bt601,
  .rgbYuv .argb .i420 .bt601FR,
  .rgbYuv .argb .i420 .bt709,
  .rgbYuv .argb .i420 .bt709FR,
  .rgbYuv .argb .i444 .bt601,
  .rgbYuv .argb .i444 .bt601FR,
  .rgbYuv .argb .i444 .bt709,
  .rgbYuv .argb .i444 .bt709FR,
  .rgbYuv .argb .nv12 .bt601,
  .rgbYuv .argb .nv12 .bt601FR,
  .rgbYuv .argb .nv12 .bt709,
  .rgbYuv .argb .nv12 .bt709FR,
  .rgbYuv .bgr .i420 .bt601,
  .rgbYuv .bgr .i420 .bt601FR,
  .rgbYuv .bgr .i420 .bt709,
  .rgbYuv .bgr .i420 .bt709FR,
  .rgbYuv .bgr .i444 .bt601,
  .rgbYuv .bgr .i444 .bt601FR,
  .rgbYuv .bgr .i444 .bt709,
  .rgbYuv .bgr .i444 .bt709FR,
  .rgbYuv .bgr .nv12 .bt601,
  .rgbYuv .bgr .nv12 .bt601FR,
  .rgbYuv .bgr .nv12 .bt709,
  .rgbYuv .bgr .nv12 .bt709FR,
  .rgbYuv .bgra .i420 .bt601,
  .rgbYuv .bgra .i420 .bt601FR,
  .rgbYuv .bgra .i420 .bt709,
  .rgbYuv .bgra .i420 .bt709FR,
  .rgbYuv .bgra .i444 .bt601,
  .rgbYuv .bgra .i444 .bt601FR,
  .rgbYuv .bgra .i444 .bt709,
  .rgbYuv .bgra .i444 .bt709FR,
  .rgbYuv .bgra .nv12 .bt601,
  .rgbYuv .bgra .nv12 .bt601FR,
  .rgbYuv .bgra .nv12 .bt709,
  .rgbYuv .bgra .nv12 .bt709FR,
  .yuvRgb .i420 .bt601 .bgra,
  .yuvRgb .i420 .bt601 .rgba,
  .yuvRgb .i420 .bt601FR .bgra,
  .yuvRgb .i420 .bt601FR .rgba,
  .yuvRgb .i420 .bt709 .bgra,
  .yuvRgb .i420 .bt709 .rgba,
  .yuvRgb .i420 .bt709FR .bgra,
  .yuvRgb .i420 .bt709FR .rgba,
  .yuvRgb .i444 .bt601 .bgra,
  .yuvRgb .i444 .bt601 .rgba,
  .yuvRgb .i444 .bt601FR .bgra,
  .yuvRgb .i444 .bt601FR .rgba,
  .yuvRgb .i444 .bt709 .bgra,
  .yuvRgb .i444 .bt709 .rgba,
  .yuvRgb .i444 .bt709FR .bgra,
  .yuvRgb .i444 .bt709FR .rgba,
  .yuvRgb .nv12 .bt601 .bgra,
  .yuvRgb .nv12 .bt601 .rgb,
  .yuvRgb .nv12 .bt601 .rgba,
  .yuvRgb .nv12 .bt601FR .bgra,
  .yuvRgb .nv12 .bt601FR .rgb,
  .yuvRgb .nv12 .bt601FR .rgba,
  .yuvRgb .nv12 .bt709 .bgra,
  .yuvRgb .nv12 .bt709 .rgb,
  .yuvRgb .nv12 .bt709 .rgba,
  .yuvRgb .nv12 .bt709FR .bgra,
  .yuvRgb .nv12 .bt709FR .rgb,
  .yuvRgb .nv12 .bt709FR .rgba]

/-- Perform a list of registrations. -/
def register (set : InstructionSet) : List Routine → DispatchTable → R DispatchTable
  | [], tb => .ok tb
  | r :: rs, tb =>
    match tb.set (slot r.key.1 r.key.2) ⟨set, r⟩ with
    | .error e => .error e
    | .ok tb => register set rs tb

/-- lib.rs:435-505: `set_dispatch_table!` on an empty table. -/
def set_dispatch_table (set : InstructionSet) : R DispatchTable :=
  register set registered .empty

/-- lib.rs:512-518. `test_converters` is only present with the `test_instruction_sets` feature. -/
structure Context where
  manufacturer : CpuManufacturer
  set : InstructionSet
  converters : DispatchTable
  test_converters : List (Option DispatchTable)

/-- lib.rs:526-589. The three architecture-specific `match`es are merged: which instruction sets
can occur is determined by `cpu_info::get`. -/
def Context.new (cpu : Cpu) : R Context := do
  let (manufacturer, set) := CpuInfo.get cpu
  match set with
  | .x86 => do
    let conv ← set_dispatch_table .x86
    return ⟨manufacturer, set, conv, [none, none, none]⟩
  | .sse2 => do
    let conv ← set_dispatch_table .sse2
    let x86 ← set_dispatch_table .x86
    return ⟨manufacturer, set, conv, [some x86, none, none]⟩
  | .avx2 => do
    let conv ← set_dispatch_table .avx2
    let sse2 ← set_dispatch_table .sse2
    let x86 ← set_dispatch_table .x86
    return ⟨manufacturer, set, conv, [some x86, some sse2, none]⟩
  | .neon => do
    let conv ← set_dispatch_table .neon
    let x86 ← set_dispatch_table .x86
    return ⟨manufacturer, set, conv, [some x86, none, none]⟩

/-- Rust `Debug` names (cpu_info.rs:23-41, `#[derive(Debug)]`). -/
def CpuManufacturer.debug : CpuManufacturer → String
  | .unknown => "Unknown" | .intel => "Intel" | .amd => "Amd"

/-- Rust `Debug` names. -/
def InstructionSet.debug : InstructionSet → String
  | .x86 => "X86" | .sse2 => "Sse2" | .avx2 => "Avx2" | .neon => "Neon"

/-- lib.rs:600-607. -/
def describe_acceleration (ctx : Context) : String :=
  "{cpu-manufacturer:" ++ ctx.manufacturer.debug ++ ",instruction-set:" ++ ctx.set.debug ++ "}"

/-- lib.rs:724-749. Returns the result and the new contents of `buffers_size`. -/
def get_buffers_size (t : Target) (width height : UInt32) (format : ImageFormat)
    (strides : Option (List Nat)) (buffers_size : List Nat) :
    R (Except ErrorKind Unit × List Nat) := do
  let pixel_format := format.pixel_format.toU32
  let last_plane := format.num_planes - 1
  if !(← PixFmt.is_compatible pixel_format width height last_plane) then
    return (.error .invalidValue, buffers_size)
  let (ok, bs) ← PixFmt.get_buffers_size t pixel_format width height last_plane
    (strides.getD PixFmt.DEFAULT_STRIDES) buffers_size
  if ok then return (.ok (), bs) else return (.error .notEnoughData, bs)

/-- lib.rs:936-946: the table used by `convert_image`. `test_set` is the value of `TEST_SET` when
the feature `test_instruction_sets` is enabled, `none` otherwise; the cast `as usize` maps -1 to
an index outside the array. -/
def select_table (ctx : Context) (test_set : Option Int) : DispatchTable :=
  match test_set with
  | none => ctx.converters
  | some k =>
    if k < 0 then ctx.converters
    else match ctx.test_converters[k.toNat]? with
      | some (some tb) => tb
      | _ => ctx.converters

/-- Full slices of the destination buffers. -/
def dstSlices (dst : List Buf) : List Dst := dst.mapIdx fun i b => ⟨i, 0, b.len⟩

/-- lib.rs:891-972 with the dispatch table as a parameter; `impls` gives the kernels of each
instruction-set module. Returns the result and the emitted writes. -/
def convert_image_with (t : Target) (impls : InstructionSet → Impl) (tb : DispatchTable)
    (width height : UInt32)
    (src_format : ImageFormat) (src_strides : Option (List Nat)) (src_buffers : List Buf)
    (dst_format : ImageFormat) (dst_strides : Option (List Nat)) (dst_buffers : List Dst) :
    K (Except ErrorKind Unit) :=
  let src_pixel_format := src_format.pixel_format.toU32
  let dst_pixel_format := dst_format.pixel_format.toU32
  let src_color_space := src_format.color_space.toU32
  let dst_color_space := dst_format.color_space.toU32
  let src_pf_mode := Dispatcher.get_pixel_format_mode src_pixel_format
  let src_cs_mode := Dispatcher.get_color_space_mode src_color_space
  let dst_pf_mode := Dispatcher.get_pixel_format_mode dst_pixel_format
  let dst_cs_mode := Dispatcher.get_color_space_mode dst_color_space
  if (src_pf_mode ^^ src_cs_mode) || (dst_pf_mode ^^ dst_cs_mode) then
    pure (.error .invalidValue)
  else do
    let last_src_plane := src_format.num_planes - 1
    if !(← PixFmt.is_compatible src_pixel_format width height last_src_plane) then
      pure (.error .invalidValue)
    else do
      let last_dst_plane := dst_format.num_planes - 1
      if !(← PixFmt.is_compatible dst_pixel_format width height last_dst_plane) then
        pure (.error .invalidValue)
      else
        let src_index := Dispatcher.get_image_index src_pixel_format src_color_space src_pf_mode
        let dst_index := Dispatcher.get_image_index dst_pixel_format dst_color_space dst_pf_mode
        let index := Dispatcher.get_index src_index dst_index
        if index ≥ Dispatcher.TABLE_SIZE then pure (.error .invalidOperation)
        else match tb index with
          | none => pure (.error .invalidOperation)
          | some conv => do
            let ok ← conv.routine.exec t (impls conv.set) width height last_src_plane
              (src_strides.getD PixFmt.DEFAULT_STRIDES) src_buffers last_dst_plane
              (dst_strides.getD PixFmt.DEFAULT_STRIDES) dst_buffers
            if ok then pure (.ok ()) else pure (.error .notEnoughData)

/-- lib.rs:891-972: `convert_image` observed from outside: the result and the destination buffers
after the call (or a fault). -/
def convert_image (t : Target) (impls : InstructionSet → Impl) (tb : DispatchTable)
    (width height : UInt32)
    (src_format : ImageFormat) (src_strides : Option (List Nat)) (src_buffers : List Buf)
    (dst_format : ImageFormat) (dst_strides : Option (List Nat)) (dst_buffers : List Buf) :
    R (Except ErrorKind Unit × List Buf) :=
  match (convert_image_with t impls tb width height src_format src_strides src_buffers
      dst_format dst_strides (dstSlices dst_buffers)).run with
  | .error e => .error e
  | .ok (r, ws) => .ok (r, withMem dst_buffers ((memOf dst_buffers).apply ws))

end Verif
