import Verif.Spec.Api
import Verif.Model.Api
/-!
# What `convert_image` checks and what it accesses

`Accepts` is the condition on strides and buffers tested before a conversion, `InBounds` the
condition under which the accesses of the conversion itself stay inside the buffers. Both are written
with the geometry of the image (`dims`, `strideOf`) only.
-/

namespace Verif.Spec

/-- Bytes of a line of an RGB source image, counted from its beginning, up to the last byte read by
the conversion to `dst` compiled for `set`. -/
def readEnd (set : InstructionSet) (src dst : PixelFormat) (w : Nat) : Nat :=
  match src with
  | .bgra =>
    if isRgb dst then (if w % 8 = 0 then 4 * w else 4 * w - 1)
    else match set with
      | .x86 => 4 * w - 1
      | .sse2 => if w % 4 = 0 then 4 * w else 4 * w - 1
      | .avx2 | .neon => if w % 8 = 0 then 4 * w else 4 * w - 1
  | .bgr =>
    if isRgb dst then 3 * w
    else match set with
      | .sse2 => if 12 ≤ w then max (3 * w) (3 * (12 * (w / 12)) + 4) else 3 * w
      | .avx2 => if 24 ≤ w then max (3 * w) (3 * (24 * (w / 24)) + 8) else 3 * w
      | .x86 | .neon => 3 * w
  | pf => bpp pf * w

/-- In every plane the last line ends inside the buffer; `lineEnd row` bytes are accessed in a line of
`row` bytes. -/
def LinesInside (f : ImageFormat) (w h : UInt32) (strides : Option (List Nat)) (bufs : List Buf)
    (lineEnd : Nat → Nat) : Prop :=
  ∀ (i : Nat) (b : Buf) (rc : Nat × Nat), bufs[i]? = some b →
    (dims f.pixel_format f.num_planes.toNat w.toNat h.toNat)[i]? = some rc →
    strideOf strides i rc.1 * (rc.2 - 1) + lineEnd rc.1 ≤ b.len

/-- Every byte accessed by the conversion lies in its buffer. -/
structure InBounds (set : InstructionSet) (c : Call) : Prop where
  src : LinesInside c.src_format c.width c.height c.src_strides c.src_buffers fun row =>
    if isRgb c.src_format.pixel_format then
      readEnd set c.src_format.pixel_format c.dst_format.pixel_format c.width.toNat
    else row
  dst : LinesInside c.dst_format c.width c.height c.dst_strides c.dst_buffers fun row => row

/-- What is checked of one image: a stride and a buffer for every plane, and a buffer of at least one
stride plus one *line* for every further line. In conversions between RGB formats (`px`) a line is
taken to have as many bytes as it has pixels. A single-plane Nv12 image is split after `h` strides. -/
structure AcceptsImage (px : Bool) (f : ImageFormat) (w h : UInt32) (strides : Option (List Nat))
    (bufs : List Buf) : Prop where
  strides_len : ∀ l, strides = some l → f.num_planes.toNat ≤ l.length
  bufs_len : f.num_planes.toNat ≤ bufs.length
  plane : ¬ (f.pixel_format = .nv12 ∧ f.num_planes.toNat = 1) → ∀ (i : Nat) (b : Buf) (rc : Nat × Nat),
    bufs[i]? = some b →
    (dims f.pixel_format f.num_planes.toNat w.toNat h.toNat)[i]? = some rc →
    strideOf strides i rc.1 + (if px then w.toNat else rc.1) * (rc.2 - 1) ≤ b.len
  single : f.pixel_format = .nv12 → f.num_planes.toNat = 1 → ∀ b, bufs[0]? = some b →
    w.toNat ≤ strideOf strides 0 w.toNat ∧
    strideOf strides 0 w.toNat * (h.toNat + 1) + w.toNat * (h.toNat / 2 - 1) ≤ b.len

/-- The condition on strides and buffers tested before a conversion. -/
structure Accepts (c : Call) : Prop where
  src : AcceptsImage (isRgb c.src_format.pixel_format && isRgb c.dst_format.pixel_format)
    c.src_format c.width c.height c.src_strides c.src_buffers
  dst : AcceptsImage (isRgb c.src_format.pixel_format && isRgb c.dst_format.pixel_format)
    c.dst_format c.width c.height c.dst_strides c.dst_buffers

/-- The size of the luma part of a single-plane Nv12 image is representable. -/
def SplitFits (t : Target) (f : ImageFormat) (w h : UInt32) (strides : Option (List Nat)) : Prop :=
  f.pixel_format = .nv12 → f.num_planes.toNat = 1 →
    strideOf strides 0 w.toNat * h.toNat < 2 ^ t.bits

/-- The sizes computed before a conversion are representable: the length of a packed line of an RGB
image (which it is on every 64-bit target) and the size of the luma part of a single-plane Nv12
image. -/
structure SizesFit (t : Target) (f : ImageFormat) (w h : UInt32) (strides : Option (List Nat)) :
    Prop where
  row : isRgb f.pixel_format = true → bpp f.pixel_format * w.toNat < 2 ^ t.bits
  split : SplitFits t f w h strides

/-- Strides of Rgb <-> Bgra conversions are at least one packed line. -/
def WideStrides (c : Call) : Prop :=
  (c.src_format.pixel_format = .rgb ∧ c.dst_format.pixel_format = .bgra) ∨
  (c.src_format.pixel_format = .bgra ∧ c.dst_format.pixel_format = .rgb) →
  bpp c.src_format.pixel_format * c.width.toNat ≤
    strideOf c.src_strides 0 (bpp c.src_format.pixel_format * c.width.toNat) ∧
  bpp c.dst_format.pixel_format * c.width.toNat ≤
    strideOf c.dst_strides 0 (bpp c.dst_format.pixel_format * c.width.toNat)

/-- The parts of a line (first pixel, number of pixels) that the Rgb <-> Bgra conversions convert in
this order, as far as their length in bytes is subtracted from the strides. -/
def parts (set : InstructionSet) (src dst : PixelFormat) (w : Nat) : List (Nat × Nat) :=
  match src, dst with
  | .rgb, .bgra =>
    match set with
    | .x86 => [(0, w)]
    | .sse2 => [(0, 16 * (w / 16)), (16 * (w / 16), w % 16)]
    | .avx2 => [(0, 32 * (w / 32)), (32 * (w / 32), w % 32)]
    | .neon => [(16 * (w / 16), w % 16)]
  | .bgra, .rgb =>
    match set with
    | .neon => [(16 * (w / 16), w % 16)]
    | _ => [(0, w)]
  | _, _ => []

/-- Pixels at the end of a line that the Rgb -> Bgra conversion leaves to the portable code. -/
def scalarPart (set : InstructionSet) (w : Nat) : Nat :=
  match set with
  | .x86 => w
  | .avx2 => w % 32
  | _ => w % 16

/-- Without overflow checks and with a stride smaller than these pixels, the portable code for
Rgb -> Bgra takes the gap between lines for a large one: if their number is a multiple of eight it reads
two bytes beyond every line but the last, which lie in the buffer. -/
def SurplusInside (t : Target) (set : InstructionSet) (c : Call) : Prop :=
  c.src_format.pixel_format = .rgb → c.dst_format.pixel_format = .bgra → t.checked = false →
  strideOf c.src_strides 0 (3 * c.width.toNat) < 3 * scalarPart set c.width.toNat →
  scalarPart set c.width.toNat % 8 = 0 → 2 ≤ c.height.toNat → ∀ b, c.src_buffers[0]? = some b →
  strideOf c.src_strides 0 (3 * c.width.toNat) * (c.height.toNat - 2) + 3 * c.width.toNat + 2 ≤ b.len

/-- `n` pixels fit into the strides. -/
def PixelsFit (c : Call) (n : Nat) : Prop :=
  bpp c.src_format.pixel_format * n ≤
    strideOf c.src_strides 0 (bpp c.src_format.pixel_format * c.width.toNat) ∧
  bpp c.dst_format.pixel_format * n ≤
    strideOf c.dst_strides 0 (bpp c.dst_format.pixel_format * c.width.toNat)

/-- Every part fits into the strides. -/
def PartsFit (set : InstructionSet) (c : Call) : Prop :=
  ∀ p, p ∈ parts set c.src_format.pixel_format c.dst_format.pixel_format c.width.toNat →
    PixelsFit c p.2

/-- The first `n` pixels of every line lie inside the buffers. -/
def PixelsInside (c : Call) (n : Nat) : Prop :=
  LinesInside c.src_format c.width c.height c.src_strides c.src_buffers
    (fun _ => bpp c.src_format.pixel_format * n) ∧
  LinesInside c.dst_format c.width c.height c.dst_strides c.dst_buffers
    (fun _ => bpp c.dst_format.pixel_format * n)

/-- A part does not fit though the pixels before it lie inside the buffers. -/
def PartOverflow (set : InstructionSet) (c : Call) : Prop :=
  ∃ p, p ∈ parts set c.src_format.pixel_format c.dst_format.pixel_format c.width.toNat ∧
    ¬ PixelsFit c p.2 ∧ (0 < p.1 → PixelsInside c p.1)

/-- The AVX2 code for Bgra -> Rgb computes the offsets of the lines before it accesses any: in images
narrower than 8 pixels whose last line begins beyond `usize` this overflows first. -/
def LastLineOverflow (t : Target) (set : InstructionSet) (c : Call) : Prop :=
  set = .avx2 ∧ c.src_format.pixel_format = .bgra ∧ c.dst_format.pixel_format = .rgb ∧
  t.checked = true ∧ c.width.toNat < 8 ∧
  (2 ^ t.bits ≤ strideOf c.src_strides 0 (4 * c.width.toNat) * (c.height.toNat - 1) ∨
   2 ^ t.bits ≤ strideOf c.dst_strides 0 (3 * c.width.toNat) * (c.height.toNat - 1))

/-- Pixels that the encoders for `set` convert at a time; a line shorter than that is left to the
portable code. -/
def groupWidth (set : InstructionSet) (src : PixelFormat) : Option Nat :=
  match set with
  | .x86 => none
  | .sse2 => some (if src = .bgr then 12 else 4)
  | .avx2 => some (if src = .bgr then 24 else 8)
  | .neon => some 8

/-- Some pixels of a line are converted by vector instructions. -/
def Vectorised (set : InstructionSet) (src : PixelFormat) (w : Nat) : Prop :=
  ∃ n, groupWidth set src = some n ∧ n ≤ w

/-- The vectorised 4:2:0 encoders compute the offsets of two lines before they access the first of
them: if the fourth line begins beyond `usize` this overflows, before the third line is accessed. -/
def FourthLineOverflow (t : Target) (set : InstructionSet) (c : Call) : Prop :=
  isRgb c.src_format.pixel_format = true ∧
  (c.dst_format.pixel_format = .nv12 ∨ c.dst_format.pixel_format = .i420) ∧
  t.checked = true ∧ Vectorised set c.src_format.pixel_format c.width.toNat ∧ 4 ≤ c.height.toNat ∧
  (2 ^ t.bits ≤ 3 * strideOf c.src_strides 0
    (bpp c.src_format.pixel_format * c.width.toNat) ∨
   2 ^ t.bits ≤ 3 * strideOf c.dst_strides 0 c.width.toNat)

/-- The offset of a line overflows before an access leaves a buffer. -/
def OffsetOverflow (t : Target) (set : InstructionSet) (c : Call) : Prop :=
  LastLineOverflow t set c ∨ FourthLineOverflow t set c

/-- What is checked of one image if its sizes are computed modulo the size of the address space: the
length of a packed line of an RGB image, and the size of the luma part of a single-plane Nv12 image,
after which the buffer is split. -/
def WrappedImage (t : Target) (px : Bool) (f : ImageFormat) (w h : UInt32)
    (strides : Option (List Nat)) (bufs : List Buf) : Prop :=
  if f.pixel_format = .nv12 ∧ f.num_planes.toNat = 1 then
    ∀ b, bufs[0]? = some b →
      strideOf strides 0 w.toNat * h.toNat % 2 ^ t.bits ≤ b.len ∧
      strideOf strides 0 w.toNat + w.toNat * (h.toNat - 1) ≤
        strideOf strides 0 w.toNat * h.toNat % 2 ^ t.bits ∧
      strideOf strides 0 w.toNat + w.toNat * (h.toNat / 2 - 1) ≤
        b.len - strideOf strides 0 w.toNat * h.toNat % 2 ^ t.bits
  else if isRgb f.pixel_format = true then
    ∀ b, bufs[0]? = some b →
      strideOf strides 0 (bpp f.pixel_format * w.toNat % 2 ^ t.bits) +
        (if px then w.toNat else bpp f.pixel_format * w.toNat % 2 ^ t.bits) * (h.toNat - 1) ≤ b.len
  else AcceptsImage px f w h strides bufs

/-- The condition tested by builds without overflow checks if one of these sizes exceeds `usize`. -/
def WrapAccepts (t : Target) (c : Call) : Prop :=
  WrappedImage t (isRgb c.src_format.pixel_format && isRgb c.dst_format.pixel_format)
    c.src_format c.width c.height c.src_strides c.src_buffers ∧
  WrappedImage t (isRgb c.src_format.pixel_format && isRgb c.dst_format.pixel_format)
    c.dst_format c.width c.height c.dst_strides c.dst_buffers

/-- A stride (if strides are given) and a buffer for every plane. -/
def Supplied (f : ImageFormat) (strides : Option (List Nat)) (bufs : List Buf) : Prop :=
  (∀ l, strides = some l → f.num_planes.toNat ≤ l.length) ∧ f.num_planes.toNat ≤ bufs.length

/-- A legal request for a supported conversion of a non-empty image with real slices; nothing is
assumed about number and size of the strides and buffers. -/
structure Asked (t : Target) (c : Call) : Prop where
  src_legal : Legal c.src_format c.width c.height
  dst_legal : Legal c.dst_format c.width c.height
  supported : Supported c.src_format.pixel_format c.dst_format.pixel_format
  width_ne : c.width ≠ 0
  height_ne : c.height ≠ 0
  src_real : ∀ b, b ∈ c.src_buffers → b.len ≤ t.imax
  dst_real : ∀ b, b ∈ c.dst_buffers → b.len ≤ t.imax

/-- Moreover the sizes computed before the conversion are representable. -/
structure Checked (t : Target) (c : Call) : Prop extends Asked t c where
  src_sizes : SizesFit t c.src_format c.width c.height c.src_strides
  dst_sizes : SizesFit t c.dst_format c.width c.height c.dst_strides

end Verif.Spec
