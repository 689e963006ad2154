import Verif.Spec.Image
import Verif.Model.Lib
/-!
# What a caller of the library relies on

Written from the documentation of `ImageFormat`, `get_buffers_size` and `convert_image`; the only
things taken from the model are the API types (`PixelFormat`, `ColorSpace`, `ImageFormat`, `Buf`).
-/

namespace Verif.Spec

/-- RGB formats (as opposed to YCbCr formats). -/
def isRgb : PixelFormat → Bool
  | .argb | .bgra | .bgr | .rgba | .rgb => true
  | .i444 | .i422 | .i420 | .nv12 => false

/-- Standard denoted by a YCbCr colour space. -/
def std : ColorSpace → Std
  | .rgb => .bt601  -- not a YCbCr colour space, never used
  | .bt601 => .bt601
  | .bt709 => .bt709
  | .bt601FR => .bt601FR
  | .bt709FR => .bt709FR

/-- RGB formats go with the RGB colour space, YCbCr formats with the others. -/
def CsOk (f : ImageFormat) : Prop :=
  isRgb f.pixel_format = true ↔ f.color_space = .rgb

/-- Size constraints of a pixel format: horizontally subsampled formats need an even width,
vertically subsampled formats an even height. -/
def SizeOk : PixelFormat → (w h : Nat) → Prop
  | .i422, w, _ => w % 2 = 0
  | .i420, w, h => w % 2 = 0 ∧ h % 2 = 0
  | .nv12, w, h => w % 2 = 0 ∧ h % 2 = 0
  | _, _, _ => True

/-- Number of planes an image of a given format may be stored in. -/
def PlanesOk : PixelFormat → Nat → Prop
  | .i444, n | .i422, n | .i420, n => n = 3
  | .nv12, n => n = 1 ∨ n = 2
  | _, n => n = 1

instance (f : ImageFormat) : Decidable (CsOk f) := by unfold CsOk; infer_instance
instance (pf : PixelFormat) (w h : Nat) : Decidable (SizeOk pf w h) := by
  cases pf <;> unfold SizeOk <;> infer_instance
instance (pf : PixelFormat) (n : Nat) : Decidable (PlanesOk pf n) := by
  cases pf <;> unfold PlanesOk <;> infer_instance

/-- An image description that does not violate any constraint. -/
structure Legal (f : ImageFormat) (w h : UInt32) : Prop where
  cs : CsOk f
  size : SizeOk f.pixel_format w.toNat h.toNat
  planes : PlanesOk f.pixel_format f.num_planes.toNat

/-- Size and number of planes are fine (the colour space does not matter). -/
structure Shape (f : ImageFormat) (w h : UInt32) : Prop where
  size : SizeOk f.pixel_format w.toNat h.toNat
  planes : PlanesOk f.pixel_format f.num_planes.toNat

/-- The table of available conversions in the documentation of `convert_image` (19 pairs). -/
def documented : List (PixelFormat × PixelFormat) := [
  (.argb, .i420), (.argb, .i444), (.argb, .nv12),
  (.bgra, .i420), (.bgra, .i444), (.bgra, .nv12), (.bgra, .rgb),
  (.bgr, .i420), (.bgr, .i444), (.bgr, .nv12), (.bgr, .rgb),
  (.i420, .bgra), (.i420, .rgba),
  (.i444, .bgra), (.i444, .rgba),
  (.nv12, .bgra), (.nv12, .rgb), (.nv12, .rgba),
  (.rgb, .bgra)]

/-- The conversion is in the table. -/
def Supported (src dst : PixelFormat) : Prop := (src, dst) ∈ documented

instance (s d : PixelFormat) : Decidable (Supported s d) := by unfold Supported; infer_instance

/-- Geometry of the planes of an image in memory: for each plane the number of bytes of a packed
line and the number of lines. A single-plane Nv12 image is the luma lines followed by the chroma
lines. -/
def dims (pf : PixelFormat) (planes w h : Nat) : List (Nat × Nat) :=
  match pf with
  | .argb | .bgra | .bgr | .rgba | .rgb => [(bpp pf * w, h)]
  | .i444 => [(w, h), (w, h), (w, h)]
  | .i422 => [(w, h), (w / 2, h), (w / 2, h)]
  | .i420 => [(w, h), (w / 2, h / 2), (w / 2, h / 2)]
  | .nv12 => if planes = 1 then [(w, h + h / 2)] else [(w, h), (w, h / 2)]

/-- A stride argument: `None` and 0 (`STRIDE_AUTO`) mean packed lines. -/
def strideOf (strides : Option (List Nat)) (i row : Nat) : Nat :=
  match strides with
  | none => row
  | some l => if l.getD i 0 = 0 then row else l.getD i 0

/-- A plane of `rows` lines of `row` bytes at distance `stride` lies inside a buffer of `len`
bytes, lines do not overlap, and the buffer is at least one stride long (the last condition only
matters for images with a single line). -/
structure PlaneFits (len stride row rows : Nat) : Prop where
  row_le : row ≤ stride
  extent : stride * (rows - 1) + row ≤ len
  stride_le : stride ≤ len

/-- Strides and buffers are present for every plane, and every plane lies inside its buffer. -/
structure Fits (f : ImageFormat) (w h : UInt32) (strides : Option (List Nat)) (bufs : List Buf) :
    Prop where
  strides_len : ∀ l, strides = some l → f.num_planes.toNat ≤ l.length
  bufs_len : f.num_planes.toNat ≤ bufs.length
  plane : ∀ i b rc, bufs[i]? = some b →
    (dims f.pixel_format f.num_planes.toNat w.toNat h.toNat)[i]? = some rc →
    PlaneFits b.len (strideOf strides i rc.1) rc.1 rc.2
  /-- Single-plane Nv12: there is room for one full stride of chroma (only matters for images with
  two lines). -/
  chroma : ∀ b, bufs[0]? = some b → f.pixel_format = .nv12 → f.num_planes.toNat = 1 →
    strideOf strides 0 w.toNat * (h.toNat + 1) ≤ b.len

/-- Contents of buffer `i`. -/
def bytesAt (bufs : List Buf) (i : Nat) : Nat → UInt8 :=
  match bufs[i]? with
  | some b => b.bytes
  | none => fun _ => 0

/-- Plane `i` of an image, as stored: byte `j` of line `y`. -/
def planeAt (f : ImageFormat) (w h : UInt32) (strides : Option (List Nat)) (bufs : List Buf)
    (i : Nat) : Plane :=
  plane (bytesAt bufs i) (strideOf strides i
    ((dims f.pixel_format f.num_planes.toNat w.toNat h.toNat).getD i (0, 0)).1)

/-- The RGB image held by the buffers. -/
def readRgb (f : ImageFormat) (w : UInt32) (strides : Option (List Nat)) (bufs : List Buf) :
    RgbImage :=
  rgbImage f.pixel_format (bytesAt bufs 0) (strideOf strides 0 (bpp f.pixel_format * w.toNat))

/-- The YCbCr image held by the buffers. -/
def readYuv (f : ImageFormat) (w h : UInt32) (strides : Option (List Nat)) (bufs : List Buf) :
    YuvImage :=
  let p := planeAt f w h strides bufs
  match f.pixel_format with
  | .i444 => i444Image (p 0) (p 1) (p 2)
  | .i420 => i420Image (p 0) (p 1) (p 2)
  | _ => if f.num_planes = 1 then nv12Image (p 0) (fun j y => p 0 j (h.toNat + y))
    else nv12Image (p 0) (p 1)

/-- The planes of an encoded image. -/
def encodedPlanes (f : ImageFormat) (h : UInt32) (im : RgbImage) : List Plane :=
  let s := std f.color_space
  match f.pixel_format with
  | .i444 => [lumaPlane s im, cbPlane s im, crPlane s im]
  | .i420 => [lumaPlane s im, cbPlane420 s im, crPlane420 s im]
  | _ =>
    let uv := interleave (cbPlane420 s im) (crPlane420 s im)
    if f.num_planes = 1 then
      [fun j y => if y < h.toNat then lumaPlane s im j y else uv j (y - h.toNat)]
    else [lumaPlane s im, uv]

/-- The planes a conversion has to produce. -/
def resultPlanes (w h : UInt32) (sf : ImageFormat) (ss : Option (List Nat)) (sb : List Buf)
    (df : ImageFormat) : List Plane :=
  if isRgb sf.pixel_format then
    if isRgb df.pixel_format then [rgbRow df.pixel_format (readRgb sf w ss sb)]
    else encodedPlanes df h (readRgb sf w ss sb)
  else [rgbRow df.pixel_format (decoded (std sf.color_space) (readYuv sf w h ss sb))]

/-- Memory after filling `rows` lines of `row` bytes at distance `stride` with `f j y`: everything
outside these lines keeps its value. -/
def paint (old : Nat → UInt8) (stride row rows : Nat) (f : Plane) : Nat → UInt8 := fun i =>
  if i % stride < row ∧ i / stride < rows then f (i % stride) (i / stride) else old i

/-- Destination buffers after storing the given planes. Buffers beyond the planes of the format
are unchanged. -/
def painted (f : ImageFormat) (w h : UInt32) (strides : Option (List Nat)) (planes : List Plane)
    (bufs : List Buf) : List Buf :=
  bufs.mapIdx fun i b =>
    match (dims f.pixel_format f.num_planes.toNat w.toNat h.toNat)[i]?, planes[i]? with
    | some rc, some f => ⟨b.len, paint b.bytes (strideOf strides i rc.1) rc.1 rc.2 f⟩
    | _, _ => b

/-- Destination buffers after a conversion. -/
def converted (w h : UInt32) (sf : ImageFormat) (ss : Option (List Nat)) (sb : List Buf)
    (df : ImageFormat) (ds : Option (List Nat)) (db : List Buf) : List Buf :=
  painted df w h ds (resultPlanes w h sf ss sb df) db

end Verif.Spec
