import Verif.Spec.Color
import Verif.Model.PixelFormat
/-!
# Images

What it means for a byte buffer to hold an image, independently of the conversion routines: the
memory layout of each pixel format and the images obtained by converting every pixel with the
formulas of `Spec.Color`.  The only things taken from the model are the API enumerations.
-/

namespace Verif.Spec

/-- One sample per position: `p x y`. -/
abbrev Plane := Nat → Nat → UInt8

/-- An RGB image. -/
structure RgbImage where
  r : Plane
  g : Plane
  b : Plane

/-- A YCbCr image with chroma at full resolution. -/
structure YuvImage where
  y : Plane
  cb : Plane
  cr : Plane

/-- Bytes per pixel of an RGB format. -/
def bpp : PixelFormat → Nat
  | .argb | .bgra | .rgba => 4
  | .bgr | .rgb => 3
  | _ => 0

/-- Position of the red, green and blue byte inside a pixel; read off the name of the format. -/
def rgbPos : PixelFormat → Nat × Nat × Nat
  | .argb => (1, 2, 3)
  | .bgra => (2, 1, 0)
  | .bgr => (2, 1, 0)
  | .rgba => (0, 1, 2)
  | .rgb => (0, 1, 2)
  | _ => (0, 0, 0)

/-- The bytes of an opaque pixel in memory order. -/
def pixelBytes (pf : PixelFormat) (r g b : UInt8) : List UInt8 :=
  match pf with
  | .argb => [255, r, g, b]
  | .bgra => [b, g, r, 255]
  | .bgr => [b, g, r]
  | .rgba => [r, g, b, 255]
  | .rgb => [r, g, b]
  | _ => []

/-- The RGB image stored in `bytes` with the given format and distance between lines. -/
def rgbImage (pf : PixelFormat) (bytes : Nat → UInt8) (stride : Nat) : RgbImage where
  r x y := bytes (stride * y + bpp pf * x + (rgbPos pf).1)
  g x y := bytes (stride * y + bpp pf * x + (rgbPos pf).2.1)
  b x y := bytes (stride * y + bpp pf * x + (rgbPos pf).2.2)

/-- A plane with one byte per sample. -/
def plane (bytes : Nat → UInt8) (stride : Nat) : Plane := fun x y => bytes (stride * y + x)

/-- A 4:4:4 image stored in three planes. -/
def i444Image (y u v : Plane) : YuvImage := ⟨y, u, v⟩

/-- A 4:2:0 image stored in three planes: a chroma sample covers a 2x2 block. -/
def i420Image (y u v : Plane) : YuvImage where
  y := y
  cb i j := u (i / 2) (j / 2)
  cr i j := v (i / 2) (j / 2)

/-- A 4:2:0 image with Cb and Cr interleaved in one plane. -/
def nv12Image (y uv : Plane) : YuvImage where
  y := y
  cb i j := uv (2 * (i / 2)) (j / 2)
  cr i j := uv (2 * (i / 2) + 1) (j / 2)

/-- Byte `j` of line `y` of an RGB image stored in a given format. -/
def rgbRow (pf : PixelFormat) (im : RgbImage) : Plane := fun j y =>
  (pixelBytes pf (im.r (j / bpp pf) y) (im.g (j / bpp pf) y) (im.b (j / bpp pf) y)).getD
    (j % bpp pf) 0

/-- Luma plane of an RGB image. -/
def lumaPlane (s : Std) (im : RgbImage) : Plane := fun x y =>
  byte (luma s (val (im.r x y)) (val (im.g x y)) (val (im.b x y)))

/-- Cb plane (4:4:4) of an RGB image. -/
def cbPlane (s : Std) (im : RgbImage) : Plane := fun x y =>
  byte (cb s (val (im.r x y)) (val (im.g x y)) (val (im.b x y)))

/-- Cr plane (4:4:4) of an RGB image. -/
def crPlane (s : Std) (im : RgbImage) : Plane := fun x y =>
  byte (cr s (val (im.r x y)) (val (im.g x y)) (val (im.b x y)))

/-- Sum over the 2x2 block `(x, y)`. -/
def sum4 (p : Plane) (x y : Nat) : Int :=
  val (p (2 * x) (2 * y)) + val (p (2 * x + 1) (2 * y)) +
    val (p (2 * x) (2 * y + 1)) + val (p (2 * x + 1) (2 * y + 1))

/-- Subsampled Cb plane (4:2:0): chroma of the average colour of each block. -/
def cbPlane420 (s : Std) (im : RgbImage) : Plane := fun x y =>
  byte (cbAvg s (sum4 im.r x y) (sum4 im.g x y) (sum4 im.b x y))

/-- Subsampled Cr plane (4:2:0). -/
def crPlane420 (s : Std) (im : RgbImage) : Plane := fun x y =>
  byte (crAvg s (sum4 im.r x y) (sum4 im.g x y) (sum4 im.b x y))

/-- Interleaved chroma plane: even bytes are Cb, odd bytes are Cr. -/
def interleave (u v : Plane) : Plane := fun j y => if j % 2 = 0 then u (j / 2) y else v (j / 2) y

/-- Decoded image. -/
def decoded (s : Std) (im : YuvImage) : RgbImage where
  r x y := byte (red s (val (im.y x y)) (val (im.cr x y)))
  g x y := byte (green s (val (im.y x y)) (val (im.cb x y)) (val (im.cr x y)))
  b x y := byte (blue s (val (im.y x y)) (val (im.cb x y)))

end Verif.Spec
