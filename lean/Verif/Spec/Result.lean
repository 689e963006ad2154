import Verif.Spec.Valid
/-!
# The images a call reads and writes
-/

namespace Verif

open Spec (strideOf dims)

/-- Agreement of two RGB images on the pixel `(x, y)`. -/
def Spec.RgbAt (im im' : Spec.RgbImage) (x y : Nat) : Prop :=
  im.r x y = im'.r x y ∧ im.g x y = im'.g x y ∧ im.b x y = im'.b x y

/-- Agreement of two YCbCr images on the samples covering pixel `(x, y)`. -/
def Spec.YuvAt (im im' : Spec.YuvImage) (x y : Nat) : Prop :=
  im.y x y = im'.y x y ∧ im.cb x y = im'.cb x y ∧ im.cr x y = im'.cr x y

/-- Agreement of two images on the 2x2 block containing `(x, y)`. -/
def Spec.BlockAt (im im' : Spec.RgbImage) (x y : Nat) : Prop :=
  ∀ x' y', x' / 2 = x / 2 → y' / 2 = y / 2 → Spec.RgbAt im im' x' y'

/-- The source image of a call, if it is an RGB image. -/
def Call.rgbIn (c : Call) : Spec.RgbImage :=
  Spec.readRgb c.src_format c.width c.src_strides c.src_buffers

/-- The source image of a call, if it is a YCbCr image. -/
def Call.yuvIn (c : Call) : Spec.YuvImage :=
  Spec.readYuv c.src_format c.width c.height c.src_strides c.src_buffers

/-- The destination image of a call whose destination buffers are `out`, as RGB. -/
def Call.rgbOut (c : Call) (out : List Buf) : Spec.RgbImage :=
  Spec.readRgb c.dst_format c.width c.dst_strides out

/-- The destination image of a call whose destination buffers are `out`, as YCbCr. -/
def Call.yuvOut (c : Call) (out : List Buf) : Spec.YuvImage :=
  Spec.readYuv c.dst_format c.width c.height c.dst_strides out

/-- `(x, y)` is a pixel of the image. -/
def Call.Pixel (c : Call) (x y : Nat) : Prop := x < c.width.toNat ∧ y < c.height.toNat

/-- The call encodes an RGB image. -/
def Call.Encodes (c : Call) : Prop :=
  Spec.isRgb c.src_format.pixel_format = true ∧ Spec.isRgb c.dst_format.pixel_format = false

/-- The call decodes a YCbCr image. -/
def Call.Decodes (c : Call) : Prop :=
  Spec.isRgb c.src_format.pixel_format = false ∧ Spec.isRgb c.dst_format.pixel_format = true

/-- The call converts between two RGB formats. -/
def Call.Shuffles (c : Call) : Prop :=
  Spec.isRgb c.src_format.pixel_format = true ∧ Spec.isRgb c.dst_format.pixel_format = true

instance (c : Call) : Decidable c.Encodes := inferInstanceAs (Decidable (_ ∧ _))
instance (c : Call) : Decidable c.Decodes := inferInstanceAs (Decidable (_ ∧ _))
instance (c : Call) : Decidable c.Shuffles := inferInstanceAs (Decidable (_ ∧ _))

/-- The call succeeds and leaves `out` in the destination buffers. -/
def Stores (t : Target) (impls : InstructionSet → Impl) (cpu : Cpu) (c : Call) (out : List Buf) :
    Prop := convert t impls cpu c = .ok (.ok (), out)

/-- Byte `k` of destination buffer `i` belongs to a line of the image. -/
def Call.InImage (c : Call) (i k : Nat) : Prop :=
  ∃ row rows, (dims c.dst_format.pixel_format c.dst_format.num_planes.toNat c.width.toNat
    c.height.toNat)[i]? = some (row, rows) ∧
    ∃ y, y < rows ∧ ∃ j, j < row ∧ k = strideOf c.dst_strides i row * y + j

/-- Byte `k` of source buffer `i` belongs to a line of the image. -/
def Call.InSource (c : Call) (i k : Nat) : Prop :=
  ∃ row rows, (dims c.src_format.pixel_format c.src_format.num_planes.toNat c.width.toNat
    c.height.toNat)[i]? = some (row, rows) ∧
    ∃ y, y < rows ∧ ∃ j, j < row ∧ k = strideOf c.src_strides i row * y + j

/-- The source images of two calls are the same on every pixel. -/
def SameSource (c c' : Call) : Prop :=
  Spec.isRgb c.src_format.pixel_format = Spec.isRgb c'.src_format.pixel_format ∧
  ∀ x y, c.Pixel x y →
    if Spec.isRgb c.src_format.pixel_format = true then Spec.RgbAt c.rgbIn c'.rgbIn x y
    else Spec.YuvAt c.yuvIn c'.yuvIn x y

/-- Everything but the source is the same in both calls. -/
structure SameTarget (c c' : Call) : Prop where
  width : c'.width = c.width
  height : c'.height = c.height
  color_space : c'.src_format.color_space = c.src_format.color_space
  dst_format : c'.dst_format = c.dst_format
  dst_strides : c'.dst_strides = c.dst_strides
  dst_buffers : c'.dst_buffers = c.dst_buffers

end Verif
