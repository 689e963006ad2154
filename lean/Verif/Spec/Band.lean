import Verif.Spec.Result
/-!
# Parts of an image

What it means to convert a band of lines, or a tile, of an image instead of the whole image.
-/

namespace Verif.Spec

/-- Chroma has half the vertical resolution. -/
def halfLines : PixelFormat → Bool
  | .i420 | .nv12 => true
  | _ => false

/-- Line of plane `i` that holds the samples of line `y` of the image. -/
def lineOf (pf : PixelFormat) (i y : Nat) : Nat := if halfLines pf = true ∧ i ≠ 0 then y / 2 else y

/-- Offset of line `y` of the image in buffer `i`. -/
def lineOffset (f : ImageFormat) (w h : UInt32) (strides : Option (List Nat)) (i y : Nat) : Nat :=
  strideOf strides i ((dims f.pixel_format f.num_planes.toNat w.toNat h.toNat).getD i (0, 0)).1 *
    lineOf f.pixel_format i y

/-- The buffer without its first `o` bytes (`&buf[o..]`). -/
def dropBytes (o : Nat) (b : Buf) : Buf := ⟨b.len - o, fun k => b.bytes (o + k)⟩

/-- Every buffer without the lines before line `y` of the image. -/
def fromLine (f : ImageFormat) (w h : UInt32) (strides : Option (List Nat)) (y : Nat)
    (bufs : List Buf) : List Buf :=
  bufs.mapIdx fun i b => dropBytes (lineOffset f w h strides i y) b

/-- A single buffer holds both planes of an Nv12 image: a band of it is not a slice. -/
def Separate (f : ImageFormat) : Prop := ¬ (f.pixel_format = .nv12 ∧ f.num_planes.toNat = 1)

instance (f : ImageFormat) : Decidable (Separate f) := by unfold Separate; infer_instance

end Verif.Spec

namespace Verif

/-- The same conversion for the `n` lines from line `y0` on: the slices begin at that line, the
strides are the same. -/
def Call.band (c : Call) (y0 : Nat) (n : UInt32) : Call :=
  { c with
    height := n
    src_buffers := Spec.fromLine c.src_format c.width c.height c.src_strides y0 c.src_buffers
    dst_buffers := Spec.fromLine c.dst_format c.width c.height c.dst_strides y0 c.dst_buffers }

/-- The band lies in the image, and does not split a pair of lines if one of the images has chroma
at half the vertical resolution. -/
structure Call.IsBand (c : Call) (y0 : Nat) (n : UInt32) : Prop where
  nonempty : n ≠ 0
  inside : y0 + n.toNat ≤ c.height.toNat
  src_even : Spec.halfLines c.src_format.pixel_format = true → y0 % 2 = 0 ∧ n.toNat % 2 = 0
  dst_even : Spec.halfLines c.dst_format.pixel_format = true → y0 % 2 = 0 ∧ n.toNat % 2 = 0
  src_separate : Spec.Separate c.src_format
  dst_separate : Spec.Separate c.dst_format

/-- Every line of the planes, the last one included, has room for a whole stride. -/
def Spec.WholeLines (f : ImageFormat) (w h : UInt32) (strides : Option (List Nat))
    (bufs : List Buf) : Prop :=
  ∀ i b rc, bufs[i]? = some b →
    (Spec.dims f.pixel_format f.num_planes.toNat w.toNat h.toNat)[i]? = some rc →
    Spec.strideOf strides i rc.1 * rc.2 ≤ b.len

/-- The image of `c'` is the part of the image of `c` with its upper left corner at `(x0, y0)`; both
calls convert between the same formats. The corner does not split a chroma sample. -/
structure Call.CropOf (c' c : Call) (x0 y0 : Nat) : Prop where
  src_pf : c'.src_format.pixel_format = c.src_format.pixel_format
  dst_pf : c'.dst_format.pixel_format = c.dst_format.pixel_format
  src_cs : c'.src_format.color_space = c.src_format.color_space
  dst_cs : c'.dst_format.color_space = c.dst_format.color_space
  right : x0 + c'.width.toNat ≤ c.width.toNat
  bottom : y0 + c'.height.toNat ≤ c.height.toNat
  even : Spec.halfLines c.dst_format.pixel_format = true → x0 % 2 = 0 ∧ y0 % 2 = 0
  rgb : Spec.isRgb c.src_format.pixel_format = true → ∀ x y, c'.Pixel x y →
    c'.rgbIn.r x y = c.rgbIn.r (x0 + x) (y0 + y) ∧ c'.rgbIn.g x y = c.rgbIn.g (x0 + x) (y0 + y) ∧
    c'.rgbIn.b x y = c.rgbIn.b (x0 + x) (y0 + y)
  yuv : Spec.isRgb c.src_format.pixel_format = false → ∀ x y, c'.Pixel x y →
    c'.yuvIn.y x y = c.yuvIn.y (x0 + x) (y0 + y) ∧ c'.yuvIn.cb x y = c.yuvIn.cb (x0 + x) (y0 + y) ∧
    c'.yuvIn.cr x y = c.yuvIn.cr (x0 + x) (y0 + y)

end Verif
