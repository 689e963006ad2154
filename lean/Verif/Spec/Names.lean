import Verif.Model.Display
import Verif.Spec.Result
/-!
# What the printed names of the pixel formats say

The name of an RGB format lists the components of a pixel in the order of their bytes in memory; the
name of a planar YCbCr format states its chroma subsampling in the notation J:a:b.  Everything here is
read off the printed text; the layout functions of `Spec.Image` are not used.
-/

namespace Verif

/-- Byte of the pixel `(x, y)` that the letter number `k` of `name` stands for: a pixel has one byte
per letter, and lines are one after the other unless a stride is given. -/
def Spec.letterByte (name : String) (w : UInt32) (strides : Option (List Nat)) (bufs : List Buf)
    (x y k : Nat) : UInt8 :=
  Spec.bytesAt bufs 0
    (Spec.strideOf strides 0 (name.length * w.toNat) * y + name.length * x + k)

/-- The byte of pixel `(x, y)` of the source named by letter `k` of the printed pixel format. -/
def Call.srcLetter (c : Call) (x y k : Nat) : UInt8 :=
  Spec.letterByte c.src_format.pixel_format.display c.width c.src_strides c.src_buffers x y k

/-- The byte of pixel `(x, y)` of the destination named by letter `k` of the printed pixel format. -/
def Call.dstLetter (c : Call) (out : List Buf) (x y k : Nat) : UInt8 :=
  Spec.letterByte c.dst_format.pixel_format.display c.width c.dst_strides out x y k

/-- Letter `k` of the printed pixel format is `l`. -/
def Spec.Letter (f : ImageFormat) (k : Nat) (l : Char) : Prop :=
  f.pixel_format.display.toList[k]? = some l

instance (f : ImageFormat) (k : Nat) (l : Char) : Decidable (Spec.Letter f k l) :=
  inferInstanceAs (Decidable (_ = _))

/-- Bytes per packed line and number of lines of a chroma plane of an image of `w` by `h` pixels,
according to the name `i4ab` of the format: for four pixels there are `a` samples in the first line of
two, and in the second line there are new ones unless `b` is 0. -/
def Spec.chromaDims (name : String) (w h : Nat) : Option (Nat × Nat) :=
  match name.toList with
  | ['i', '4', a, b] => some (w * (a.toNat - '0'.toNat) / 4, if b = '0' then h / 2 else h)
  | _ => none

end Verif
