import Verif.Spec.Result
/-!
# What the portable code stores on a big-endian target

Bytes of a line of the destination in terms of the bytes of the line of the source.
-/

namespace Verif.Spec

/-- Bgr to Rgb: the byte of a group of eight source pixels (24 bytes) that ends up at each byte of the
group of eight destination pixels. -/
def bigBgr : List Nat :=
  [0, 15, 4, 3, 2, 7, 6, 5, 22, 11, 10, 9, 14, 13, 12, 1, 18, 17, 16, 21, 20, 19, 8, 23]

/-- Bgra to Rgb: the same, for groups of eight source pixels of 32 bytes. -/
def bigBgra : List Nat :=
  [14, 13, 3, 2, 1, 7, 6, 5, 17, 23, 22, 21, 11, 10, 9, 15, 27, 26, 25, 31, 30, 29, 19, 18]

/-- Byte `j` of a line of `w` pixels of an Rgb image made from a line `src` of pixels of `d` bytes:
`tab` within whole groups of eight pixels, and red, green and blue of the source beyond. -/
def bigRgb (tab : List Nat) (d w : Nat) (src : Nat → UInt8) (j : Nat) : UInt8 :=
  if j < 24 * (w / 8) then src (8 * d * (j / 24) + tab.getD (j % 24) 0)
  else src (d * (j / 3) + (2 - j % 3))

/-- Rgb to Bgra: number of pixels of line `y` that are converted eight at a time; the lines of the
source are `gap` bytes apart. -/
def bigGroups (w h gap y : Nat) : Nat :=
  if y + 1 = h ∨ w % 8 = 0 ∧ gap < 2 then 8 * ((w - 1) / 8) else 8 * (w / 8)

/-- Rgb to Bgra: number of pixels of line `y` that are converted as words. -/
def bigWords (w h gap y : Nat) : Nat := if y + 1 = h ∨ gap = 0 then w - 1 else w

/-- Byte `j` of line `y` of a Bgra image made from a line `src` of an Rgb image.  A pixel of a group gets
the blue 255, green and red of its right neighbour, and its own blue as alpha.  A pixel that is converted
on its own gets the blue 255, the red of its right neighbour as green, its own blue as red and its own
green as alpha.  (The right neighbour of the last pixel of a line is what follows in memory.)  A pixel
that is copied byte by byte is right. -/
def bigBgraRow (w h gap y : Nat) (src : Nat → UInt8) (j : Nat) : UInt8 :=
  if j / 4 < bigGroups w h gap y then
    if j % 4 = 0 then 255 else src (3 * (j / 4) + (5 - j % 4))
  else if j / 4 < bigWords w h gap y then
    if j % 4 = 0 then 255 else src (3 * (j / 4) + (4 - j % 4))
  else if j % 4 = 3 then 255 else src (3 * (j / 4) + (2 - j % 4))

/-- Line `y` of the source of a call between RGB formats. -/
def srcLine (c : Call) (y : Nat) : Nat → UInt8 := fun i => bytesAt c.src_buffers 0
  (strideOf c.src_strides 0 (bpp c.src_format.pixel_format * c.width.toNat) * y + i)

/-- Number of bytes between the lines of the source. -/
def srcGap (c : Call) : Nat :=
  strideOf c.src_strides 0 (bpp c.src_format.pixel_format * c.width.toNat) -
    bpp c.src_format.pixel_format * c.width.toNat

/-- The plane a call between RGB formats stores on a big-endian target. -/
def bigPlane (c : Call) : Plane :=
  match c.src_format.pixel_format with
  | .bgr => fun j y => bigRgb bigBgr 3 c.width.toNat (srcLine c y) j
  | .bgra => fun j y => bigRgb bigBgra 4 c.width.toNat (srcLine c y) j
  | _ => fun j y => bigBgraRow c.width.toNat c.height.toNat (srcGap c) y (srcLine c y) j

end Verif.Spec

namespace Verif

/-- How a call ends: the fault or the result, and the lengths of the buffers. -/
def Outcome.ending : Outcome → R (Except ErrorKind Unit × List Nat)
  | .error e => .error e
  | .ok (r, bufs) => .ok (r, bufs.map Buf.len)

end Verif
