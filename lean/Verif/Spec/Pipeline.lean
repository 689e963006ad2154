import Verif.Spec.Result
/-!
# Pictures that are encoded, handed on and decoded
-/

namespace Verif.Spec

/-- Two calls encode the same picture in the same colour space and with the same sampling of chroma.
The layout of the picture in memory, the strides and the destination format may differ. -/
structure SentTwice (c c' : Call) : Prop where
  width : c'.width = c.width
  height : c'.height = c.height
  space : c'.dst_format.color_space = c.dst_format.color_space
  sampling : c'.dst_format.pixel_format = .i444 ↔ c.dst_format.pixel_format = .i444
  pixels : ∀ x y, c.Pixel x y → RgbAt c.rgbIn c'.rgbIn x y

/-- The source of `c'` is the image which `c` has stored, possibly after it has been copied to other
buffers or to another layout. -/
structure Receives (c c' : Call) (out : List Buf) : Prop where
  width : c'.width = c.width
  height : c'.height = c.height
  space : c'.src_format.color_space = c.dst_format.color_space
  samples : ∀ x y, c.Pixel x y → YuvAt (c.yuvOut out) c'.yuvIn x y

/-- Largest difference of blue when Cb differs by one. -/
def unitB : Std → Int
  | .bt601 | .bt709 => 3
  | .bt601FR | .bt709FR => 2

end Verif.Spec
