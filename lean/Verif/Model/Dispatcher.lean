import Verif.Model.PixelFormat
/-!
# `src/dispatcher.rs` (index computation)
-/

namespace Verif.Dispatcher

/-- dispatcher.rs:116-118. -/
def enum_count (lo hi : UInt32) : UInt32 := hi - lo + 1

/-- Position of the highest set bit plus one, i.e. `32 - x.leading_zeros()`. -/
def bitLength (x : UInt32) : Nat := if x = 0 then 0 else Nat.log2 x.toNat + 1

/-- dispatcher.rs:121-123. -/
def upper_power_of_two (x : UInt32) : UInt32 := 1 <<< UInt32.ofNat (bitLength (x - 1))

/-- dispatcher.rs:125-142. -/
def LO_RGB_PIXEL_FORMAT : UInt32 := PixelFormat.argb.toU32
def HI_RGB_PIXEL_FORMAT : UInt32 := PixelFormat.rgb.toU32
def LO_YUV_PIXEL_FORMAT : UInt32 := PixelFormat.i444.toU32
def HI_YUV_PIXEL_FORMAT : UInt32 := PixelFormat.nv12.toU32
def LO_RGB_COLOR_SPACE : UInt32 := ColorSpace.rgb.toU32
def HI_RGB_COLOR_SPACE : UInt32 := ColorSpace.rgb.toU32
def LO_YUV_COLOR_SPACE : UInt32 := ColorSpace.bt601.toU32
def HI_YUV_COLOR_SPACE : UInt32 := ColorSpace.bt709FR.toU32
def RGB_PIXEL_FORMAT_COUNT : UInt32 := enum_count LO_RGB_PIXEL_FORMAT HI_RGB_PIXEL_FORMAT
def RGB_COLOR_SPACE_COUNT : UInt32 := enum_count LO_RGB_COLOR_SPACE HI_RGB_COLOR_SPACE
def RGB_COUNT : UInt32 := RGB_PIXEL_FORMAT_COUNT * RGB_COLOR_SPACE_COUNT
def YUV_PIXEL_FORMAT_COUNT : UInt32 := enum_count LO_YUV_PIXEL_FORMAT HI_YUV_PIXEL_FORMAT
def YUV_COLOR_SPACE_COUNT : UInt32 := enum_count LO_YUV_COLOR_SPACE HI_YUV_COLOR_SPACE
def ROWS : UInt32 := RGB_COUNT + YUV_PIXEL_FORMAT_COUNT * YUV_COLOR_SPACE_COUNT
def COLUMNS : UInt32 := upper_power_of_two ROWS

/-- dispatcher.rs:146-149. (The garbage operand may make `(1 - c) * b` irrelevant but never
overflow since one factor is 0 or 1.) -/
def select_mode (a b : UInt32) (cond : Bool) : UInt32 :=
  let c : UInt32 := if cond then 1 else 0
  c * a + (1 - c) * b

/-- dispatcher.rs:151. -/
def TABLE_SIZE : Nat := (ROWS * COLUMNS).toNat

/-- dispatcher.rs:153-155. -/
def get_pixel_format_mode (pixel_format : UInt32) : Bool := pixel_format ≤ HI_RGB_PIXEL_FORMAT

/-- dispatcher.rs:157-160. -/
def get_color_space_mode (color_space : UInt32) : Bool := color_space == HI_RGB_COLOR_SPACE

/-- dispatcher.rs:162-176. `UInt32` arithmetic wraps; the non-wrapping first operand cannot
overflow for valid enum values (5*4+8). -/
def get_image_index (pixel_format color_space : UInt32) (pixel_format_mode : Bool) : UInt32 :=
  select_mode
    (RGB_PIXEL_FORMAT_COUNT * (color_space - LO_RGB_COLOR_SPACE)
      + (pixel_format - LO_RGB_PIXEL_FORMAT))
    (RGB_COUNT + YUV_PIXEL_FORMAT_COUNT * (color_space - LO_YUV_COLOR_SPACE)
      + (pixel_format - LO_YUV_PIXEL_FORMAT))
    pixel_format_mode

/-- dispatcher.rs:178-180. -/
def get_index (src_index dst_index : UInt32) : Nat := (src_index * COLUMNS + dst_index).toNat

/-- dispatcher.rs:185-188. -/
def is_pixel_format_valid (pixel_format : UInt32) : Bool :=
  pixel_format - LO_RGB_PIXEL_FORMAT ≤ HI_YUV_PIXEL_FORMAT - LO_RGB_PIXEL_FORMAT

/-- dispatcher.rs:193-196. -/
def is_color_space_valid (color_space : UInt32) : Bool :=
  color_space - LO_RGB_COLOR_SPACE ≤ HI_YUV_COLOR_SPACE - LO_RGB_COLOR_SPACE

end Verif.Dispatcher
