import Verif.Model.Lib
/-!
# The texts the library prints

The implementations of `Display` of the three enumerations of the API.  `write!(f, "…")` is taken to
append the text to the output, so that the printed text is the string itself.
-/

namespace Verif

/-- lib.rs:303-318. -/
def ErrorKind.display : ErrorKind → String
  | .invalidValue => "One or more parameters have not legal values for the command"
  | .invalidOperation => "The combination of parameters is not legal for the command"
  | .notEnoughData => "Not enough data provided"

/-- pixel_format.rs:80-95. -/
def PixelFormat.display : PixelFormat → String
  | .argb => "argb"
  | .bgra => "bgra"
  | .bgr => "bgr"
  | .rgba => "rgba"
  | .rgb => "rgb"
  | .i444 => "i444"
  | .i422 => "i422"
  | .i420 => "i420"
  | .nv12 => "nv12"

/-- color_space.rs:44-55. -/
def ColorSpace.display : ColorSpace → String
  | .rgb => "rgb"
  | .bt601 => "bt-601"
  | .bt709 => "bt-709"
  | .bt601FR => "bt-601-fr"
  | .bt709FR => "bt-709-fr"

end Verif
