import Mathlib.Algebra.Order.Field.Rat
import Mathlib.Data.Rat.Cast.Defs
import Mathlib.Algebra.Order.Group.Unbundled.Abs
import Verif.Spec.Color
/-!
# The BT.601 / BT.709 colour conversions as exact formulas

Written from the standards: the luma weights `Kr`, `Kb`, the derivation of colour differences, and
the quantisation of limited range (219 and 224 steps) and full range (255 steps) video.
-/

namespace Verif.Spec

/-- Weight of red in luma. -/
def Kr : Std → ℚ
  | .bt601 | .bt601FR => 0.299
  | .bt709 | .bt709FR => 0.2126

/-- Weight of blue in luma. -/
def Kb : Std → ℚ
  | .bt601 | .bt601FR => 0.114
  | .bt709 | .bt709FR => 0.0722

/-- Weight of green in luma. -/
def Kg (s : Std) : ℚ := 1 - Kr s - Kb s

/-- Scale of luma codes relative to 8-bit RGB codes. -/
def yScale (s : Std) : ℚ := if s.fullRange then 1 else 219 / 255

/-- Scale of chroma codes relative to 8-bit RGB codes. -/
def cScale (s : Std) : ℚ := if s.fullRange then 1 else 224 / 255

/-- Luma signal of a colour. -/
def lumaSignal (s : Std) (r g b : ℚ) : ℚ := Kr s * r + Kg s * g + Kb s * b

/-- Exact luma code. -/
def idealY (s : Std) (r g b : ℚ) : ℚ := lumaOffset s + yScale s * lumaSignal s r g b

/-- Exact blue-difference code. -/
def idealCb (s : Std) (r g b : ℚ) : ℚ :=
  128 + cScale s * ((b - lumaSignal s r g b) / (2 * (1 - Kb s)))

/-- Exact red-difference code. -/
def idealCr (s : Std) (r g b : ℚ) : ℚ :=
  128 + cScale s * ((r - lumaSignal s r g b) / (2 * (1 - Kr s)))

/-- Luma signal denoted by a code. -/
def signalY (s : Std) (y : ℚ) : ℚ := (y - lumaOffset s) / yScale s

/-- Exact red of a YCbCr triple. -/
def idealR (s : Std) (y cr : ℚ) : ℚ := signalY s y + 2 * (1 - Kr s) * ((cr - 128) / cScale s)

/-- Exact blue of a YCbCr triple. -/
def idealB (s : Std) (y cb : ℚ) : ℚ := signalY s y + 2 * (1 - Kb s) * ((cb - 128) / cScale s)

/-- Exact green of a YCbCr triple: the colour whose luma signal is that of `y`. -/
def idealG (s : Std) (y cb cr : ℚ) : ℚ :=
  (signalY s y - Kr s * idealR s y cr - Kb s * idealB s y cb) / Kg s

/-- Clamping to `[0, 255]`. -/
def clampQ (x : ℚ) : ℚ := max 0 (min 255 x)

/-- Three-decimal coefficients printed in the documentation of `convert_image` (luma). -/
def docY : Std → ℚ × ℚ × ℚ
  | .bt601 => (0.257, 0.504, 0.098)
  | .bt709 => (0.213, 0.715, 0.072)
  | .bt601FR => (0.299, 0.587, 0.114)
  | .bt709FR => (0.213, 0.715, 0.072)

/-- Three-decimal coefficients printed in the documentation (blue difference). -/
def docCb : Std → ℚ × ℚ × ℚ
  | .bt601 => (-0.148, -0.291, 0.439)
  | .bt709 => (-0.117, -0.394, 0.511)
  | .bt601FR => (-0.169, -0.331, 0.500)
  | .bt709FR => (-0.115, -0.385, 0.500)

/-- Three-decimal coefficients printed in the documentation (red difference). -/
def docCr : Std → ℚ × ℚ × ℚ
  | .bt601 => (0.439, -0.368, -0.071)
  | .bt709 => (0.511, -0.464, -0.047)
  | .bt601FR => (0.500, -0.419, -0.081)
  | .bt709FR => (0.500, -0.454, -0.046)

/-- Linear form with rational coefficients. -/
def dotQ (k : ℚ × ℚ × ℚ) (r g b : ℚ) : ℚ := k.1 * r + k.2.1 * g + k.2.2 * b

end Verif.Spec
