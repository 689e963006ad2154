import Verif.Spec.Worst
/-!
# The largest errors of decoded pixels
-/

namespace Verif.Spec

/-- Largest distance of decoded red from the clamped exact value. -/
def worstR : Std → ℚ
  | .bt601 => 835217 / 1635200
  | .bt709 => 2093137 / 4088000
  | .bt601FR => 1.904
  | .bt709FR => 2.0712

/-- Largest distance of decoded green from the clamped exact value. -/
def worstG : Std → ℚ
  | .bt601 => 101758927 / 191972480
  | .bt709 => 5153754241 / 9745792000
  | .bt601FR => 455027 / 293500
  | .bt709FR => 1284053 / 1117500

/-- Largest distance of decoded blue from the clamped exact value. -/
def worstB : Std → ℚ
  | .bt601 => 209651 / 408800
  | .bt709 => 4209123 / 8176000
  | .bt601FR => 2.28
  | .bt709FR => 2.3576

/-- Samples `(y, cb, cr)` with the worst red. -/
def worstRAt : Std → Int × Int × Int
  | .bt601 => (129, 128, 49)
  | .bt709 => (254, 128, 102)
  | .bt601FR => (73, 128, 76)
  | .bt709FR => (0, 128, 234)

/-- Samples with the worst green. -/
def worstGAt : Std → Int × Int × Int
  | .bt601 => (29, 40, 31)
  | .bt709 => (77, 37, 218)
  | .bt601FR => (100, 1, 47)
  | .bt709FR => (40, 83, 229)

/-- Samples with the worst blue. -/
def worstBAt : Std → Int × Int × Int
  | .bt601 => (25, 246, 128)
  | .bt709 => (254, 87, 128)
  | .bt601FR => (0, 138, 128)
  | .bt709FR => (86, 82, 128)

/-- In full range: largest distance of decoded red from the exact value of chroma centred at 127. -/
def shiftedR : Std → ℚ
  | .bt601 | .bt601FR => 0.502
  | .bt709 | .bt709FR => 0.4964

/-- The same for green. -/
def shiftedG : Std → ℚ
  | .bt601 | .bt601FR => 31057 / 58700
  | .bt709 | .bt709FR => 780297 / 1490000

/-- The same for blue. -/
def shiftedB : Std → ℚ
  | .bt601 | .bt601FR => 0.508
  | .bt709 | .bt709FR => 0.502

/-- Samples where these distances are reached: red, green, blue. -/
def shiftedAt : Std → (Int × Int × Int) × (Int × Int × Int) × (Int × Int × Int)
  | .bt601 | .bt601FR => ((72, 128, 76), (69, 212, 182), (0, 138, 128))
  | .bt709 | .bt709FR => ((0, 128, 234), (0, 174, 26), (84, 82, 128))

end Verif.Spec
