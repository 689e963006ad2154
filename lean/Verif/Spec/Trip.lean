import Verif.Spec.Color
/-!
# Errors of an RGB pixel that was encoded and decoded again
-/

namespace Verif.Spec

/-- Smallest and largest change of red. -/
def tripRed : Std → Int × Int
  | .bt601 | .bt709 => (-1, 1)
  | .bt601FR | .bt709FR => (0, 3)

/-- Smallest and largest change of green. -/
def tripGreen : Std → Int × Int
  | .bt601 | .bt709 => (-1, 1)
  | .bt601FR => (-2, 0)
  | .bt709FR => (-1, 0)

/-- Smallest and largest change of blue. -/
def tripBlue : Std → Int × Int
  | .bt601 | .bt709 => (-2, 2)
  | .bt601FR | .bt709FR => (0, 3)

/-- Colours whose red changes most, downwards and upwards. -/
def tripRedAt : Std → (Int × Int × Int) × (Int × Int × Int)
  | .bt601 => ((1, 0, 0), (0, 0, 6))
  | .bt709 => ((1, 0, 0), (0, 0, 9))
  | .bt601FR => ((40, 40, 97), (0, 0, 215))
  | .bt709FR => ((40, 40, 73), (0, 0, 7))

/-- Colours whose green changes most, downwards and upwards. -/
def tripGreenAt : Std → (Int × Int × Int) × (Int × Int × Int)
  | .bt601 => ((0, 1, 9), (0, 0, 7))
  | .bt709 => ((0, 1, 14), (0, 0, 25))
  | .bt601FR => ((0, 2, 19), (40, 40, 73))
  | .bt709FR => ((0, 1, 0), (40, 40, 49))

/-- Colours whose blue changes most, downwards and upwards. -/
def tripBlueAt : Std → (Int × Int × Int) × (Int × Int × Int)
  | .bt601 => ((0, 1, 20), (0, 1, 143))
  | .bt709 => ((0, 1, 127), (0, 0, 74))
  | .bt601FR => ((40, 40, 79), (0, 1, 0))
  | .bt709FR => ((40, 40, 157), (0, 1, 0))

end Verif.Spec
