import Verif.Spec.Color
/-!
# Colours that cannot be told apart once they are encoded
-/

namespace Verif.Spec

/-- Largest difference of red between two colours stored as the same samples. -/
def sameRed : Std → Int
  | .bt601 | .bt709 | .bt601FR | .bt709FR => 2

/-- Largest difference of green. -/
def sameGreen : Std → Int
  | .bt601 | .bt709 | .bt601FR | .bt709FR => 1

/-- Largest difference of blue. -/
def sameBlue : Std → Int
  | .bt601 | .bt601FR | .bt709FR => 2
  | .bt709 => 3

/-- Two colours stored alike whose red differs most. -/
def sameRedAt : Std → (Int × Int × Int) × (Int × Int × Int)
  | .bt601 => ((22, 20, 26), (20, 20, 24))
  | .bt709 => ((22, 20, 30), (20, 20, 28))
  | .bt601FR => ((22, 20, 27), (20, 20, 26))
  | .bt709FR => ((22, 20, 31), (20, 20, 30))

/-- Two colours stored alike whose green differs most. -/
def sameGreenAt : Std → (Int × Int × Int) × (Int × Int × Int)
  | .bt601 => ((21, 21, 25), (20, 20, 24))
  | .bt709 => ((21, 21, 27), (20, 20, 26))
  | .bt601FR => ((21, 21, 25), (20, 20, 25))
  | .bt709FR => ((21, 21, 27), (20, 20, 27))

/-- Two colours stored alike whose blue differs most. -/
def sameBlueAt : Std → (Int × Int × Int) × (Int × Int × Int)
  | .bt601 => ((21, 20, 26), (20, 20, 24))
  | .bt709 => ((21, 24, 47), (20, 23, 44))
  | .bt601FR => ((21, 21, 22), (20, 21, 20))
  | .bt709FR => ((21, 21, 22), (20, 21, 20))

end Verif.Spec
