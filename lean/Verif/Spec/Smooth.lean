import Verif.Spec.Color
/-!
# How much decoded colours change when the codes change by one
-/

namespace Verif.Spec

/-- Largest change of decoded green per unit of change of the codes. -/
def stepG : Std → Int
  | .bt601 | .bt601FR => 3
  | .bt709 | .bt709FR => 2

/-- Largest change of decoded blue. -/
def stepB : Std → Int
  | .bt601 | .bt709 => 4
  | .bt601FR | .bt709FR => 3

end Verif.Spec
