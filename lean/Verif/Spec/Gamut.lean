import Verif.Spec.Ideal
/-!
# YCbCr codes of real colours
-/

namespace Verif.Spec

/-- The code denotes a colour of the RGB cube: the exact formulas give components in `[0, 255]`. -/
def InGamut (s : Std) (y cb cr : ℚ) : Prop :=
  (0 ≤ idealR s y cr ∧ idealR s y cr ≤ 255) ∧ (0 ≤ idealG s y cb cr ∧ idealG s y cb cr ≤ 255) ∧
  (0 ≤ idealB s y cb ∧ idealB s y cb ≤ 255)

/-- No component of the decoded colour is clamped. -/
def Unclamped (s : Std) (y cb cr : ℤ) : Prop :=
  (0 ≤ redFix s y cr / 64 ∧ redFix s y cr / 64 ≤ 255) ∧
  (0 ≤ greenFix s y cb cr / 64 ∧ greenFix s y cb cr / 64 ≤ 255) ∧
  (0 ≤ blueFix s y cb / 64 ∧ blueFix s y cb / 64 ≤ 255)

end Verif.Spec
