import Verif.Spec.Result
/-!
# Negatives of pictures
-/

namespace Verif.Spec

/-- The pixel `(x', y')` of `im'` is the negative of the pixel `(x, y)` of `im`. -/
def NegativeAt (im im' : RgbImage) (x y x' y' : Nat) : Prop :=
  val (im'.r x' y') = 255 - val (im.r x y) ∧ val (im'.g x' y') = 255 - val (im.g x y) ∧
  val (im'.b x' y') = 255 - val (im.b x y)

end Verif.Spec
