import Verif.Spec.Result
/-!
# Grey pictures
-/

namespace Verif.Spec

/-- The pixels of the 2x2 block of `(x, y)`, as far as they belong to the image, are greys, not
necessarily the same. -/
def GreyAround (c : Call) (x y : Nat) : Prop := ∀ x' y', c.Pixel x' y' → x' / 2 = x / 2 → y' / 2 = y / 2 →
  c.rgbIn.g x' y' = c.rgbIn.r x' y' ∧ c.rgbIn.b x' y' = c.rgbIn.r x' y'

/-- Two colour spaces with the same range of codes: equal, or Bt601 and Bt709. -/
def SameRange (a b : ColorSpace) : Prop := (std a).fullRange = (std b).fullRange

end Verif.Spec
