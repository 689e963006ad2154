import Verif.Spec.Ideal
import Verif.Spec.Vector
/-!
# The largest errors of encoded samples
-/

namespace Verif.Spec

/-- Largest distance of a luma sample from its exact value. -/
def worstY : Std → ℚ
  | .bt601 => 42651 / 85000
  | .bt709 => 213037 / 425000
  | .bt601FR => 501 / 1000
  | .bt709FR => 2506 / 5000

/-- Largest distance of a blue-difference sample from its exact value. -/
def worstCb : Std → ℚ
  | .bt601 => 56710 / 112965
  | .bt709 => 593932 / 1182945
  | .bt601FR => 890 / 1772
  | .bt709FR => 4654 / 9278

/-- Largest distance of a red-difference sample from its exact value. -/
def worstCr : Std → ℚ
  | .bt601 => 89981 / 178755
  | .bt709 => 504210 / 1003935
  | .bt601FR => 705 / 1402
  | .bt709FR => 3958 / 7874

/-- A colour with the worst luma. -/
def worstYAt : Std → Int × Int × Int
  | .bt601 => (239, 254, 11)
  | .bt709 => (200, 8, 243)
  | .bt601FR => (163, 0, 226)
  | .bt709FR => (0, 234, 2)

/-- A colour with the worst blue difference. -/
def worstCbAt : Std → Int × Int × Int
  | .bt601 => (192, 251, 0)
  | .bt709 => (254, 242, 0)
  | .bt601FR => (160, 0, 193)
  | .bt709FR => (144, 0, 194)

/-- A colour with the worst red difference. -/
def worstCrAt : Std → Int × Int × Int
  | .bt601 => (7, 0, 246)
  | .bt709 => (0, 9, 246)
  | .bt601FR => (215, 246, 0)
  | .bt709FR => (245, 0, 109)

/-- The distances of `f` from `g` over all colours of three bytes. -/
def Distances (f : Int → Int → Int → Int) (g : ℚ → ℚ → ℚ → ℚ) : Set ℚ :=
  {e | ∃ r g' b : Int, (0 ≤ r ∧ r ≤ 255) ∧ (0 ≤ g' ∧ g' ≤ 255) ∧ (0 ≤ b ∧ b ≤ 255) ∧
    e = |(f r g' b : ℚ) - g r g' b|}

/-- The blue difference with other coefficients of red and green; that of blue is chosen so that
grey has no colour. -/
def cbWith (kr kg r g b : Int) : Int := 128 + roundDown (kr * r + kg * g - (kr + kg) * b) 65536

/-- The coefficients of red and green nearest to the exact ones in full range. They cannot be used:
that of blue would be 32768, which does not fit 16 bits. -/
def cbNearest : Std → Int × Int
  | .bt601FR => (-11058, -21710)
  | .bt709FR => (-7509, -25259)
  | .bt601 => (-9714, -19071)
  | .bt709 => (-6596, -22189)

end Verif.Spec
