import Verif.Spec.Ideal
/-!
# The exact change of colour space

A YCbCr code of one colour space denotes a colour; the exact code of that colour in another colour
space is what a converter between the two aims at.
-/

namespace Verif.Spec

/-- The colour a code stands for on a display: the exact colour with each component limited to the
range of RGB. -/
def shown (s : Std) (y cb cr : ℚ) : ℚ × ℚ × ℚ :=
  (clampQ (idealR s y cr), clampQ (idealG s y cb cr), clampQ (idealB s y cb))

/-- The exact code, in the colour space `s`, of a colour. -/
def codeOf (s : Std) (p : ℚ × ℚ × ℚ) : ℚ × ℚ × ℚ :=
  (idealY s p.1 p.2.1 p.2.2, idealCb s p.1 p.2.1 p.2.2, idealCr s p.1 p.2.1 p.2.2)

/-- Average of four values. -/
def mean4 (f : Nat → Nat → ℚ) (x y : Nat) : ℚ :=
  (f (2 * (x / 2)) (2 * (y / 2)) + f (2 * (x / 2) + 1) (2 * (y / 2)) +
    f (2 * (x / 2)) (2 * (y / 2) + 1) + f (2 * (x / 2) + 1) (2 * (y / 2) + 1)) / 4

/-- Bound for the error of luma when the source has the range of `s` and the destination that of
`s'`. -/
def recolourY (s s' : Std) : ℚ :=
  match s.fullRange, s'.fullRange with
  | false, false => 0.968
  | false, true => 1.044
  | true, false => 2.17
  | true, true => 2.44

/-- Bound for the error of chroma. -/
def recolourC (s s' : Std) : ℚ :=
  match s.fullRange, s'.fullRange with
  | false, false => 0.985
  | false, true => 1.05
  | true, false => 2.4
  | true, true => 2.7

end Verif.Spec
