import Verif.Spec.Worst
/-!
# The largest errors of encoded 4:2:0 chroma
-/

namespace Verif.Spec

/-- Largest distance of a blue-difference sample of a 2x2 block from the exact value for the average
colour of the block. -/
def worstCb420 : Std → ℚ
  | .bt601 => 56716 / 112965
  | .bt709 => 593932 / 1182945
  | .bt601FR => 3570 / 7088
  | .bt709FR => 18674 / 37112

/-- Largest distance of a red-difference sample of a 2x2 block from the exact value for the average
colour of the block. -/
def worstCr420 : Std → ℚ
  | .bt601 => 89981 / 178755
  | .bt709 => 504354 / 1003935
  | .bt601FR => 2825 / 5608
  | .bt709FR => 15863 / 31496

/-- Sums of the red, green and blue values of a block with the worst blue difference. -/
def worstCb420At : Std → Int × Int × Int
  | .bt601 => (29, 0, 1007)
  | .bt709 => (0, 48, 1016)
  | .bt601FR => (154, 0, 1016)
  | .bt709FR => (205, 0, 1019)

/-- Sums of the red, green and blue values of a block with the worst red difference. -/
def worstCr420At : Std → Int × Int × Int
  | .bt601 => (28, 0, 984)
  | .bt709 => (0, 194, 1008)
  | .bt601FR => (0, 773, 1013)
  | .bt709FR => (0, 862, 1015)

/-- The distances of `f` from `g` over all 2x2 blocks of colours of three bytes: `f` is given the
sums, `g` the averages. -/
def BlockDistances (f : Int → Int → Int → Int) (g : ℚ → ℚ → ℚ → ℚ) : Set ℚ :=
  {e | ∃ r g' b : Fin 2 → Fin 2 → UInt8,
    let s (p : Fin 2 → Fin 2 → UInt8) : Int :=
      val (p 0 0) + val (p 1 0) + val (p 0 1) + val (p 1 1)
    e = |(f (s r) (s g') (s b) : ℚ) - g (s r / 4) (s g' / 4) (s b / 4)|}

end Verif.Spec
