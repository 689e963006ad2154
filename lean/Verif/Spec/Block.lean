import Verif.Spec.Ideal
import Verif.Spec.Image
/-!
# What is left of a pixel after 4:2:0 subsampling

Chroma is stored once for a 2x2 block. A pixel that is encoded and decoded becomes the average
colour of its block, made lighter or darker to the luma of the pixel.
-/

namespace Verif.Spec

/-- Red of the average colour `(ra, ga, ba)` moved to the luma of `(r, g, b)`. -/
def blockR (s : Std) (r g b ra ga ba : ℚ) : ℚ := ra + (lumaSignal s r g b - lumaSignal s ra ga ba)

/-- Green of the average colour moved to the luma of the pixel. -/
def blockG (s : Std) (r g b ra ga ba : ℚ) : ℚ := ga + (lumaSignal s r g b - lumaSignal s ra ga ba)

/-- Blue of the average colour moved to the luma of the pixel. -/
def blockB (s : Std) (r g b ra ga ba : ℚ) : ℚ := ba + (lumaSignal s r g b - lumaSignal s ra ga ba)

/-- How far decoded red can be below and above that, because of rounding. -/
def lossR : Std → ℚ × ℚ
  | .bt601 => (1.9, 1.9)
  | .bt709 => (2, 2)
  | .bt601FR => (0.51, 3.12)
  | .bt709FR => (0.5, 3.37)

/-- The same for green. -/
def lossG : Std → ℚ × ℚ
  | .bt601 => (1.73, 1.73)
  | .bt709 => (1.49, 1.49)
  | .bt601FR => (2.59, 0.73)
  | .bt709FR => (1.99, 0.73)

/-- The same for blue. -/
def lossB : Std → ℚ × ℚ
  | .bt601 => (2.12, 2.12)
  | .bt709 => (2.17, 2.17)
  | .bt601FR => (0.51, 3.68)
  | .bt709FR => (0.51, 3.8)

/-- All pixels of the 2x2 block of `(x, y)` differ from that pixel by at most `d`. -/
def Smooth (p : Plane) (d : ℤ) (x y : Nat) : Prop :=
  ∀ x' y', x' / 2 = x / 2 → y' / 2 = y / 2 → |val (p x' y') - val (p x y)| ≤ d

end Verif.Spec
