import Verif.Spec.Image
/-!
# Specification of the arithmetic of the vector kernels, where it may differ

`Spec/Color.lean` rounds chroma with ties towards minus infinity. The NEON kernels round ties towards
plus infinity. The x86 vector kernels add blue on 16-bit lanes.
-/

namespace Verif.Spec

/-- Blue-difference sample of a pixel, ties rounded up. -/
def cbUp (s : Std) (r g b : Int) : Int := clamp (128 + roundUp (dot (cbCoef s) r g b) 65536)

/-- Red-difference sample of a pixel, ties rounded up. -/
def crUp (s : Std) (r g b : Int) : Int := clamp (128 + roundUp (dot (crCoef s) r g b) 65536)

/-- Blue-difference sample of a 2x2 block, given the sums of the four r, g, b; ties rounded up. -/
def cbAvgUp (s : Std) (r4 g4 b4 : Int) : Int :=
  clamp (128 + roundUp (dot (cbCoef s) r4 g4 b4) (4 * 65536))

/-- Red-difference sample of a 2x2 block; ties rounded up. -/
def crAvgUp (s : Std) (r4 g4 b4 : Int) : Int :=
  clamp (128 + roundUp (dot (crCoef s) r4 g4 b4) (4 * 65536))

/-- `cbPlane` with ties rounded up. -/
def cbPlaneUp (s : Std) (im : RgbImage) : Plane := fun x y =>
  byte (cbUp s (val (im.r x y)) (val (im.g x y)) (val (im.b x y)))

/-- `crPlane` with ties rounded up. -/
def crPlaneUp (s : Std) (im : RgbImage) : Plane := fun x y =>
  byte (crUp s (val (im.r x y)) (val (im.g x y)) (val (im.b x y)))

/-- `cbPlane420` with ties rounded up. -/
def cbPlane420Up (s : Std) (im : RgbImage) : Plane := fun x y =>
  byte (cbAvgUp s (sum4 im.r x y) (sum4 im.g x y) (sum4 im.b x y))

/-- `crPlane420` with ties rounded up. -/
def crPlane420Up (s : Std) (im : RgbImage) : Plane := fun x y =>
  byte (crAvgUp s (sum4 im.r x y) (sum4 im.g x y) (sum4 im.b x y))

end Verif.Spec
