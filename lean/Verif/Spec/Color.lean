/-!
# Specification of the colour conversions

Integer formulas a user of the library relies on, written independently of the kernels: own
coefficient tables (transcribed from the published fixed-point approximation of BT.601/BT.709),
floor/rounding/clamping as mathematical operations on `Int`.
-/

namespace Verif.Spec

/-- The four YCbCr colour spaces. -/
inductive Std where
  | bt601 | bt709 | bt601FR | bt709FR
  deriving DecidableEq, Repr

/-- Full range ("FR") spaces have no footroom/headroom. -/
def Std.fullRange : Std → Bool
  | .bt601 | .bt709 => false
  | .bt601FR | .bt709FR => true

/-- Luma coefficients of r, g, b in units of 1/65536. -/
def lumaCoef : Std → Int × Int × Int
  | .bt601 => (16829, 33039, 6416)
  | .bt709 => (11966, 40254, 4064)
  | .bt601FR => (19595, 38470, 7471)
  | .bt709FR => (13933, 46871, 4732)

/-- Cb coefficients of r, g, b in units of 1/65536. -/
def cbCoef : Std → Int × Int × Int
  | .bt601 => (-9714, -19071, 28785)
  | .bt709 => (-6596, -22189, 28785)
  | .bt601FR => (-11058, -21709, 32767)
  | .bt709FR => (-7508, -25259, 32767)

/-- Cr coefficients of r, g, b in units of 1/65536. -/
def crCoef : Std → Int × Int × Int
  | .bt601 => (28785, -24103, -4682)
  | .bt709 => (28785, -26145, -2640)
  | .bt601FR => (32767, -27439, -5328)
  | .bt709FR => (32767, -29763, -3004)

/-- Luma of black. -/
def lumaOffset (s : Std) : Int := if s.fullRange then 0 else 16

/-- Linear form `k · (r, g, b)`. -/
def dot (k : Int × Int × Int) (r g b : Int) : Int := k.1 * r + k.2.1 * g + k.2.2 * b

/-- Nearest integer to `t / n` (`n` even), ties towards plus infinity: `⌊t/n + 1/2⌋`. -/
def roundUp (t n : Int) : Int := (t + n / 2) / n

/-- Nearest integer to `t / n` (`n` even), ties towards minus infinity: `⌈t/n - 1/2⌉`. -/
def roundDown (t n : Int) : Int := -((n / 2 - t) / n)

/-- Luma sample of a pixel. -/
def luma (s : Std) (r g b : Int) : Int := lumaOffset s + roundUp (dot (lumaCoef s) r g b) 65536

/-- Blue-difference sample of a pixel (4:4:4). -/
def cb (s : Std) (r g b : Int) : Int := 128 + roundDown (dot (cbCoef s) r g b) 65536

/-- Red-difference sample of a pixel (4:4:4). -/
def cr (s : Std) (r g b : Int) : Int := 128 + roundDown (dot (crCoef s) r g b) 65536

/-- Blue-difference sample of a 2x2 block, given the *sums* of the four r, g, b (so the average is
a quarter of the arguments). -/
def cbAvg (s : Std) (r4 g4 b4 : Int) : Int := 128 + roundDown (dot (cbCoef s) r4 g4 b4) (4 * 65536)

/-- Red-difference sample of a 2x2 block, given the sums of the four r, g, b. -/
def crAvg (s : Std) (r4 g4 b4 : Int) : Int := 128 + roundDown (dot (crCoef s) r4 g4 b4) (4 * 65536)

/-- Clamp to the range of a byte. -/
def clamp (x : Int) : Int := max 0 (min 255 x)

/-- Fixed-point decoding weights: multiplier of Y, of Cr in red, of Cr and Cb in green, of Cb in
blue (units of 1/16384) and the offsets of red, green and blue (units of 1/64). -/
structure Dec where
  ky : Int
  kr : Int
  kgr : Int
  kgb : Int
  kb : Int
  offR : Int
  offG : Int
  offB : Int

/-- Decoding weights. -/
def dec : Std → Dec
  | .bt601 => ⟨19077, 26149, 13320, 6419, 33050, -14234, 8709, -17685⟩
  | .bt709 => ⟨19077, 29372, 8731, 3494, 34610, -15846, 4952, -18465⟩
  | .bt601FR => ⟨16384, 22970, 11700, 5638, 29032, -11363, 8633, -14370⟩
  | .bt709FR => ⟨16384, 25802, 7670, 3069, 30402, -12768, 5359, -15050⟩

/-- Red before clamping, in units of 1/64 (each product is floored to that unit). -/
def redFix (s : Std) (y cr : Int) : Int :=
  y * (dec s).ky / 256 + cr * (dec s).kr / 256 + (dec s).offR

/-- Green before clamping, in units of 1/64. -/
def greenFix (s : Std) (y cb cr : Int) : Int :=
  y * (dec s).ky / 256 - cb * (dec s).kgb / 256 - cr * (dec s).kgr / 256 + (dec s).offG

/-- Blue before clamping, in units of 1/64. -/
def blueFix (s : Std) (y cb : Int) : Int :=
  y * (dec s).ky / 256 + cb * (dec s).kb / 256 + (dec s).offB

/-- Decoded red. -/
def red (s : Std) (y cr : Int) : Int := clamp (redFix s y cr / 64)
/-- Decoded green. -/
def green (s : Std) (y cb cr : Int) : Int := clamp (greenFix s y cb cr / 64)
/-- Decoded blue. -/
def blue (s : Std) (y cb : Int) : Int := clamp (blueFix s y cb / 64)

/-- The byte with a given integer value (used for values in `[0, 255]`). -/
def byte (x : Int) : UInt8 := UInt8.ofNat x.toNat

/-- Integer value of a byte. -/
def val (b : UInt8) : Int := (b.toNat : Int)

end Verif.Spec
