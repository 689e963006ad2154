import Verif.Spec.Result
/-!
# Colour bars
-/

namespace Verif.Spec

/-- Component of a colour bar: nothing or everything. -/
def full (b : Bool) : UInt8 := if b then 255 else 0

/-- The pixels of the 2x2 block of `(x, y)`, as far as they belong to the image, have the colour of
the bar `r`, `g`, `b`. -/
def BarAround (c : Call) (r g b : Bool) (x y : Nat) : Prop :=
  ∀ x' y', c.Pixel x' y' → x' / 2 = x / 2 → y' / 2 = y / 2 →
    c.rgbIn.r x' y' = full r ∧ c.rgbIn.g x' y' = full g ∧ c.rgbIn.b x' y' = full b

/-- Codes (Y, Cb, Cr) of the eight colour bars of full amplitude. -/
def barCodes : Std → Bool → Bool → Bool → UInt8 × UInt8 × UInt8
  | .bt601, false, false, false => (16, 128, 128)
  | .bt601, false, false, true => (41, 240, 110)
  | .bt601, false, true, false => (145, 54, 34)
  | .bt601, false, true, true => (170, 166, 16)
  | .bt601, true, false, false => (81, 90, 240)
  | .bt601, true, false, true => (106, 202, 222)
  | .bt601, true, true, false => (210, 16, 146)
  | .bt601, true, true, true => (235, 128, 128)
  | .bt709, false, false, false => (16, 128, 128)
  | .bt709, false, false, true => (32, 240, 118)
  | .bt709, false, true, false => (173, 42, 26)
  | .bt709, false, true, true => (188, 154, 16)
  | .bt709, true, false, false => (63, 102, 240)
  | .bt709, true, false, true => (78, 214, 230)
  | .bt709, true, true, false => (219, 16, 138)
  | .bt709, true, true, true => (235, 128, 128)
  | .bt601FR, false, false, false => (0, 128, 128)
  | .bt601FR, false, false, true => (29, 255, 107)
  | .bt601FR, false, true, false => (150, 44, 21)
  | .bt601FR, false, true, true => (179, 171, 1)
  | .bt601FR, true, false, false => (76, 85, 255)
  | .bt601FR, true, false, true => (105, 212, 235)
  | .bt601FR, true, true, false => (226, 1, 149)
  | .bt601FR, true, true, true => (255, 128, 128)
  | .bt709FR, false, false, false => (0, 128, 128)
  | .bt709FR, false, false, true => (18, 255, 116)
  | .bt709FR, false, true, false => (182, 30, 12)
  | .bt709FR, false, true, true => (201, 157, 1)
  | .bt709FR, true, false, false => (54, 99, 255)
  | .bt709FR, true, false, true => (73, 226, 244)
  | .bt709FR, true, true, false => (237, 1, 140)
  | .bt709FR, true, true, true => (255, 128, 128)

end Verif.Spec
