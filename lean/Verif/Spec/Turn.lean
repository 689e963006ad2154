import Verif.Spec.Image
/-!
# Mirrored, flipped, transposed and rotated images
-/

namespace Verif.Spec

/-- One of the eight ways to turn a picture over or around: exchange rows and columns, mirror left
and right, flip top and bottom. -/
structure Turn where
  swap : Bool
  mirror : Bool
  flip : Bool
  deriving DecidableEq

/-- Width and height of the turned picture. -/
def Turn.size (τ : Turn) (w h : Nat) : Nat × Nat := if τ.swap then (h, w) else (w, h)

/-- Where the pixel `(x, y)` of the turned picture is in the original of size `w`, `h`. -/
def Turn.from (τ : Turn) (w h x y : Nat) : Nat × Nat :=
  let p := if τ.swap then (y, x) else (x, y)
  (if τ.mirror then w - 1 - p.1 else p.1, if τ.flip then h - 1 - p.2 else p.2)

/-- `P'` is the plane `P` of size `w`, `h`, turned. -/
def Turned (τ : Turn) (w h : Nat) (P P' : Plane) : Prop :=
  ∀ x y, x < (τ.size w h).1 → y < (τ.size w h).2 →
    P' x y = P (τ.from w h x y).1 (τ.from w h x y).2

/-- An RGB picture, turned. -/
def TurnedRgb (τ : Turn) (w h : Nat) (P P' : RgbImage) : Prop :=
  Turned τ w h P.r P'.r ∧ Turned τ w h P.g P'.g ∧ Turned τ w h P.b P'.b

/-- A YCbCr picture, turned. -/
def TurnedYuv (τ : Turn) (w h : Nat) (P P' : YuvImage) : Prop :=
  Turned τ w h P.y P'.y ∧ Turned τ w h P.cb P'.cb ∧ Turned τ w h P.cr P'.cr

end Verif.Spec
