import Verif.Spec.Api
/-!
# What `get_buffers_size` reports

The sizes as natural numbers, for arbitrary strides.
-/

namespace Verif.Spec

/-- Line length and number of lines of the four summands of the size of an image stored in one
buffer: an RGB image counts as one plane of `w` bytes per line for every channel. -/
def summands : PixelFormat → (w h : Nat) → List (Nat × Nat)
  | .argb, w, h | .bgra, w, h | .rgba, w, h => [(w, h), (w, h), (w, h), (w, h)]
  | .nv12, w, h => [(w, h), (w, h / 2), (0, h), (0, h)]
  | _, w, h => [(w, h), (w, h), (w, h), (0, h)]

/-- Stride times number of lines, for every element of a list of lines. -/
def lineSizes (strides : Option (List Nat)) (l : List (Nat × Nat)) : List Nat :=
  l.mapIdx fun i rc => strideOf strides i rc.1 * rc.2

/-- The sizes reported by `get_buffers_size`. -/
def reported (f : ImageFormat) (w h : Nat) (strides : Option (List Nat)) : List Nat :=
  if f.num_planes = 1 then [(lineSizes strides (summands f.pixel_format w h)).sum]
  else lineSizes strides (dims f.pixel_format f.num_planes.toNat w h)

/-- No strides are given beyond the planes of the format. -/
def NoSurplus (f : ImageFormat) (strides : Option (List Nat)) : Prop :=
  ∀ l, strides = some l → l.length ≤ f.num_planes.toNat

/-- The buffers have exactly the sizes `out`. -/
def ExactlyAllocated (f : ImageFormat) (out : List Nat) (bufs : List Buf) : Prop :=
  ∀ i, i < f.num_planes.toNat → ∃ b, bufs[i]? = some b ∧ out[i]? = some b.len

/-- Strides with which buffers of exactly the reported size pass the check of a conversion between
different colour models. -/
def TakesReported (f : ImageFormat) (w h : Nat) (strides : Option (List Nat)) : Prop :=
  if isRgb f.pixel_format then
    w * h ≤ strideOf strides 0 (bpp f.pixel_format * w) * (h - 1) + bpp f.pixel_format * w
  else if f.num_planes = 1 then strideOf strides 0 w = w
  else ∀ (i : Nat) (rc : Nat × Nat), (dims f.pixel_format f.num_planes.toNat w h)[i]? = some rc →
    rc.2 = 1 ∨ rc.1 ≤ strideOf strides i rc.1

/-- Strides with which an image fits into buffers of exactly the reported size. -/
def FitsReported (f : ImageFormat) (w h : Nat) (strides : Option (List Nat)) : Prop :=
  if isRgb f.pixel_format then 2 ≤ h ∨ w ≤ strideOf strides 0 (bpp f.pixel_format * w)
  else if f.num_planes = 1 then h = 2 ∨ strideOf strides 0 w ≤ w
  else ∀ (i : Nat) (rc : Nat × Nat), (dims f.pixel_format f.num_planes.toNat w h)[i]? = some rc →
    rc.1 ≤ strideOf strides i rc.1

end Verif.Spec
