import Verif.Model.Basic
/-!
# `src/pixel_format.rs` and `src/color_space.rs`
-/

namespace Verif

/-- pixel_format.rs:21-62. -/
inductive PixelFormat where
  | argb | bgra | bgr | rgba | rgb | i444 | i422 | i420 | nv12
  deriving DecidableEq, Repr

/-- color_space.rs:26-42. -/
inductive ColorSpace where
  | rgb | bt601 | bt709 | bt601FR | bt709FR
  deriving DecidableEq, Repr

namespace PixelFormat

/-- `pixel_format as u32` (declaration order, pixel_format.rs:21-62, `repr(C)`). -/
def toU32 : PixelFormat → UInt32
  | .argb => 0 | .bgra => 1 | .bgr => 2 | .rgba => 3 | .rgb => 4
  | .i444 => 5 | .i422 => 6 | .i420 => 7 | .nv12 => 8

/-- pixel_format.rs:66-72. -/
def depth : PixelFormat → Nat
  | .argb | .bgra | .rgba => 4
  | .bgr | .rgb => 3
  | _ => 0

/-- pixel_format.rs:75-77. -/
def reversed : PixelFormat → Bool
  | .rgba => true
  | _ => false

end PixelFormat

/-- `color_space as u32` (declaration order, color_space.rs:26-42). -/
def ColorSpace.toU32 : ColorSpace → UInt32
  | .rgb => 0 | .bt601 => 1 | .bt709 => 2 | .bt601FR => 3 | .bt709FR => 4

namespace PixFmt

/-- pixel_format.rs:16. -/
def MAX_NUMBER_OF_PLANES : Nat := 4

/-- pixel_format.rs:98. -/
def STRIDE_AUTO : Nat := 0

/-- pixel_format.rs:100. -/
def DEFAULT_STRIDES : List Nat := [STRIDE_AUTO, STRIDE_AUTO, STRIDE_AUTO, STRIDE_AUTO]

/-- pixel_format.rs:103-105. -/
def make_pf_spec (planes width height : UInt32) : UInt32 :=
  (height <<< 3) ||| (width <<< 2) ||| planes

/-- pixel_format.rs:108-110. -/
def make_plane_spec (plane0 plane1 plane2 plane3 : UInt32) : UInt32 :=
  (plane3 <<< 18) ||| (plane2 <<< 12) ||| (plane1 <<< 6) ||| plane0

/-- pixel_format.rs:112. -/
def INVALID_PLANE : UInt32 := 32

/-- pixel_format.rs:114-124. -/
def PF_SPECS : List UInt32 := [
  make_pf_spec 0 0 0,
  make_pf_spec 0 0 0,
  make_pf_spec 0 0 0,
  make_pf_spec 0 0 0,
  make_pf_spec 0 0 0,
  make_pf_spec 2 0 0,
  make_pf_spec 2 1 0,
  make_pf_spec 2 1 1,
  make_pf_spec 1 1 1]

/-- pixel_format.rs:126-136. -/
def STRIDE_SPECS : List UInt32 := [
  make_plane_spec 0 0 0 0,
  make_plane_spec 0 0 0 0,
  make_plane_spec 0 0 0 INVALID_PLANE,
  make_plane_spec 0 0 0 0,
  make_plane_spec 0 0 0 INVALID_PLANE,
  make_plane_spec 0 0 0 INVALID_PLANE,
  make_plane_spec 0 1 1 INVALID_PLANE,
  make_plane_spec 0 1 1 INVALID_PLANE,
  make_plane_spec 0 0 INVALID_PLANE INVALID_PLANE]

/-- pixel_format.rs:138-148. -/
def HEIGHT_SPECS : List UInt32 := [
  make_plane_spec 0 0 0 0,
  make_plane_spec 0 0 0 0,
  make_plane_spec 0 0 0 INVALID_PLANE,
  make_plane_spec 0 0 0 0,
  make_plane_spec 0 0 0 INVALID_PLANE,
  make_plane_spec 0 0 0 INVALID_PLANE,
  make_plane_spec 0 0 0 INVALID_PLANE,
  make_plane_spec 0 1 1 INVALID_PLANE,
  make_plane_spec 0 1 INVALID_PLANE INVALID_PLANE]

/-- pixel_format.rs:150-152. -/
def get_pf_width (pf : UInt32) : UInt32 := (pf >>> 2) &&& 1

/-- pixel_format.rs:154-156. -/
def get_pf_height (pf : UInt32) : UInt32 := pf >>> 3

/-- pixel_format.rs:158-160. -/
def get_pf_planes (pf : UInt32) : UInt32 := pf &&& 3

/-- pixel_format.rs:162-164. `plane < 4`, so the shift amount is below 32. -/
def get_plane_value (bpp : UInt32) (plane : Nat) : UInt32 :=
  (bpp >>> UInt32.ofNat (6 * plane)) &&& 0x3F

/-- pixel_format.rs:166-168. -/
def get_plane_mask (bpp : UInt32) (plane : Nat) : Nat :=
  if INVALID_PLANE ≠ get_plane_value bpp plane then 1 else 0

/-- pixel_format.rs:170-172. `wrapping_shr` reduces the shift amount modulo 32, as Lean's
`UInt32` shift does. -/
def get_plane_spec (dimension bpp : UInt32) (plane : Nat) : Nat :=
  (dimension >>> get_plane_value bpp plane).toNat

/-- pixel_format.rs:174-188. `UInt32` subtraction and multiplication wrap. -/
def is_compatible (pixel_format width height last_plane : UInt32) : R Bool := do
  let spec ← idx PF_SPECS pixel_format.toNat
  let planes := get_pf_planes spec
  let matches_exact := last_plane - planes
  let last_plane := if pixel_format = PixelFormat.nv12.toU32 then last_plane else 1
  return ((width &&& get_pf_width spec) ||| (height &&& get_pf_height spec)
    ||| (last_plane * matches_exact)) == 0

/-- pixel_format.rs:211-215: one entry of the array `stride`. -/
def stride_entry (t : Target) (strides : List Nat) (stride_spec width : UInt32) (i : Nat) :
    R Nat :=
  match strides[i]? with
  | none => t.mul (get_plane_mask stride_spec i) (get_plane_spec width stride_spec i)
  | some s =>
    if s = STRIDE_AUTO then
      t.mul (get_plane_mask stride_spec i) (get_plane_spec width stride_spec i)
    else .ok s

/-- pixel_format.rs:228-232: sizes for planes `i .. i + n`, written over `buffers_size`. -/
def plane_sizes (t : Target) (stride : List Nat) (height_spec height : UInt32) :
    (i n : Nat) → List Nat → R (List Nat)
  | _, 0, bs => .ok bs
  | i, n + 1, bs => do
    let s ← idx stride i
    let v ← t.mul s (get_plane_spec height height_spec i)
    plane_sizes t stride height_spec height (i + 1) n (bs.set i v)

/-- pixel_format.rs:190-236. Returns the success flag and the new contents of `buffers_size`. -/
def get_buffers_size (t : Target) (pixel_format width height last_plane : UInt32)
    (strides buffers_size : List Nat) : R (Bool × List Nat) :=
  let last_plane := last_plane.toNat
  if last_plane ≥ MAX_NUMBER_OF_PLANES ∨ last_plane ≥ strides.length
      ∨ last_plane ≥ buffers_size.length then
    .ok (false, buffers_size)
  else do
    let stride_spec ← idx STRIDE_SPECS pixel_format.toNat
    let s0 ← stride_entry t strides stride_spec width 0
    let s1 ← stride_entry t strides stride_spec width 1
    let s2 ← stride_entry t strides stride_spec width 2
    let s3 ← stride_entry t strides stride_spec width 3
    let height_spec ← idx HEIGHT_SPECS pixel_format.toNat
    if last_plane = 0 then
      let p0 ← t.mul s0 (get_plane_spec height height_spec 0)
      let p1 ← t.mul s1 (get_plane_spec height height_spec 1)
      let a ← t.add p0 p1
      let p2 ← t.mul s2 (get_plane_spec height height_spec 2)
      let p3 ← t.mul s3 (get_plane_spec height height_spec 3)
      let b ← t.add p2 p3
      let c ← t.add a b
      .ok (true, buffers_size.set 0 c)
    else do
      let bs ← plane_sizes t [s0, s1, s2, s3] height_spec height 0 (last_plane + 1) buffers_size
      .ok (true, bs)

/-- pixel_format.rs:239-250. -/
def are_planes_compatible (pixel_format num_planes : UInt32) : R Bool := do
  let last_plane := num_planes - 1
  let spec ← idx PF_SPECS pixel_format.toNat
  let matches_exact := last_plane - get_pf_planes spec
  let last_plane := if pixel_format = PixelFormat.nv12.toU32 then last_plane else 1
  return last_plane * matches_exact == 0

end PixFmt

end Verif
