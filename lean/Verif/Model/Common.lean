import Verif.Model.Basic
/-!
# `src/convert_image/common.rs`
-/

namespace Verif

/-- common.rs:194-200. `Colorimetry` (the sentinel `Length` is omitted). -/
inductive Colorimetry where
  | bt601 | bt709 | bt601FR | bt709FR
  deriving DecidableEq, Repr

/-- common.rs:186-191. `Sampler` (the sentinel `Length` is omitted). -/
inductive Sampler where
  | argb | bgra | bgr
  deriving DecidableEq, Repr

/-- A way to compute the offset of work item `(x, y)` in a plane with items of `w` bytes and lines of
`h` bytes: `x y w h`.  The kernels take it as an argument; the crate's is `wg_index t`. -/
abbrev Index := Nat → Nat → Nat → Nat → R Nat

/-- common.rs:77-79. `wg_index`, with the target's arithmetic on `usize`. -/
def wg_index (t : Target) : Index := fun x y w h => do
  let line ← t.mul h y
  let item ← t.mul x w
  t.add line item

/-- The offset without a bound on integers: what `wg_index` computes when nothing overflows. -/
def exactIx : Index := fun x y w h => .ok (h * y + x * w)

/-- The product without a bound on integers. -/
def exactMul (a b : Nat) : R Nat := .ok (a * b)

/-- common.rs:81-83. `x & !(p - 1)` on 64-bit values. -/
def lower_multiple_of_pot (x p : Nat) : Nat := x &&& ((2 ^ 64 - 1) ^^^ (p - 1))

/-- common.rs:85-90. Parameters in the order of the Rust function. The products and differences
are guarded by the preceding short-circuit tests, hence exact. -/
def out_of_bounds (t : Target) (size width height_minus_one stride : Nat) : Bool :=
  width > size ||
    (height_minus_one != 0 &&
      (stride > t.umax / height_minus_one || stride * height_minus_one > size - width))

/-- common.rs:92-98. -/
def compute_stride (stride dflt : Nat) : Nat := if stride = 0 then dflt else stride

/-- common.rs:100-104, 106. Fixed point formats. -/
def FIX16 : Nat := 16
def FIX18 : Nat := 18
def FIX16_HALF : Int := 2 ^ (FIX16 - 1)
def FIX18_HALF : Int := 2 ^ (FIX16 + 1)
def FIX6 : Nat := 6
def SHORT_HALF : Int := 16384

/-- common.rs:109-114, 126-131, 143-148, 160-165 and x86.rs:23-32 (`FORWARD_WEIGHTS`): one row of
the table. -/
structure Fwd where
  xr : Int
  xg : Int
  xb : Int
  yr : Int
  yg : Int
  zg : Int
  yo : Int

/-- common.rs:116-123, 133-140, 150-157, 167-174 and x86.rs:34-47 (`BACKWARD_WEIGHTS`): one row of
the table. -/
structure Bwd where
  xxym : Int
  rcrm : Int
  gcrm : Int
  gcbm : Int
  bcbm : Int
  rn : Int
  gp : Int
  bn : Int

/-- common.rs:177-183. -/
def Y_MIN : Int := 16
def C_HALF : Int := 128
def FIX16_C_HALF : Int := C_HALF * 2 ^ FIX16
def FIX18_C_HALF : Int := C_HALF * 2 ^ FIX18
def Y_OFFSET : Int := Y_MIN * 2 ^ FIX16 + FIX16_HALF
def DEFAULT_ALPHA : UInt8 := 255

/-- x86.rs:23-32 with the constants of common.rs:109-165. -/
def FORWARD_WEIGHTS : Colorimetry → Fwd
  | .bt601 => ⟨16829, 33039, 6416, -9714, -19071, -24103, Y_OFFSET⟩
  | .bt709 => ⟨11966, 40254, 4064, -6596, -22189, -26145, Y_OFFSET⟩
  | .bt601FR => ⟨19595, 38470, 7471, -11058, -21709, -27439, FIX16_HALF⟩
  | .bt709FR => ⟨13933, 46871, 4732, -7508, -25259, -29763, FIX16_HALF⟩

/-- x86.rs:34-47 with the constants of common.rs:116-174. -/
def BACKWARD_WEIGHTS : Colorimetry → Bwd
  | .bt601 => ⟨19077, 26149, 13320, 6419, 33050, 14234, 8709, 17685⟩
  | .bt709 => ⟨19077, 29372, 8731, 3494, 34610, 15846, 4952, 18465⟩
  | .bt601FR => ⟨16384, 22970, 11700, 5638, 29032, 11363, 8633, 14370⟩
  | .bt709FR => ⟨16384, 25802, 7670, 3069, 30402, 12768, 5359, 15050⟩

end Verif
