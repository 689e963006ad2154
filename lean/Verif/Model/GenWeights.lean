import Mathlib.Data.Rat.Floor
import Mathlib.Algebra.Order.Group.Unbundled.Abs
/-!
# genweights.py: the script that computes the coefficient tables

Floating point numbers are exact rationals here. All that becomes of them in the tables is rounded
to integers or compared; `C95_margins` shows that every such decision is far from its boundary.
Text output is the record `Gen`.
-/

namespace Verif.GenWeights

/-- genweights.py:21-29. -/
def FIX16 : Nat := 16
def FIX18 : Nat := 18
def FIX_8_14 : Nat := 14
def FIX_8_14_HALF : ℤ := 2 ^ (FIX_8_14 - 1)
def FIX16_MULT : ℚ := 2 ^ FIX16
def FIX8_14_MULT : ℚ := 2 ^ FIX_8_14
def FULL_RANGE : ℚ := 255

/-- Python's `round`, which rounds halves to the even neighbour. Here halves are rounded up; there
are none (`C95_margins`). -/
def round (x : ℚ) : ℤ := ⌊x + 1 / 2⌋

/-- Python's `int`: towards zero. -/
def int (x : ℚ) : ℤ := if 0 ≤ x then ⌊x⌋ else ⌈x⌉

/-- genweights.py:115-132. `x >> n` is `x / 2 ^ n`, rounded down, in Python and here. -/
def max_y_error (xr xg xb : ℤ) (ar ag ab : ℚ) (y_min : ℤ) : ℚ :=
  let shift := y_min * 2 ^ FIX16 + 2 ^ (FIX16 - 1)
  (List.range 256).foldl (fun err (red : ℕ) =>
    let y_tmp := xr * red + shift
    let yf_tmp := ar * red + y_min
    (List.range 256).foldl (fun err (green : ℕ) =>
      let y_tmp2 := xg * green + y_tmp
      let yf_tmp2 := ag * green + yf_tmp
      (List.range 256).foldl (fun err (blue : ℕ) =>
        let y := (xb * blue + y_tmp2) / 2 ^ FIX16
        let yf := ab * blue + yf_tmp2
        max err |yf - y|) err) err) 0

/-- genweights.py:135-164. -/
def max_uv_error (yr yg zg : ℤ) (br bg bb cr cg cb : ℚ) : ℚ × ℚ :=
  let yb := -(yr + yg)
  let zr := yb
  let zb := -(zr + zg)
  let shift := 128 * 2 ^ FIX16 + 2 ^ (FIX16 - 1) - 1
  (List.range 256).foldl (fun err (red : ℕ) =>
    let u_tmp := yr * red + shift
    let v_tmp := zr * red + shift
    let uf_tmp := br * red + 128
    let vf_tmp := cr * red + 128
    (List.range 256).foldl (fun err (green : ℕ) =>
      let u_tmp2 := yg * green + u_tmp
      let v_tmp2 := zg * green + v_tmp
      let uf_tmp2 := bg * green + uf_tmp
      let vf_tmp2 := cg * green + vf_tmp
      (List.range 256).foldl (fun (err : ℚ × ℚ) (blue : ℕ) =>
        let u := (yb * blue + u_tmp2) / 2 ^ FIX16
        let v := (zb * blue + v_tmp2) / 2 ^ FIX16
        let uf := bb * blue + uf_tmp2
        let vf := cb * blue + vf_tmp2
        (max err.1 |uf - u|, max err.2 |vf - v|)) err) err) (0, 0)

/-- genweights.py:191-208: `Y_MIN`, `Y_MAX`, `C_MIN`, `C_MAX`. -/
def ranges (full_range : Bool) : ℤ × ℤ × ℤ × ℤ :=
  if full_range then (0, 255, 0, 255) else (16, 235, 16, 240)

/-- genweights.py:210-230: `ar, ag, ab, br, bg, bb, cr, cg, cb`. -/
structure Real where
  ar : ℚ
  ag : ℚ
  ab : ℚ
  br : ℚ
  bg : ℚ
  bb : ℚ
  cr : ℚ
  cg : ℚ
  cb : ℚ

/-- genweights.py:204-230. -/
def forward (kr kg kb : ℚ) (full_range : Bool) : Real :=
  let (Y_MIN, Y_MAX, C_MIN, C_MAX) := ranges full_range
  let Y_SCALE : ℚ := (Y_MAX - Y_MIN) / FULL_RANGE
  let C_SCALE : ℚ := (C_MAX - C_MIN) / FULL_RANGE
  let br := -kr / (2 * (1 - kb))
  let bg := -kg / (2 * (1 - kb))
  let cg := -kg / (2 * (1 - kr))
  let cb := -kb / (2 * (1 - kr))
  if full_range then ⟨kr, kg, kb, br, bg, 0.5, 0.5, cg, cb⟩
  else ⟨kr * Y_SCALE, kg * Y_SCALE, kb * Y_SCALE, br * C_SCALE, bg * C_SCALE, 0.5 * C_SCALE,
    0.5 * C_SCALE, cg * C_SCALE, cb * C_SCALE⟩

/-- genweights.py:237-255: `yr`, `yg`, `zg` and `uv_err`. -/
def chroma (f : Real) : ℤ × ℤ × ℤ × (ℚ × ℚ) :=
  let yr := round (FIX16_MULT * f.br)
  let yg := round (FIX16_MULT * f.bg)
  let zg := round (FIX16_MULT * f.cg)
  let diff := -32767 - (yr + yg)
  if diff > 0 then
    let uv_err := max_uv_error (yr + diff) yg zg f.br f.bg f.bb f.cr f.cg f.cb
    let uv2_err := max_uv_error yr (yg + diff) zg f.br f.bg f.bb f.cr f.cg f.cb
    if max uv_err.1 uv_err.2 ≤ max uv2_err.1 uv2_err.2 then (yr + diff, yg, zg, uv_err)
    else (yr, yg + diff, zg, uv2_err)
  else (yr, yg, zg, max_uv_error yr yg zg f.br f.bg f.bb f.cr f.cg f.cb)

/-- The numbers printed for the tables, genweights.py:257-297. -/
structure Gen where
  y_err : ℚ
  u_err : ℚ
  v_err : ℚ
  xr : ℤ
  xg : ℤ
  xb : ℤ
  yr : ℤ
  yg : ℤ
  zg : ℤ
  xxym : ℤ
  rcrm : ℤ
  gcrm : ℤ
  gcbm : ℤ
  bcbm : ℤ
  rn : ℤ
  gp : ℤ
  bn : ℤ

/-- genweights.py:271-278: `y_scale`, `rz`, `gy`, `gz`, `by` before rounding. -/
def backward (kr kg kb : ℚ) (full_range : Bool) : ℚ × ℚ × ℚ × ℚ × ℚ :=
  let (Y_MIN, Y_MAX, C_MIN, C_MAX) := ranges full_range
  let Y_SCALE : ℚ := (Y_MAX - Y_MIN) / FULL_RANGE
  let C_SCALE : ℚ := (C_MAX - C_MIN) / FULL_RANGE
  (1 / Y_SCALE, 2 * (1 - kr) / C_SCALE, (2 * (1 - kb) * kb) / (C_SCALE * kg),
    (2 * (1 - kr) * kr) / (C_SCALE * kg), 2 * (1 - kb) / C_SCALE)

/-- genweights.py:172-183: `kr`, `kg`, `kb`; other models are refused. -/
def weights (model : ℤ) : Option (ℚ × ℚ × ℚ) :=
  if model = 601 then some (0.299, 0.587, 0.114)
  else if model = 709 then some (0.2126, 0.7152, 0.0722)
  else none

/-- genweights.py:167-297, called with two numbers. -/
def main (model full : ℤ) : Option Gen :=
  let full_range := full == 1
  match weights model with
  | none => none
  | some (kr, kg, kb) =>
    let (Y_MIN, _, C_MIN, C_MAX) := ranges full_range
    let C_HALF := (C_MAX + C_MIN) / 2
    let f := forward kr kg kb full_range
    let xr := round (FIX16_MULT * f.ar)
    let xg := round (FIX16_MULT * f.ag)
    let xb := round (FIX16_MULT * f.ab)
    let y_err := max_y_error xr xg xb f.ar f.ag f.ab Y_MIN
    let (yr, yg, zg, uv_err) := chroma f
    let (y_scale, rz, gy, gz, by') := backward kr kg kb full_range
    let s := int (FIX8_14_MULT * y_scale + 0.5)
    let rz := int (FIX8_14_MULT * rz + 0.5)
    let gy := int (FIX8_14_MULT * gy + 0.5)
    let gz := int (FIX8_14_MULT * gz + 0.5)
    let by' := int (FIX8_14_MULT * by' + 0.5)
    let rw := rz * C_HALF + s * Y_MIN - FIX_8_14_HALF
    let gw := gy * C_HALF + gz * C_HALF - s * Y_MIN + FIX_8_14_HALF
    let bw := s * Y_MIN + by' * C_HALF - FIX_8_14_HALF
    some ⟨y_err, uv_err.1, uv_err.2, xr, xg, xb, yr, yg, zg, s, rz, gz, gy, by', rw / 2 ^ 8,
      gw / 2 ^ 8, bw / 2 ^ 8⟩

/-- genweights.py:299-326: the reference samples `Y`, `CB`, `CR` of a pixel. The script prints them
for the pixels of a fixed picture. -/
def Gen.reference (w : Gen) (full : ℤ) (r g b : ℤ) : ℤ × ℤ × ℤ :=
  let Y_MIN := (ranges (full == 1)).1
  let yb := -(w.yr + w.yg)
  let zr := yb
  let zb := -(zr + w.zg)
  let uv_shift := 128 * 2 ^ FIX16 + 2 ^ (FIX16 - 1) - 1
  let y_shift := Y_MIN * 2 ^ FIX16 + 2 ^ (FIX16 - 1)
  ((w.xr * r + w.xg * g + w.xb * b + y_shift) / 2 ^ FIX16,
    (w.yr * r + w.yg * g + yb * b + uv_shift) / 2 ^ FIX16,
    (zr * r + w.zg * g + zb * b + uv_shift) / 2 ^ FIX16)

/-- genweights.py:328-365: the reference samples `CB2`, `CR2` of a block of four pixels, given the
sums of red, green and blue. -/
def Gen.reference2 (w : Gen) (r g b : ℤ) : ℤ × ℤ :=
  let yb := -(w.yr + w.yg)
  let zr := yb
  let zb := -(zr + w.zg)
  let uv2_shift := 128 * 2 ^ FIX18 + 2 ^ (FIX18 - 1) - 1
  ((w.yr * r + w.yg * g + yb * b + uv2_shift) / 2 ^ FIX18,
    (zr * r + w.zg * g + zb * b + uv2_shift) / 2 ^ FIX18)

end Verif.GenWeights
