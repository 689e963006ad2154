import Verif.Model.Common
/-!
# `src/convert_image/x86.rs`: portable pixel functions and kernels for RGB <-> YCbCr
-/

namespace Verif.X86

/-- x86.rs:49. Offsets of r, g, b inside a pixel. -/
def SAMPLER_OFFSETS : Sampler → Nat × Nat × Nat
  | .argb => (1, 2, 3)
  | .bgra => (2, 1, 0)
  | .bgr => (2, 1, 0)

/-- x86.rs:67-75. Bit operations on the two's complement representation of `fix`. -/
def fix_to_u8_sat (fix : Int) (frac_bits : Nat) : UInt8 :=
  let f : BitVec 32 := BitVec.ofInt 32 fix
  if f &&& ~~~((256#32 <<< frac_bits) - 1#32) = 0#32 then
    UInt8.ofNat (f >>> frac_bits).toNat
  else
    UInt8.ofNat (((f >>> 31) + 255#32) &&& 255#32).toNat

/-- x86.rs:90-92. -/
def mulhi_i32 (a b : Int) : R Int := do
  let p ← I32.mul a b
  return I32.shr p 8

/-- `i32::from(*p)` -/
def rdI (s : Buf) (i : Nat) : K Int := do
  let v ← rd s i
  return (v.toNat : Int)

/-- x86.rs:95-97. -/
def unpack_ui8x2_i32 (s : Buf) (i : Nat) : K (Int × Int) := do
  let a ← rdI s i
  let b ← rdI s (i + 1)
  return (a, b)

/-- x86.rs:103-110. -/
def unpack_ui8x3_i32 (sampler : Sampler) (s : Buf) (i : Nat) : K (Int × Int × Int) := do
  let (o0, o1, o2) := SAMPLER_OFFSETS sampler
  let a ← rdI s (i + o0)
  let b ← rdI s (i + o1)
  let c ← rdI s (i + o2)
  return (a, b, c)

/-- x86.rs:116-118, every operation checked. -/
def affine_transform (x y z ax ay az bw : Int) : R Int := do
  let a ← I32.mul ax x
  let b ← I32.mul ay y
  let s ← I32.add a b
  let c ← I32.mul az z
  let s ← I32.add s c
  I32.add s bw

/-- x86.rs:121-123. -/
def fix_to_i32 (fix : Int) (frac_bits : Nat) : Int := I32.shr fix frac_bits

/-- x86.rs:127-131. -/
def pack_i32x2 (d : Dst) (i : Nat) (x y : Int) : K Unit := do
  wr d i (I32.asU8 x)
  wr d (i + 1) (I32.asU8 y)

/-- x86.rs:135-146. -/
def pack_ui8x3 (reversed : Bool) (d : Dst) (i : Nat) (x y z : UInt8) : K Unit := do
  if reversed then do
    wr d i z
    wr d (i + 2) x
  else do
    wr d i x
    wr d (i + 2) z
  wr d (i + 1) y
  wr d (i + 3) DEFAULT_ALPHA

/-- x86.rs:149-153. -/
def pack_rgb (d : Dst) (i : Nat) (x y z : UInt8) : K Unit := do
  wr d i x
  wr d (i + 1) y
  wr d (i + 2) z

/-- Derived weights `yb`, `zb` (x86.rs:176-177 and repeated in each forward kernel). -/
def derived (w : Fwd) : R (Int × Int) := do
  let s ← I32.add w.yr w.yg
  let yb ← I32.neg s
  let s ← I32.add yb w.zg
  let zb ← I32.neg s
  return (yb, zb)

/-- x86.rs:157-240. -/
def rgb_to_nv12 (ix : Index) (sampler : Sampler) (depth : Nat) (c : Colorimetry)
    (width height src_stride : Nat) (src : Buf)
    (y_stride uv_stride : Nat) (y_plane uv_plane : Dst) : K Unit := do
  let w := FORWARD_WEIGHTS c
  let (yb, zb) ← derived w
  let h1 ← I32.sub FIX18_HALF 1
  let co ← I32.add FIX18_C_HALF h1
  let wg_width := width / 2
  let wg_height := height / 2
  forK wg_height fun y => forK wg_width fun x => do
    let (r00, g00, b00) ← unpack_ui8x3_i32 sampler src (← ix (2 * x) (2 * y) depth src_stride)
    let (r10, g10, b10) ←
      unpack_ui8x3_i32 sampler src (← ix (2 * x + 1) (2 * y) depth src_stride)
    let a ← affine_transform r00 g00 b00 w.xr w.xg w.xb w.yo
    let b ← affine_transform r10 g10 b10 w.xr w.xg w.xb w.yo
    pack_i32x2 y_plane (← ix (2 * x) (2 * y) 1 y_stride)
      (fix_to_i32 a FIX16) (fix_to_i32 b FIX16)
    let (r01, g01, b01) ←
      unpack_ui8x3_i32 sampler src (← ix (2 * x) (2 * y + 1) depth src_stride)
    let (r11, g11, b11) ←
      unpack_ui8x3_i32 sampler src (← ix (2 * x + 1) (2 * y + 1) depth src_stride)
    let a ← affine_transform r01 g01 b01 w.xr w.xg w.xb w.yo
    let b ← affine_transform r11 g11 b11 w.xr w.xg w.xb w.yo
    pack_i32x2 y_plane (← ix (2 * x) (2 * y + 1) 1 y_stride)
      (fix_to_i32 a FIX16) (fix_to_i32 b FIX16)
    let sr ← I32.add (← I32.add r00 r10) (← I32.add r01 r11)
    let sg ← I32.add (← I32.add g00 g10) (← I32.add g01 g11)
    let sb ← I32.add (← I32.add b00 b10) (← I32.add b01 b11)
    let a ← affine_transform sr sg sb w.yr w.yg yb co
    let b ← affine_transform sr sg sb yb w.zg zb co
    pack_i32x2 uv_plane (← ix x y 2 uv_stride) (fix_to_i32 a FIX18) (fix_to_i32 b FIX18)

/-- x86.rs:243-331. -/
def rgb_to_i420 (ix : Index) (sampler : Sampler) (depth : Nat) (c : Colorimetry)
    (width height src_stride : Nat) (src : Buf)
    (y_stride u_stride v_stride : Nat) (y_plane u_plane v_plane : Dst) : K Unit := do
  let w := FORWARD_WEIGHTS c
  let (yb, zb) ← derived w
  let h1 ← I32.sub FIX18_HALF 1
  let co ← I32.add FIX18_C_HALF h1
  let wg_width := width / 2
  let wg_height := height / 2
  forK wg_height fun y => forK wg_width fun x => do
    let (r00, g00, b00) ← unpack_ui8x3_i32 sampler src (← ix (2 * x) (2 * y) depth src_stride)
    let (r10, g10, b10) ←
      unpack_ui8x3_i32 sampler src (← ix (2 * x + 1) (2 * y) depth src_stride)
    let a ← affine_transform r00 g00 b00 w.xr w.xg w.xb w.yo
    let b ← affine_transform r10 g10 b10 w.xr w.xg w.xb w.yo
    pack_i32x2 y_plane (← ix (2 * x) (2 * y) 1 y_stride)
      (fix_to_i32 a FIX16) (fix_to_i32 b FIX16)
    let (r01, g01, b01) ←
      unpack_ui8x3_i32 sampler src (← ix (2 * x) (2 * y + 1) depth src_stride)
    let (r11, g11, b11) ←
      unpack_ui8x3_i32 sampler src (← ix (2 * x + 1) (2 * y + 1) depth src_stride)
    let a ← affine_transform r01 g01 b01 w.xr w.xg w.xb w.yo
    let b ← affine_transform r11 g11 b11 w.xr w.xg w.xb w.yo
    pack_i32x2 y_plane (← ix (2 * x) (2 * y + 1) 1 y_stride)
      (fix_to_i32 a FIX16) (fix_to_i32 b FIX16)
    let sr ← I32.add (← I32.add r00 r10) (← I32.add r01 r11)
    let sg ← I32.add (← I32.add g00 g10) (← I32.add g01 g11)
    let sb ← I32.add (← I32.add b00 b10) (← I32.add b01 b11)
    let u ← ix x y 1 u_stride
    let v ← ix x y 1 v_stride
    let a ← affine_transform sr sg sb w.yr w.yg yb co
    wr u_plane u (I32.asU8 (fix_to_i32 a FIX18))
    let b ← affine_transform sr sg sb yb w.zg zb co
    wr v_plane v (I32.asU8 (fix_to_i32 b FIX18))

/-- x86.rs:334-381. -/
def rgb_to_i444 (ix : Index) (sampler : Sampler) (depth : Nat) (c : Colorimetry)
    (width height src_stride : Nat) (src : Buf)
    (y_stride u_stride v_stride : Nat) (y_plane u_plane v_plane : Dst) : K Unit := do
  let w := FORWARD_WEIGHTS c
  let (yb, zb) ← derived w
  let h1 ← I32.sub FIX16_HALF 1
  let co ← I32.add FIX16_C_HALF h1
  forK height fun y => forK width fun x => do
    let (r, g, b) ← unpack_ui8x3_i32 sampler src (← ix x y depth src_stride)
    let y_data ← ix x y 1 y_stride
    let u_data ← ix x y 1 u_stride
    let v_data ← ix x y 1 v_stride
    let l ← affine_transform r g b w.xr w.xg w.xb w.yo
    wr y_plane y_data (I32.asU8 (fix_to_i32 l FIX16))
    let u ← affine_transform r g b w.yr w.yg yb co
    wr u_plane u_data (I32.asU8 (fix_to_i32 u FIX16))
    let v ← affine_transform r g b yb w.zg zb co
    wr v_plane v_data (I32.asU8 (fix_to_i32 v FIX16))

/-- The chroma contributions `(sr, sg, sb)` (x86.rs:427-431 and repeated in each backward
kernel). -/
def chroma_terms (w : Bwd) (cb cr : Int) : R (Int × Int × Int) := do
  let sr ← I32.sub (← mulhi_i32 cr w.rcrm) w.rn
  let m ← I32.neg (← mulhi_i32 cb w.gcbm)
  let m ← I32.sub m (← mulhi_i32 cr w.gcrm)
  let sg ← I32.add m w.gp
  let sb ← I32.sub (← mulhi_i32 cb w.bcbm) w.bn
  return (sr, sg, sb)

/-- One decoded pixel: luma contribution plus chroma contributions, saturated
(x86.rs:436-446 and repeated). Result is `(r, g, b)`. -/
def decode_px (w : Bwd) (l sr sg sb : Int) : R (UInt8 × UInt8 × UInt8) := do
  let sy ← mulhi_i32 l w.xxym
  let b ← I32.add sy sb
  let g ← I32.add sy sg
  let r ← I32.add sy sr
  return (fix_to_u8_sat r FIX6, fix_to_u8_sat g FIX6, fix_to_u8_sat b FIX6)

/-- Decode and store one pixel with 4 bytes (x86.rs:436-446). -/
def put_bgra (w : Bwd) (reversed : Bool) (d : Dst) (i : Nat) (l sr sg sb : Int) : K Unit := do
  let (r, g, b) ← decode_px w l sr sg sb
  pack_ui8x3 reversed d i b g r

/-- Decode and store one pixel with 3 bytes (x86.rs:521-526). -/
def put_rgb (w : Bwd) (d : Dst) (i : Nat) (l sr sg sb : Int) : K Unit := do
  let (r, g, b) ← decode_px w l sr sg sb
  pack_rgb d i r g b

/-- x86.rs:384-477. -/
def nv12_to_bgra (ix : Index) (c : Colorimetry) (reversed : Bool) (width height : Nat)
    (y_stride uv_stride : Nat) (y_plane uv_plane : Buf) (dst_stride : Nat) (dst : Dst) :
    K Unit := do
  let w := BACKWARD_WEIGHTS c
  forK (height / 2) fun y => forK (width / 2) fun x => do
    let (cb, cr) ← unpack_ui8x2_i32 uv_plane (← ix x y 2 uv_stride)
    let (sr, sg, sb) ← chroma_terms w cb cr
    let (y00, y10) ← unpack_ui8x2_i32 y_plane (← ix (2 * x) (2 * y) 1 y_stride)
    put_bgra w reversed dst (← ix (2 * x) (2 * y) 4 dst_stride) y00 sr sg sb
    put_bgra w reversed dst (← ix (2 * x + 1) (2 * y) 4 dst_stride) y10 sr sg sb
    let (y01, y11) ← unpack_ui8x2_i32 y_plane (← ix (2 * x) (2 * y + 1) 1 y_stride)
    put_bgra w reversed dst (← ix (2 * x) (2 * y + 1) 4 dst_stride) y01 sr sg sb
    put_bgra w reversed dst (← ix (2 * x + 1) (2 * y + 1) 4 dst_stride) y11 sr sg sb

/-- x86.rs:480-557. -/
def nv12_to_rgb (ix : Index) (c : Colorimetry) (width height : Nat)
    (y_stride uv_stride : Nat) (y_plane uv_plane : Buf) (dst_stride : Nat) (dst : Dst) :
    K Unit := do
  let w := BACKWARD_WEIGHTS c
  forK (height / 2) fun y => forK (width / 2) fun x => do
    let (cb, cr) ← unpack_ui8x2_i32 uv_plane (← ix x y 2 uv_stride)
    let (sr, sg, sb) ← chroma_terms w cb cr
    let (y00, y10) ← unpack_ui8x2_i32 y_plane (← ix (2 * x) (2 * y) 1 y_stride)
    put_rgb w dst (← ix (2 * x) (2 * y) 3 dst_stride) y00 sr sg sb
    put_rgb w dst (← ix (2 * x + 1) (2 * y) 3 dst_stride) y10 sr sg sb
    let (y01, y11) ← unpack_ui8x2_i32 y_plane (← ix (2 * x) (2 * y + 1) 1 y_stride)
    put_rgb w dst (← ix (2 * x) (2 * y + 1) 3 dst_stride) y01 sr sg sb
    put_rgb w dst (← ix (2 * x + 1) (2 * y + 1) 3 dst_stride) y11 sr sg sb

/-- x86.rs:560-639. -/
def i420_to_bgra (ix : Index) (c : Colorimetry) (reversed : Bool) (width height : Nat)
    (y_stride u_stride v_stride : Nat) (y_plane u_plane v_plane : Buf) (dst_stride : Nat)
    (dst : Dst) : K Unit := do
  let w := BACKWARD_WEIGHTS c
  forK (height / 2) fun y => forK (width / 2) fun x => do
    let cb ← rdI u_plane (← ix x y 1 u_stride)
    let cr ← rdI v_plane (← ix x y 1 v_stride)
    let (sr, sg, sb) ← chroma_terms w cb cr
    let (y00, y10) ← unpack_ui8x2_i32 y_plane (← ix (2 * x) (2 * y) 1 y_stride)
    put_bgra w reversed dst (← ix (2 * x) (2 * y) 4 dst_stride) y00 sr sg sb
    put_bgra w reversed dst (← ix (2 * x + 1) (2 * y) 4 dst_stride) y10 sr sg sb
    let (y01, y11) ← unpack_ui8x2_i32 y_plane (← ix (2 * x) (2 * y + 1) 1 y_stride)
    put_bgra w reversed dst (← ix (2 * x) (2 * y + 1) 4 dst_stride) y01 sr sg sb
    put_bgra w reversed dst (← ix (2 * x + 1) (2 * y + 1) 4 dst_stride) y11 sr sg sb

/-- x86.rs:642-689. -/
def i444_to_bgra (ix : Index) (c : Colorimetry) (reversed : Bool) (width height : Nat)
    (y_stride u_stride v_stride : Nat) (y_plane u_plane v_plane : Buf) (dst_stride : Nat)
    (dst : Dst) : K Unit := do
  let w := BACKWARD_WEIGHTS c
  forK height fun y => forK width fun x => do
    let l ← rdI y_plane (← ix x y 1 y_stride)
    let cb ← rdI u_plane (← ix x y 1 u_stride)
    let cr ← rdI v_plane (← ix x y 1 v_stride)
    let (sr, sg, sb) ← chroma_terms w cb cr
    put_bgra w reversed dst (← ix x y 4 dst_stride) l sr sg sb

end Verif.X86
