import Verif.Model.Common
/-!
# `src/convert_image/x86.rs`: portable RGB <-> RGB kernels

The kernels load and store 32- and 64-bit words (little endian).  `width > 0` (the wrappers return
before calling a kernel otherwise).  Row offsets computed from `stride - depth * width` use the
arithmetic of the target, because that difference can underflow.
-/

namespace Verif.X86

/-- Little-endian 64-bit word made of the bytes `f 0 .. f 7`. -/
def word64 (f : Nat → UInt8) : BitVec 64 :=
  (f 7).toBitVec ++ (f 6).toBitVec ++ (f 5).toBitVec ++ (f 4).toBitVec ++
  (f 3).toBitVec ++ (f 2).toBitVec ++ (f 1).toBitVec ++ (f 0).toBitVec

/-- Byte `k` (little endian) of a 64-bit word. -/
def byte64 (v : BitVec 64) (k : Nat) : UInt8 := ⟨v.extractLsb' (8 * k) 8⟩

/-- Little-endian 32-bit word made of the bytes `f 0 .. f 3`. -/
def word32 (f : Nat → UInt8) : BitVec 32 :=
  (f 3).toBitVec ++ (f 2).toBitVec ++ (f 1).toBitVec ++ (f 0).toBitVec

/-- Byte `k` (little endian) of a 32-bit word. -/
def byte32 (v : BitVec 32) (k : Nat) : UInt8 := ⟨v.extractLsb' (8 * k) 8⟩

/-- `u64::swap_bytes` (also used for `i64`, same bits). -/
def swap_bytes64 (v : BitVec 64) : BitVec 64 := word64 fun k => byte64 v (7 - k)

/-- `u32::swap_bytes`. -/
def swap_bytes32 (v : BitVec 32) : BitVec 32 := word32 fun k => byte32 v (3 - k)

/-- `read_unaligned::<u64>(s.as_ptr().add(i))`. -/
def loadu64 (s : Buf) (i : Nat) : K (BitVec 64) :=
  if i + 8 ≤ s.len then pure (word64 fun k => s.bytes (i + k)) else K.throw .oobRead

/-- `read_unaligned::<u32>(s.as_ptr().add(i))`. -/
def loadu32 (s : Buf) (i : Nat) : K (BitVec 32) :=
  if i + 4 ≤ s.len then pure (word32 fun k => s.bytes (i + k)) else K.throw .oobRead

/-- `write_unaligned::<u64>(d.as_mut_ptr().add(i), v)`. -/
def storeu64 (d : Dst) (i : Nat) (v : BitVec 64) : K Unit :=
  if i + 8 ≤ d.len then
    K.ok () ((List.range 8).map fun k => ⟨d.plane, d.off + (i + k), byte64 v k⟩)
  else K.throw .oobWrite

/-- `write_unaligned::<u32>(d.as_mut_ptr().add(i), v)`. -/
def storeu32 (d : Dst) (i : Nat) (v : BitVec 32) : K Unit :=
  if i + 4 ≤ d.len then
    K.ok () ((List.range 4).map fun k => ⟨d.plane, d.off + (i + k), byte32 v k⟩)
  else K.throw .oobWrite

/-- x86.rs:759-778: one 64-bit word of two RGB pixels (plus two more bytes) to two
BGRA pixels. Masks x86.rs:700-702. -/
def rgb2_to_bgra2 (v : BitVec 64) : BitVec 64 :=
  swap_bytes64 (((v >>> 16) &&& 0x00000000FFFFFFFF#64) ||| ((v <<< 40) &&& 0xFFFFFFFF00000000#64)
    ||| 0x000000FF000000FF#64)

/-- x86.rs:794: `((v << 8) | 0xFF).swap_bytes()`. -/
def rgb1_to_bgra1 (v : BitVec 32) : BitVec 32 := swap_bytes32 ((v <<< 8) ||| 0xFF#32)

/-- Loop-carried variables of the row loops: `x` (called `y` in two kernels), `src_offset`,
`dst_offset`. -/
structure Cur where
  x : Nat
  so : Nat
  d : Nat
  deriving DecidableEq, Repr

/-- x86.rs:748-784: body of the multi-swap loop. -/
def rgb_to_bgra_multi (src : Buf) (dst : Dst) (s : Cur) : K Cur := do
  let rgb0 ← loadu64 src s.so
  let rgb1 ← loadu64 src (s.so + 6)
  let rgb2 ← loadu64 src (s.so + 12)
  let rgb3 ← loadu64 src (s.so + 18)
  storeu64 dst s.d (rgb2_to_bgra2 rgb0)
  storeu64 dst (s.d + 8) (rgb2_to_bgra2 rgb1)
  storeu64 dst (s.d + 16) (rgb2_to_bgra2 rgb2)
  storeu64 dst (s.d + 24) (rgb2_to_bgra2 rgb3)
  return ⟨s.x + 8, s.so + 3 * 8, s.d + 4 * 8⟩

/-- x86.rs:787-800: body of the single-swap loop. -/
def rgb_to_bgra_single (src : Buf) (dst : Dst) (s : Cur) : K Cur := do
  let v ← loadu32 src s.so
  storeu32 dst s.d (rgb1_to_bgra1 v)
  return ⟨s.x + 1, s.so + 3, s.d + 4⟩

/-- x86.rs:804-812: last pixel of a line, byte per byte. -/
def rgb_to_bgra_last (src : Buf) (dst : Dst) (s : Cur) : K Cur := do
  wr dst s.d (← rd src (s.so + 2))
  wr dst (s.d + 1) (← rd src (s.so + 1))
  wr dst (s.d + 2) (← rd src s.so)
  wr dst (s.d + 3) 0xFF
  return ⟨s.x, s.so + 3, s.d + 4⟩

/-- x86.rs:719-817: one line. State: offsets at the start of the line. -/
def rgb_to_bgra_line (t : Target) (width height src_diff dst_diff : Nat) (src : Buf) (dst : Dst)
    (y so d : Nat) : K (Nat × Nat) := do
  let is_last_line : Bool := y + 1 == height
  let single ← if is_last_line || src_diff < 1 then (t.sub width 1 : R Nat) else pure width
  let multi ←
    if is_last_line || (8 * (width / 8) == width && src_diff < 2) then do
      let m ← (t.sub width 1 : R Nat)
      pure (8 * (m / 8))
    else pure (8 * (width / 8))
  let s ← iterK ((multi + 7) / 8) (rgb_to_bgra_multi src dst) ⟨0, so, d⟩
  let s ← whileK width (fun s => s.x < single) (rgb_to_bgra_single src dst) s
  let s ← if s.x < width then rgb_to_bgra_last src dst s else pure s
  let so ← (t.add s.so src_diff : R Nat)
  let d ← (t.add s.d dst_diff : R Nat)
  return (so, d)

/-- x86.rs:718-817: lines `y .. y + n`. -/
def rgb_to_bgra_lines (t : Target) (width height src_diff dst_diff : Nat) (src : Buf) (dst : Dst) :
    (y n so d : Nat) → K Unit
  | _, 0, _, _ => pure ()
  | y, n + 1, so, d => do
    let (so, d) ← rgb_to_bgra_line t width height src_diff dst_diff src dst y so d
    rgb_to_bgra_lines t width height src_diff dst_diff src dst (y + 1) n so d

/-- x86.rs:692-818. -/
def rgb_to_bgra (t : Target) (width height src_stride : Nat) (src : Buf) (dst_stride : Nat)
    (dst : Dst) : K Unit := do
  let src_diff ← (t.sub src_stride (← (t.mul 3 width : R Nat)) : R Nat)
  let dst_diff ← (t.sub dst_stride (← (t.mul 4 width : R Nat)) : R Nat)
  rgb_to_bgra_lines t width height src_diff dst_diff src dst 0 height 0 0

/-- x86.rs:855-878: eight BGR pixels (three words) to eight RGB pixels. -/
def bgr8_to_rgb8 (bgr0 bgr1 bgr2 : BitVec 64) : BitVec 64 × BitVec 64 × BitVec 64 :=
  let s0 := swap_bytes64 bgr0
  let s1 := swap_bytes64 bgr1
  let s2 := swap_bytes64 bgr2
  ((s0 >>> 40) ||| ((s0 <<< 8) &&& 0x0000FFFFFF000000#64) ||| (s0 <<< 56)
      ||| ((s1 &&& 0xFF00000000000000#64) >>> 8),
   ((s1 >>> 24) &&& 0xFFFFFF00#64) ||| ((s1 <<< 24) &&& 0x00FFFFFF00000000#64)
      ||| ((s2 &&& 0x00FF000000000000#64) <<< 8) ||| ((s0 &&& 0xFF00#64) >>> 8),
   ((s2 &&& 0xFFFFFF#64) <<< 40) ||| ((s2 >>> 8) &&& 0xFFFFFF0000#64) ||| (s2 >>> 56)
      ||| ((s1 &&& 0xFF#64) <<< 8))

/-- x86.rs:843-888: body of the 8-pixel loop. -/
def bgr_to_rgb_multi (src : Buf) (dst : Dst) (s : Cur) : K Cur := do
  let bgr0 ← loadu64 src s.so
  let bgr1 ← loadu64 src (s.so + 8)
  let bgr2 ← loadu64 src (s.so + 16)
  let (rgb0, rgb1, rgb2) := bgr8_to_rgb8 bgr0 bgr1 bgr2
  storeu64 dst s.d rgb0
  storeu64 dst (s.d + 8) rgb1
  storeu64 dst (s.d + 16) rgb2
  return ⟨s.x + 8, s.so + 3 * 8, s.d + 3 * 8⟩

/-- x86.rs:890-898 (and 965-973 with `src_depth = 4`): one pixel, byte per byte. -/
def swap_single (src_depth : Nat) (src : Buf) (dst : Dst) (s : Cur) : K Cur := do
  wr dst s.d (← rd src (s.so + 2))
  wr dst (s.d + 1) (← rd src (s.so + 1))
  wr dst (s.d + 2) (← rd src s.so)
  return ⟨s.x + 1, s.so + src_depth, s.d + 3⟩

/-- x86.rs:821-901. -/
def bgr_to_rgb (mul : Nat → Nat → R Nat) (width height src_stride : Nat) (src : Buf)
    (dst_stride : Nat) (dst : Dst) : K Unit := do
  let limit := lower_multiple_of_pot width 8
  forK height fun i => do
    let so ← mul src_stride i
    let d ← mul dst_stride i
    let s ← whileK width (fun s => s.x < limit) (bgr_to_rgb_multi src dst) ⟨0, so, d⟩
    let _ ← whileK width (fun s => s.x < width) (swap_single 3 src dst) s
    return ()

/-- x86.rs:944-953: two BGRA pixels to six bytes (in the low bytes of the word). -/
def bgra2_to_rgb2 (v : BitVec 64) : BitVec 64 :=
  swap_bytes64 (((v <<< 40) &&& 0xFFFFFF0000000000#64) ||| ((v >>> 16) &&& 0x000000FFFFFF0000#64))

/-- x86.rs:931-963: body of the 8-pixel loop. -/
def bgra_to_rgb_multi (src : Buf) (dst : Dst) (s : Cur) : K Cur := do
  let bgra0 ← loadu64 src s.so
  let bgra1 ← loadu64 src (s.so + 8)
  let bgra2 ← loadu64 src (s.so + 16)
  let bgra3 ← loadu64 src (s.so + 24)
  let rgb0 := bgra2_to_rgb2 bgra0
  let rgb1 := bgra2_to_rgb2 bgra1
  let rgb2 := bgra2_to_rgb2 bgra2
  let rgb3 := bgra2_to_rgb2 bgra3
  storeu64 dst s.d ((rgb1 <<< 48) ||| rgb0)
  storeu64 dst (s.d + 8) ((rgb1 >>> 16) ||| (rgb2 <<< 32))
  storeu64 dst (s.d + 16) ((rgb2 >>> 32) ||| (rgb3 <<< 16))
  return ⟨s.x + 8, s.so + 4 * 8, s.d + 3 * 8⟩

/-- x86.rs:904-976. -/
def bgra_to_rgb (t : Target) (width height src_stride : Nat) (src : Buf) (dst_stride : Nat)
    (dst : Dst) : K Unit := do
  let src_diff ← (t.sub src_stride (← (t.mul 4 width : R Nat)) : R Nat)
  let dst_diff ← (t.sub dst_stride (← (t.mul 3 width : R Nat)) : R Nat)
  let limit := lower_multiple_of_pot width 8
  forK height fun i => do
    let so ← (t.mul (← (t.add (← (t.mul 4 width : R Nat)) src_diff : R Nat)) i : R Nat)
    let d ← (t.mul (← (t.add (← (t.mul 3 width : R Nat)) dst_diff : R Nat)) i : R Nat)
    let s ← whileK width (fun s => s.x < limit) (bgra_to_rgb_multi src dst) ⟨0, so, d⟩
    let _ ← whileK width (fun s => s.x < width) (swap_single 4 src dst) s
    return ()

end Verif.X86
