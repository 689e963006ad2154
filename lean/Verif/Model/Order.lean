import Verif.Model.Crate
/-!
# The portable code on a target of either byte order

`loadu` and `storeu` of x86.rs:21 (`read_unaligned`, `write_unaligned`) move words in the byte order of
the target.  `Verif/Model/X86Rgb.lean` models them for little-endian targets, which all properties but
C100 are about.  Nothing in the crate asks for the byte order (no `target_endian`, `to_le`,
`from_le_bytes`, …), and it compiles for every architecture: those that are neither x86 nor AArch64 use
the functions of x86.rs (lib.rs:581-585, cpu_info.rs:117-120), among them big-endian ones.

Words are moved by three functions only: `rgb_to_bgra`, `bgr_to_rgb` and `bgra_to_rgb` (`loadu` and
`storeu` do not occur elsewhere in x86.rs).  They are repeated here with the byte order as a parameter;
`swap_bytes` and the shifts act on values and do not depend on it.  Big-endian AArch64 is not modelled.
-/

namespace Verif

/-- Byte order of a target (`target_endian`). -/
inductive Order where
  | little | big
  deriving DecidableEq, Repr

/-- Which byte of a word of `n` bytes, counted from the least significant one, is stored at its `k`-th
address. -/
def Order.pos : Order → (n k : Nat) → Nat
  | .little, _, k => k
  | .big, n, k => n - 1 - k

namespace Ordered

open X86 (word64 word32 byte64 byte32 Cur rgb2_to_bgra2 rgb1_to_bgra1 bgr8_to_rgb8 bgra2_to_rgb2
  rgb_to_bgra_last swap_single)

/-- `read_unaligned::<u64>(s.as_ptr().add(i))`. -/
def loadu64 (o : Order) (s : Buf) (i : Nat) : K (BitVec 64) :=
  if i + 8 ≤ s.len then pure (word64 fun k => s.bytes (i + o.pos 8 k)) else K.throw .oobRead

/-- `read_unaligned::<u32>(s.as_ptr().add(i))`. -/
def loadu32 (o : Order) (s : Buf) (i : Nat) : K (BitVec 32) :=
  if i + 4 ≤ s.len then pure (word32 fun k => s.bytes (i + o.pos 4 k)) else K.throw .oobRead

/-- `write_unaligned::<u64>(d.as_mut_ptr().add(i), v)`. -/
def storeu64 (o : Order) (d : Dst) (i : Nat) (v : BitVec 64) : K Unit :=
  if i + 8 ≤ d.len then
    K.ok () ((List.range 8).map fun k => ⟨d.plane, d.off + (i + k), byte64 v (o.pos 8 k)⟩)
  else K.throw .oobWrite

/-- `write_unaligned::<u32>(d.as_mut_ptr().add(i), v)`. -/
def storeu32 (o : Order) (d : Dst) (i : Nat) (v : BitVec 32) : K Unit :=
  if i + 4 ≤ d.len then
    K.ok () ((List.range 4).map fun k => ⟨d.plane, d.off + (i + k), byte32 v (o.pos 4 k)⟩)
  else K.throw .oobWrite

/-- x86.rs:748-784: body of the multi-swap loop. -/
def rgb_to_bgra_multi (o : Order) (src : Buf) (dst : Dst) (s : Cur) : K Cur := do
  let rgb0 ← loadu64 o src s.so
  let rgb1 ← loadu64 o src (s.so + 6)
  let rgb2 ← loadu64 o src (s.so + 12)
  let rgb3 ← loadu64 o src (s.so + 18)
  storeu64 o dst s.d (rgb2_to_bgra2 rgb0)
  storeu64 o dst (s.d + 8) (rgb2_to_bgra2 rgb1)
  storeu64 o dst (s.d + 16) (rgb2_to_bgra2 rgb2)
  storeu64 o dst (s.d + 24) (rgb2_to_bgra2 rgb3)
  return ⟨s.x + 8, s.so + 3 * 8, s.d + 4 * 8⟩

/-- x86.rs:787-800: body of the single-swap loop. -/
def rgb_to_bgra_single (o : Order) (src : Buf) (dst : Dst) (s : Cur) : K Cur := do
  let v ← loadu32 o src s.so
  storeu32 o dst s.d (rgb1_to_bgra1 v)
  return ⟨s.x + 1, s.so + 3, s.d + 4⟩

/-- x86.rs:719-817: one line. State: offsets at the start of the line. -/
def rgb_to_bgra_line (o : Order) (t : Target) (width height src_diff dst_diff : Nat) (src : Buf)
    (dst : Dst) (y so d : Nat) : K (Nat × Nat) := do
  let is_last_line : Bool := y + 1 == height
  let single ← if is_last_line || src_diff < 1 then (t.sub width 1 : R Nat) else pure width
  let multi ←
    if is_last_line || (8 * (width / 8) == width && src_diff < 2) then do
      let m ← (t.sub width 1 : R Nat)
      pure (8 * (m / 8))
    else pure (8 * (width / 8))
  let s ← iterK ((multi + 7) / 8) (rgb_to_bgra_multi o src dst) ⟨0, so, d⟩
  let s ← whileK width (fun s => s.x < single) (rgb_to_bgra_single o src dst) s
  let s ← if s.x < width then rgb_to_bgra_last src dst s else pure s
  let so ← (t.add s.so src_diff : R Nat)
  let d ← (t.add s.d dst_diff : R Nat)
  return (so, d)

/-- x86.rs:718-817: lines `y .. y + n`. -/
def rgb_to_bgra_lines (o : Order) (t : Target) (width height src_diff dst_diff : Nat) (src : Buf)
    (dst : Dst) : (y n so d : Nat) → K Unit
  | _, 0, _, _ => pure ()
  | y, n + 1, so, d => do
    let (so, d) ← rgb_to_bgra_line o t width height src_diff dst_diff src dst y so d
    rgb_to_bgra_lines o t width height src_diff dst_diff src dst (y + 1) n so d

/-- x86.rs:692-818. -/
def rgb_to_bgra (o : Order) (t : Target) (width height src_stride : Nat) (src : Buf)
    (dst_stride : Nat) (dst : Dst) : K Unit := do
  let src_diff ← (t.sub src_stride (← (t.mul 3 width : R Nat)) : R Nat)
  let dst_diff ← (t.sub dst_stride (← (t.mul 4 width : R Nat)) : R Nat)
  rgb_to_bgra_lines o t width height src_diff dst_diff src dst 0 height 0 0

/-- x86.rs:843-888: body of the 8-pixel loop. -/
def bgr_to_rgb_multi (o : Order) (src : Buf) (dst : Dst) (s : Cur) : K Cur := do
  let bgr0 ← loadu64 o src s.so
  let bgr1 ← loadu64 o src (s.so + 8)
  let bgr2 ← loadu64 o src (s.so + 16)
  let (rgb0, rgb1, rgb2) := bgr8_to_rgb8 bgr0 bgr1 bgr2
  storeu64 o dst s.d rgb0
  storeu64 o dst (s.d + 8) rgb1
  storeu64 o dst (s.d + 16) rgb2
  return ⟨s.x + 8, s.so + 3 * 8, s.d + 3 * 8⟩

/-- x86.rs:821-901. -/
def bgr_to_rgb (o : Order) (mul : Nat → Nat → R Nat) (width height src_stride : Nat) (src : Buf)
    (dst_stride : Nat) (dst : Dst) : K Unit := do
  let limit := lower_multiple_of_pot width 8
  forK height fun i => do
    let so ← mul src_stride i
    let d ← mul dst_stride i
    let s ← whileK width (fun s => s.x < limit) (bgr_to_rgb_multi o src dst) ⟨0, so, d⟩
    let _ ← whileK width (fun s => s.x < width) (swap_single 3 src dst) s
    return ()

/-- x86.rs:931-963: body of the 8-pixel loop. -/
def bgra_to_rgb_multi (o : Order) (src : Buf) (dst : Dst) (s : Cur) : K Cur := do
  let bgra0 ← loadu64 o src s.so
  let bgra1 ← loadu64 o src (s.so + 8)
  let bgra2 ← loadu64 o src (s.so + 16)
  let bgra3 ← loadu64 o src (s.so + 24)
  let rgb0 := bgra2_to_rgb2 bgra0
  let rgb1 := bgra2_to_rgb2 bgra1
  let rgb2 := bgra2_to_rgb2 bgra2
  let rgb3 := bgra2_to_rgb2 bgra3
  storeu64 o dst s.d ((rgb1 <<< 48) ||| rgb0)
  storeu64 o dst (s.d + 8) ((rgb1 >>> 16) ||| (rgb2 <<< 32))
  storeu64 o dst (s.d + 16) ((rgb2 >>> 32) ||| (rgb3 <<< 16))
  return ⟨s.x + 8, s.so + 4 * 8, s.d + 3 * 8⟩

/-- x86.rs:904-976. -/
def bgra_to_rgb (o : Order) (t : Target) (width height src_stride : Nat) (src : Buf)
    (dst_stride : Nat) (dst : Dst) : K Unit := do
  let src_diff ← (t.sub src_stride (← (t.mul 4 width : R Nat)) : R Nat)
  let dst_diff ← (t.sub dst_stride (← (t.mul 3 width : R Nat)) : R Nat)
  let limit := lower_multiple_of_pot width 8
  forK height fun i => do
    let so ← (t.mul (← (t.add (← (t.mul 4 width : R Nat)) src_diff : R Nat)) i : R Nat)
    let d ← (t.mul (← (t.add (← (t.mul 3 width : R Nat)) dst_diff : R Nat)) i : R Nat)
    let s ← whileK width (fun s => s.x < limit) (bgra_to_rgb_multi o src dst) ⟨0, so, d⟩
    let _ ← whileK width (fun s => s.x < width) (swap_single 4 src dst) s
    return ()

/-- The functions of x86.rs on a target of byte order `o`. -/
def impl (o : Order) : Impl :=
  { X86.impl with
    rgb_bgra := fun t => rgb_to_bgra o t
    bgra_rgb := fun t => bgra_to_rgb o t
    bgr_rgb := fun t => bgr_to_rgb o t.mul }

/-- The modules of the library on a target of byte order `o`; only x86.rs is compiled for targets that
are neither x86 nor AArch64. -/
def impls (o : Order) : InstructionSet → Impl
  | .x86 => impl o
  | set => crate set

end Ordered

/-- `convert_image` on an architecture that is neither x86 nor AArch64, of byte order `o`. -/
def convertOn (t : Target) (o : Order) (c : Call) : Outcome := convert t (Ordered.impls o) .other c

end Verif
