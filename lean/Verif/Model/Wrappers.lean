import Verif.Model.Common
/-!
# Argument checks of the conversion routines

Every instruction-set module (x86.rs, sse2.rs, avx2.rs, neon.rs) contains the same wrapper
functions `nv12_rgb`, `i420_rgb`, ..., which validate strides and buffers and then call their
kernels.  The validation code is textually identical in the four modules, so it is modelled once, with the kernel
invocation as a parameter.  Evaluation of `ch - 1` is eager here whereas the Rust code evaluates
it in the second operand of `||`; this is unobservable because the height is even and positive
at that point for the subsampled formats.
-/

namespace Verif.Wrap

/-- Kernel of a YCbCr 4:2:0 semi-planar to RGB conversion: `w h src_strides src_buffers dst_stride
dst_buffer`. -/
abbrev Nv12RgbKernel := (w h ys uvs : Nat) → (y uv : Buf) → (ds : Nat) → Dst → K Unit
/-- Kernel of a three-plane YCbCr to RGB conversion. -/
abbrev PlanarRgbKernel := (w h ys us vs : Nat) → (y u v : Buf) → (ds : Nat) → Dst → K Unit
/-- Kernel of an RGB to three-plane YCbCr conversion. -/
abbrev RgbPlanarKernel := (w h ss : Nat) → Buf → (ys us vs : Nat) → (y u v : Dst) → K Unit
/-- Kernel of an RGB to semi-planar YCbCr conversion. -/
abbrev RgbNv12Kernel := (w h ss : Nat) → Buf → (ys uvs : Nat) → (y uv : Dst) → K Unit
/-- Kernel of an RGB to RGB conversion. -/
abbrev RgbRgbKernel := (w h ss : Nat) → Buf → (ds : Nat) → Dst → K Unit

/-- x86.rs:980-1050, sse2.rs:915-, avx2.rs:1460-: `nv12_rgb`. -/
def nv12_rgb (t : Target) (depth : Nat) (kernel : Nv12RgbKernel) (width height : UInt32)
    (last_src_plane : Nat) (src_strides : List Nat) (src_buffers : List Buf)
    (dst_strides : List Nat) (dst_buffers : List Dst) : K Bool :=
  if width = 0 ∨ height = 0 then pure true
  else if last_src_plane ≥ src_strides.length ∨ last_src_plane ≥ src_buffers.length
      ∨ dst_strides.length = 0 ∨ dst_buffers.length = 0 then pure false
  else do
    let w := width.toNat
    let h := height.toNat
    let ch := h / 2
    let rgb_stride ← t.mul depth w
    let ys := compute_stride (← idx src_strides 0) w
    let uvs := compute_stride (← idx src_strides last_src_plane) w
    let ds := compute_stride (← idx dst_strides 0) rgb_stride
    let b0 ← idx src_buffers 0
    let b1 ← idx src_buffers last_src_plane
    let split : Option (Buf × Buf) ←
      if last_src_plane = 0 then do
        let n ← t.mul ys h
        if b0.len < n then pure none
        else do
          let lo ← b0.upto n
          let hi ← b0.from n
          pure (some (lo, hi))
      else pure (some (b0, b1))
    match split with
    | none => pure false
    | some (yb, uvb) => do
      let dst ← idx dst_buffers 0
      let h1 ← t.sub h 1
      let ch1 ← t.sub ch 1
      if out_of_bounds t yb.len ys h1 w || out_of_bounds t uvb.len uvs ch1 w
          || out_of_bounds t dst.len ds h1 rgb_stride then pure false
      else do
        kernel w h ys uvs yb uvb ds dst
        pure true

/-- x86.rs:1053-1107, sse2.rs, avx2.rs: `i420_rgb`. -/
def i420_rgb (t : Target) (depth : Nat) (kernel : PlanarRgbKernel) (width height : UInt32)
    (src_strides : List Nat) (src_buffers : List Buf)
    (dst_strides : List Nat) (dst_buffers : List Dst) : K Bool :=
  if width = 0 ∨ height = 0 then pure true
  else if src_strides.length < 3 ∨ src_buffers.length < 3
      ∨ dst_strides.length = 0 ∨ dst_buffers.length = 0 then pure false
  else do
    let w := width.toNat
    let h := height.toNat
    let cw := w / 2
    let ch := h / 2
    let rgb_stride ← t.mul depth w
    let ys := compute_stride (← idx src_strides 0) w
    let us := compute_stride (← idx src_strides 1) cw
    let vs := compute_stride (← idx src_strides 2) cw
    let ds := compute_stride (← idx dst_strides 0) rgb_stride
    let yb ← idx src_buffers 0
    let ub ← idx src_buffers 1
    let vb ← idx src_buffers 2
    let dst ← idx dst_buffers 0
    let h1 ← t.sub h 1
    let ch1 ← t.sub ch 1
    if out_of_bounds t yb.len ys h1 w || out_of_bounds t ub.len us ch1 cw
        || out_of_bounds t vb.len vs ch1 cw || out_of_bounds t dst.len ds h1 rgb_stride then
      pure false
    else do
      kernel w h ys us vs yb ub vb ds dst
      pure true

/-- x86.rs:1110-1161, sse2.rs, avx2.rs: `i444_rgb`. -/
def i444_rgb (t : Target) (depth : Nat) (kernel : PlanarRgbKernel) (width height : UInt32)
    (src_strides : List Nat) (src_buffers : List Buf)
    (dst_strides : List Nat) (dst_buffers : List Dst) : K Bool :=
  if width = 0 ∨ height = 0 then pure true
  else if src_strides.length < 3 ∨ src_buffers.length < 3
      ∨ dst_strides.length = 0 ∨ dst_buffers.length = 0 then pure false
  else do
    let w := width.toNat
    let h := height.toNat
    let rgb_stride ← t.mul depth w
    let ys := compute_stride (← idx src_strides 0) w
    let us := compute_stride (← idx src_strides 1) w
    let vs := compute_stride (← idx src_strides 2) w
    let ds := compute_stride (← idx dst_strides 0) rgb_stride
    let yb ← idx src_buffers 0
    let ub ← idx src_buffers 1
    let vb ← idx src_buffers 2
    let dst ← idx dst_buffers 0
    let h1 ← t.sub h 1
    if out_of_bounds t yb.len ys h1 w || out_of_bounds t ub.len us h1 w
        || out_of_bounds t vb.len vs h1 w || out_of_bounds t dst.len ds h1 rgb_stride then
      pure false
    else do
      kernel w h ys us vs yb ub vb ds dst
      pure true

/-- x86.rs:1164-1224, sse2.rs, avx2.rs, neon.rs:599-: `rgb_i444`. -/
def rgb_i444 (t : Target) (depth : Nat) (kernel : RgbPlanarKernel) (width height : UInt32)
    (src_strides : List Nat) (src_buffers : List Buf)
    (dst_strides : List Nat) (dst_buffers : List Dst) : K Bool :=
  if width = 0 ∨ height = 0 then pure true
  else if src_strides.length = 0 ∨ src_buffers.length = 0
      ∨ dst_strides.length < 3 ∨ dst_buffers.length < 3 then pure false
  else do
    let w := width.toNat
    let h := height.toNat
    let rgb_stride ← t.mul depth w
    let ss := compute_stride (← idx src_strides 0) rgb_stride
    let ys := compute_stride (← idx dst_strides 0) w
    let us := compute_stride (← idx dst_strides 1) w
    let vs := compute_stride (← idx dst_strides 2) w
    let src ← idx src_buffers 0
    let yp ← idx dst_buffers 0
    let up ← idx dst_buffers 1
    let vp ← idx dst_buffers 2
    let h1 ← t.sub h 1
    if out_of_bounds t src.len ss h1 rgb_stride || out_of_bounds t yp.len ys h1 w
        || out_of_bounds t up.len us h1 w || out_of_bounds t vp.len vs h1 w then
      pure false
    else do
      kernel w h ss src ys us vs yp up vp
      pure true

/-- x86.rs:1227-1289, sse2.rs, avx2.rs, neon.rs:512-: `rgb_i420`. -/
def rgb_i420 (t : Target) (depth : Nat) (kernel : RgbPlanarKernel) (width height : UInt32)
    (src_strides : List Nat) (src_buffers : List Buf)
    (dst_strides : List Nat) (dst_buffers : List Dst) : K Bool :=
  if width = 0 ∨ height = 0 then pure true
  else if src_strides.length = 0 ∨ src_buffers.length = 0
      ∨ dst_strides.length < 3 ∨ dst_buffers.length < 3 then pure false
  else do
    let w := width.toNat
    let h := height.toNat
    let cw := w / 2
    let ch := h / 2
    let rgb_stride ← t.mul depth w
    let ss := compute_stride (← idx src_strides 0) rgb_stride
    let ys := compute_stride (← idx dst_strides 0) w
    let us := compute_stride (← idx dst_strides 1) cw
    let vs := compute_stride (← idx dst_strides 2) cw
    let src ← idx src_buffers 0
    let yp ← idx dst_buffers 0
    let up ← idx dst_buffers 1
    let vp ← idx dst_buffers 2
    let h1 ← t.sub h 1
    let ch1 ← t.sub ch 1
    if out_of_bounds t src.len ss h1 rgb_stride || out_of_bounds t yp.len ys h1 w
        || out_of_bounds t up.len us ch1 cw || out_of_bounds t vp.len vs ch1 cw then
      pure false
    else do
      kernel w h ss src ys us vs yp up vp
      pure true

/-- x86.rs:1292-1360, sse2.rs, avx2.rs, neon.rs:420-: `rgb_nv12`. -/
def rgb_nv12 (t : Target) (depth : Nat) (kernel : RgbNv12Kernel) (width height : UInt32)
    (src_strides : List Nat) (src_buffers : List Buf)
    (last_dst_plane : Nat) (dst_strides : List Nat) (dst_buffers : List Dst) : K Bool :=
  if width = 0 ∨ height = 0 then pure true
  else if src_strides.length = 0 ∨ src_buffers.length = 0
      ∨ last_dst_plane ≥ dst_strides.length ∨ last_dst_plane ≥ dst_buffers.length then pure false
  else do
    let w := width.toNat
    let h := height.toNat
    let ch := h / 2
    let rgb_stride ← t.mul depth w
    let ss := compute_stride (← idx src_strides 0) rgb_stride
    let ys := compute_stride (← idx dst_strides 0) w
    let uvs := compute_stride (← idx dst_strides last_dst_plane) w
    let src ← idx src_buffers 0
    let last ← idx dst_buffers last_dst_plane
    let split : Option (Dst × Dst) ←
      if last_dst_plane = 0 then do
        let n ← t.mul ys h
        if last.len < n then pure none
        else do
          let lo ← last.upto n
          let hi ← last.from n
          pure (some (lo, hi))
      else do
        let first ← idx dst_buffers 0
        pure (some (first, last))
    match split with
    | none => pure false
    | some (yp, uvp) => do
      let h1 ← t.sub h 1
      let ch1 ← t.sub ch 1
      if out_of_bounds t src.len ss h1 rgb_stride || out_of_bounds t yp.len ys h1 w
          || out_of_bounds t uvp.len uvs ch1 w then pure false
      else do
        kernel w h ss src ys uvs yp uvp
        pure true

/-- x86.rs:1427-1474 (`rgb_bgra`), 1476-1523 (`bgra_rgb`), 1525-1571 (`bgr_rgb`) and their copies
in sse2.rs, avx2.rs, neon.rs: the three functions differ only in the depths. Note the last
argument of `out_of_bounds`: the width in *pixels*. -/
def rgb_rgb (t : Target) (src_depth dst_depth : Nat) (kernel : RgbRgbKernel)
    (width height : UInt32) (src_strides : List Nat) (src_buffers : List Buf)
    (dst_strides : List Nat) (dst_buffers : List Dst) : K Bool :=
  if width = 0 ∨ height = 0 then pure true
  else if src_strides.length = 0 ∨ src_buffers.length = 0
      ∨ dst_strides.length = 0 ∨ dst_buffers.length = 0 then pure false
  else do
    let w := width.toNat
    let h := height.toNat
    let ss := compute_stride (← idx src_strides 0) (← t.mul src_depth w)
    let ds := compute_stride (← idx dst_strides 0) (← t.mul dst_depth w)
    let src ← idx src_buffers 0
    let dst ← idx dst_buffers 0
    let h1 ← t.sub h 1
    if out_of_bounds t src.len ss h1 w || out_of_bounds t dst.len ds h1 w then pure false
    else do
      kernel w h ss src ds dst
      pure true

end Verif.Wrap
