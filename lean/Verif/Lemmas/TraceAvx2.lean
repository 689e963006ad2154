import Verif.Lemmas.Trace
/-! # Where the kernels of avx2.rs write -/

namespace Verif.Avx2

open Verif.Simd

variable (s s' s2 s2' s3 s3' : Buf)

theorem unpack_ui8_i16be_16x_trace (i : Nat) :
    K.Trace (unpack_ui8_i16be_16x s i) (unpack_ui8_i16be_16x s' i) (fun _ _ => True) := by
  unfold unpack_ui8_i16be_16x
  exact (K.Trace.load s s' _ _).seq fun _ _ => .pure_any _ _

theorem unpack_ui8x2_i16be_16x_trace (i : Nat) :
    K.Trace (unpack_ui8x2_i16be_16x s i) (unpack_ui8x2_i16be_16x s' i) (fun _ _ => True) := by
  unfold unpack_ui8x2_i16be_16x
  exact (K.Trace.load s s' _ _).seq fun _ _ => .pure_any _ _

theorem unpack_ui8x3_i16x2_8x_trace (p : Sampler) (i : Nat) :
    K.Trace (unpack_ui8x3_i16x2_8x p s i) (unpack_ui8x3_i16x2_8x p s' i) (fun _ _ => True) := by
  unfold unpack_ui8x3_i16x2_8x
  cases p
  all_goals exact (K.Trace.load s s' _ _).seq fun _ _ => .pure_any _ _

theorem pack_i16x3_16x_trace (rev : Bool) (d : Dst) (i : Nat) (r g b r' g' b' : Reg) :
    K.Trace (pack_i16x3_16x rev d i r g b) (pack_i16x3_16x rev d i r' g' b') Eq := by
  unfold pack_i16x3_16x
  trace_run [K.Trace.store ..]

theorem pack_rgb_16x_trace (d : Dst) (i : Nat) (r g b r' g' b' : Reg) :
    K.Trace (pack_rgb_16x d i r g b) (pack_rgb_16x d i r' g' b') Eq := by
  unfold pack_rgb_16x
  trace_run [K.Trace.store ..]

theorem pack_i32_8x_trace (d : Dst) (i : Nat) (r r' : Reg) :
    K.Trace (pack_i32_8x d i r) (pack_i32_8x d i r') Eq := .store ..

theorem rgb_to_yuv_8x_trace (p : Sampler) (a b : Nat) (yp : Dst) (y0 y1 : Nat) (uvp : Dst) (uv : Nat)
    (yw uw : Weights) : K.Trace (rgb_to_yuv_8x p s a b yp y0 y1 uvp uv yw uw)
      (rgb_to_yuv_8x p s' a b yp y0 y1 uvp uv yw uw) Eq := by
  unfold rgb_to_yuv_8x
  trace_run [unpack_ui8x3_i16x2_8x_trace s s' _ _, pack_i32_8x_trace ..]

theorem rgb_to_i420_8x_trace (p : Sampler) (a b : Nat) (yp : Dst) (y0 y1 : Nat) (up : Dst) (u : Nat)
    (vp : Dst) (v : Nat) (yw uw : Weights) : K.Trace (rgb_to_i420_8x p s a b yp y0 y1 up u vp v yw uw)
      (rgb_to_i420_8x p s' a b yp y0 y1 up u vp v yw uw) Eq := by
  unfold rgb_to_i420_8x
  trace_run [unpack_ui8x3_i16x2_8x_trace s s' _ _, pack_i32_8x_trace .., K.Trace.store ..]

theorem rgb_to_i444_8x_trace (p : Sampler) (a : Nat) (yp : Dst) (y : Nat) (up : Dst) (u : Nat)
    (vp : Dst) (v : Nat) (yw uw vw : Weights) : K.Trace (rgb_to_i444_8x p s a yp y up u vp v yw uw vw)
      (rgb_to_i444_8x p s' a yp y up u vp v yw uw vw) Eq := by
  unfold rgb_to_i444_8x
  trace_run [unpack_ui8x3_i16x2_8x_trace s s' _ _, pack_i32_8x_trace ..]

theorem rgb_to_nv12_avx2_trace (ix : Index) (p : Sampler) (depth : Nat) (c : Colorimetry)
    (w h ss ys uvs : Nat) (y uv : Dst) : K.Trace (rgb_to_nv12_avx2 ix p depth c w h ss s ys uvs y uv)
      (rgb_to_nv12_avx2 ix p depth c w h ss s' ys uvs y uv) Eq := by
  unfold rgb_to_nv12_avx2
  refine .forK (fun y => .forK (fun x => ?_) _) _
  trace_run [rgb_to_yuv_8x_trace s s' ..]

theorem rgb_to_i420_avx2_trace (ix : Index) (p : Sampler) (depth : Nat) (c : Colorimetry)
    (w h ss ys us vs : Nat) (y u v : Dst) :
    K.Trace (rgb_to_i420_avx2 ix p depth c w h ss s ys us vs y u v)
      (rgb_to_i420_avx2 ix p depth c w h ss s' ys us vs y u v) Eq := by
  unfold rgb_to_i420_avx2
  refine .forK (fun y => .forK (fun x => ?_) _) _
  trace_run [rgb_to_i420_8x_trace s s' ..]

theorem rgb_to_i444_avx2_trace (ix : Index) (p : Sampler) (depth : Nat) (c : Colorimetry)
    (w h ss ys us vs : Nat) (y u v : Dst) :
    K.Trace (rgb_to_i444_avx2 ix p depth c w h ss s ys us vs y u v)
      (rgb_to_i444_avx2 ix p depth c w h ss s' ys us vs y u v) Eq := by
  unfold rgb_to_i444_avx2
  refine .forK (fun y => .forK (fun x => ?_) _) _
  trace_run [rgb_to_i444_8x_trace s s' ..]

theorem block_32x2_trace (k : Back) (put : Nat → Reg → Reg → Reg → K Unit)
    (hp : ∀ i r g b r' g' b', K.Trace (put i r g b) (put i r' g' b') Eq) (cb cr cb' cr' : Reg)
    (y0 y1 d00 d10 d01 d11 : R Nat) : K.Trace (block_32x2 k put cb cr s y0 y1 d00 d10 d01 d11)
      (block_32x2 k put cb' cr' s' y0 y1 d00 d10 d01 d11) Eq := by
  unfold block_32x2
  trace_run [K.Trace.load s s' _ _, hp ..]

theorem nv12_to_bgra_avx2_trace (ix : Index) (c : Colorimetry) (rev : Bool) (w h ys uvs ds : Nat)
    (d : Dst) : K.Trace (nv12_to_bgra_avx2 ix c rev w h ys uvs s s2 ds d)
      (nv12_to_bgra_avx2 ix c rev w h ys uvs s' s2' ds d) Eq := by
  unfold nv12_to_bgra_avx2
  refine .forK (fun y => .forK (fun x => ?_) _) _
  trace_run [unpack_ui8x2_i16be_16x_trace s2 s2' _,
    block_32x2_trace s s' _ _ (pack_i16x3_16x_trace rev d) ..]

theorem nv12_to_rgb_avx2_trace (ix : Index) (c : Colorimetry) (w h ys uvs ds : Nat)
    (d : Dst) : K.Trace (nv12_to_rgb_avx2 ix c w h ys uvs s s2 ds d)
      (nv12_to_rgb_avx2 ix c w h ys uvs s' s2' ds d) Eq := by
  unfold nv12_to_rgb_avx2
  refine .forK (fun y => .forK (fun x => ?_) _) _
  trace_run [unpack_ui8x2_i16be_16x_trace s2 s2' _,
    block_32x2_trace s s' _ _ (pack_rgb_16x_trace d) ..]

theorem i420_to_bgra_avx2_trace (ix : Index) (c : Colorimetry) (rev : Bool) (w h ys us vs ds : Nat)
    (d : Dst) : K.Trace (i420_to_bgra_avx2 ix c rev w h ys us vs s s2 s3 ds d)
      (i420_to_bgra_avx2 ix c rev w h ys us vs s' s2' s3' ds d) Eq := by
  unfold i420_to_bgra_avx2
  refine .forK (fun y => .forK (fun x => ?_) _) _
  trace_run [unpack_ui8_i16be_16x_trace _ _ _,
    block_32x2_trace s s' _ _ (pack_i16x3_16x_trace rev d) ..]

theorem i444_to_bgra_avx2_trace (ix : Index) (c : Colorimetry) (rev : Bool) (w h ys us vs ds : Nat)
    (d : Dst) : K.Trace (i444_to_bgra_avx2 ix c rev w h ys us vs s s2 s3 ds d)
      (i444_to_bgra_avx2 ix c rev w h ys us vs s' s2' s3' ds d) Eq := by
  unfold i444_to_bgra_avx2
  refine .forK (fun y => .forK (fun x => ?_) _) _
  trace_run [K.Trace.load _ _ _ _, pack_i16x3_16x_trace ..]

theorem rgb_to_bgra_32_trace (so : Nat) (d : Dst) (o : Nat) :
    K.Trace (rgb_to_bgra_32 s so d o) (rgb_to_bgra_32 s' so d o) Eq := by
  unfold rgb_to_bgra_32
  trace_run [K.Trace.load s s' _ _, K.Trace.store ..]

theorem rgb_to_bgra_avx2_trace (t : Target) (w h ss ds : Nat) (d : Dst) :
    K.Trace (rgb_to_bgra_avx2 t w h ss s ds d) (rgb_to_bgra_avx2 t w h ss s' ds d) Eq := by
  unfold rgb_to_bgra_avx2
  refine .after fun _ => .after fun _ => .after fun _ => .after fun _ =>
    (K.Trace.iterK ?_ _ _).seq fun _ _ => .refl _
  rintro ⟨so, o⟩
  dsimp only
  refine (K.Trace.iterK ?_ _ _).bind fun _ _ e => e ▸ .refl _
  rintro ⟨so, o⟩
  exact (rgb_to_bgra_32_trace s s' so d o).seq fun _ _ => .refl _

theorem bgr_to_rgb_32_trace (so : Nat) (d : Dst) (o : Nat) :
    K.Trace (bgr_to_rgb_32 s so d o) (bgr_to_rgb_32 s' so d o) Eq := by
  unfold bgr_to_rgb_32
  trace_run [K.Trace.load s s' _ _, K.Trace.store ..]

theorem bgr_to_rgb_avx2_trace (mul : Nat → Nat → R Nat) (w h ss ds : Nat) (d : Dst) :
    K.Trace (bgr_to_rgb_avx2 mul w h ss s ds d) (bgr_to_rgb_avx2 mul w h ss s' ds d) Eq := by
  unfold bgr_to_rgb_avx2
  refine .forK (fun _ => .after fun _ => .after fun _ => (K.Trace.iterK ?_ _ _).seq fun _ _ => .refl _) _
  rintro ⟨so, o⟩
  exact (bgr_to_rgb_32_trace s s' so d o).seq fun _ _ => .refl _

theorem bgra_to_rgb_4x_trace (d : Dst) (q : X86.Cur) :
    K.Trace (bgra_to_rgb_4x s d q) (bgra_to_rgb_4x s' d q) Eq := by
  unfold bgra_to_rgb_4x
  trace_run [K.Trace.load s s' _ _, K.Trace.store ..]

theorem bgra_to_rgb_1x_trace (d : Dst) (q : X86.Cur) :
    K.Trace (bgra_to_rgb_1x s d q) (bgra_to_rgb_1x s' d q) Eq := by
  unfold bgra_to_rgb_1x
  trace_run [K.Trace.load s s' _ _, K.Trace.store ..]

theorem bgra_to_rgb_px_trace (d : Dst) (so o y : Nat) :
    K.Trace (bgra_to_rgb_px s d so o y) (bgra_to_rgb_px s' d so o y) Eq := by
  unfold bgra_to_rgb_px
  trace_run [K.Trace.rd s s' _, K.Trace.wr ..]

theorem bgra_to_rgb_avx2_trace (t : Target) (w h ss ds : Nat) (d : Dst) :
    K.Trace (bgra_to_rgb_avx2 t w h ss s ds d) (bgra_to_rgb_avx2 t w h ss s' ds d) Eq := by
  unfold bgra_to_rgb_avx2
  refine .after fun _ => .after fun _ => .after fun _ => .after fun _ =>
    (K.Trace.forK (fun i => .after fun _ => .after fun _ => .after fun _ => .after fun _ =>
      .after fun _ => .after fun _ =>
      (K.Trace.whileK (bgra_to_rgb_4x_trace s s' d) _ _).bind fun _ _ e => e ▸
      (K.Trace.whileK (bgra_to_rgb_1x_trace s s' d) _ _).seq fun _ _ => .refl _) _).seq fun _ _ =>
    .ite ((K.Trace.iterK ?_ _ _).seq fun _ _ => .refl _) (.refl _)
  rintro ⟨so, o⟩
  exact (K.Trace.forFrom (bgra_to_rgb_px_trace s s' d so o) _ _).seq fun _ _ => .refl _

/-! ## The wrappers after validation -/

theorem nv12_rgb_trace (ix : Index) (c : Colorimetry) (depth : Nat) (rev : Bool) (w h ys uvs ds : Nat)
    (d : Dst) : K.Trace (nv12_rgb ix c depth rev w h ys uvs s s2 ds d)
      (nv12_rgb ix c depth rev w h ys uvs s' s2' ds d) Eq := by
  unfold nv12_rgb
  trace_run [X86.nv12_to_rgb_trace .., nv12_to_rgb_avx2_trace .., nv12_to_bgra_avx2_trace .., X86.nv12_to_bgra_trace ..]

theorem i420_rgb_trace (ix : Index) (c : Colorimetry) (depth : Nat) (rev : Bool) (w h ys us vs ds : Nat)
    (d : Dst) : K.Trace (i420_rgb ix c depth rev w h ys us vs s s2 s3 ds d)
      (i420_rgb ix c depth rev w h ys us vs s' s2' s3' ds d) Eq := by
  unfold i420_rgb
  trace_run [i420_to_bgra_avx2_trace .., X86.i420_to_bgra_trace ..]

theorem i444_rgb_trace (ix : Index) (c : Colorimetry) (depth : Nat) (rev : Bool) (w h ys us vs ds : Nat)
    (d : Dst) : K.Trace (i444_rgb ix c depth rev w h ys us vs s s2 s3 ds d)
      (i444_rgb ix c depth rev w h ys us vs s' s2' s3' ds d) Eq := by
  unfold i444_rgb
  trace_run [i444_to_bgra_avx2_trace .., X86.i444_to_bgra_trace ..]

theorem rgb_nv12_trace (ix : Index) (p : Sampler) (depth : Nat) (c : Colorimetry) (w h ss ys uvs : Nat)
    (y uv : Dst) : K.Trace (rgb_nv12 ix p depth c w h ss s ys uvs y uv)
      (rgb_nv12 ix p depth c w h ss s' ys uvs y uv) Eq := by
  unfold rgb_nv12
  trace_run [rgb_to_nv12_avx2_trace .., X86.rgb_to_nv12_trace ..]

theorem rgb_i420_trace (ix : Index) (p : Sampler) (depth : Nat) (c : Colorimetry)
    (w h ss ys us vs : Nat) (y u v : Dst) : K.Trace (rgb_i420 ix p depth c w h ss s ys us vs y u v)
      (rgb_i420 ix p depth c w h ss s' ys us vs y u v) Eq := by
  unfold rgb_i420
  trace_run [rgb_to_i420_avx2_trace .., X86.rgb_to_i420_trace ..]

theorem rgb_i444_trace (ix : Index) (p : Sampler) (depth : Nat) (c : Colorimetry)
    (w h ss ys us vs : Nat) (y u v : Dst) : K.Trace (rgb_i444 ix p depth c w h ss s ys us vs y u v)
      (rgb_i444 ix p depth c w h ss s' ys us vs y u v) Eq := by
  unfold rgb_i444
  trace_run [rgb_to_i444_avx2_trace .., X86.rgb_to_i444_trace ..]

theorem rgb_bgra_trace (t : Target) (w h ss ds : Nat) (d : Dst) :
    K.Trace (rgb_bgra t w h ss s ds d) (rgb_bgra t w h ss s' ds d) Eq := by
  unfold rgb_bgra
  trace_run [rgb_to_bgra_avx2_trace .., X86.rgb_to_bgra_trace ..]

theorem bgra_rgb_trace (t : Target) (w h ss ds : Nat) (d : Dst) :
    K.Trace (bgra_rgb t w h ss s ds d) (bgra_rgb t w h ss s' ds d) Eq := bgra_to_rgb_avx2_trace ..

theorem bgr_rgb_trace (mul : Nat → Nat → R Nat) (w h ss ds : Nat) (d : Dst) :
    K.Trace (bgr_rgb mul w h ss s ds d) (bgr_rgb mul w h ss s' ds d) Eq := by
  unfold bgr_rgb
  trace_run [bgr_to_rgb_avx2_trace .., X86.bgr_to_rgb_trace ..]

end Verif.Avx2
