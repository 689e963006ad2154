import Verif.Lemmas.Trace
/-! # Where the kernels of neon.rs write -/

namespace Verif.Neon

open Verif.Simd

variable (s s' : Buf)

theorem vld3_trace (n i : Nat) : K.Trace (vld3 n s i) (vld3 n s' i) (fun _ _ => True) := by
  unfold vld3
  trace_run [K.Trace.load s s' _ _]

theorem vld4_trace (n i : Nat) : K.Trace (vld4 n s i) (vld4 n s' i) (fun _ _ => True) := by
  unfold vld4
  trace_run [K.Trace.load s s' _ _]

theorem load_rgb_8x_trace (p : Sampler) (i : Nat) :
    K.Trace (load_rgb_8x p s i) (load_rgb_8x p s' i) (fun _ _ => True) := by
  unfold load_rgb_8x
  cases p
  all_goals trace_run [vld3_trace s s' _ _, vld4_trace s s' _ _]

theorem vst1_u8_trace (d : Dst) (i : Nat) (r r' : Reg) :
    K.Trace (vst1_u8 d i r) (vst1_u8 d i r') Eq := .store ..

theorem vst1_lane_u32_trace (d : Dst) (i : Nat) (r r' : Reg) (l : Nat) :
    K.Trace (vst1_lane_u32 d i r l) (vst1_lane_u32 d i r' l) Eq := .store ..

theorem vst3q_u8_trace (d : Dst) (i : Nat) (a b c a' b' c' : Reg) :
    K.Trace (vst3q_u8 d i a b c) (vst3q_u8 d i a' b' c') Eq := .store ..

theorem vst4q_u8_trace (d : Dst) (i : Nat) (a b c e a' b' c' e' : Reg) :
    K.Trace (vst4q_u8 d i a b c e) (vst4q_u8 d i a' b' c' e') Eq := .store ..

theorem rgb_to_y_and_avg_uv_8x_trace (p : Sampler) (a b : Nat) (yp : Dst) (y0 y1 : Nat) (w : Weights) :
    K.Trace (rgb_to_y_and_avg_uv_8x p s a b yp y0 y1 w) (rgb_to_y_and_avg_uv_8x p s' a b yp y0 y1 w)
      (fun _ _ => True) := by
  unfold rgb_to_y_and_avg_uv_8x
  exact (load_rgb_8x_trace s s' _ _).seq fun _ _ => (vst1_u8_trace ..).seq fun _ _ =>
    (load_rgb_8x_trace s s' _ _).seq fun _ _ => (vst1_u8_trace ..).seq fun _ _ => .pure_any _ _

theorem rgb_to_i444_8x_trace (p : Sampler) (a : Nat) (yp : Dst) (y : Nat) (up : Dst) (u : Nat)
    (vp : Dst) (v : Nat) (w : Weights) : K.Trace (rgb_to_i444_8x p s a yp y up u vp v w)
      (rgb_to_i444_8x p s' a yp y up u vp v w) Eq := by
  unfold rgb_to_i444_8x
  trace_run [load_rgb_8x_trace s s' _ _, vst1_u8_trace ..]

theorem rgb_to_nv12_8x_trace (p : Sampler) (a b : Nat) (yp : Dst) (y0 y1 : Nat) (uvp : Dst) (uv : Nat)
    (w : Weights) : K.Trace (rgb_to_nv12_8x p s a b yp y0 y1 uvp uv w)
      (rgb_to_nv12_8x p s' a b yp y0 y1 uvp uv w) Eq := by
  unfold rgb_to_nv12_8x
  trace_run [rgb_to_y_and_avg_uv_8x_trace s s' _ _ _ _ _ _ _, vst1_u8_trace ..]

theorem rgb_to_i420_8x_trace (p : Sampler) (a b : Nat) (yp : Dst) (y0 y1 : Nat) (up : Dst) (u : Nat)
    (vp : Dst) (v : Nat) (w : Weights) : K.Trace (rgb_to_i420_8x p s a b yp y0 y1 up u vp v w)
      (rgb_to_i420_8x p s' a b yp y0 y1 up u vp v w) Eq := by
  unfold rgb_to_i420_8x
  trace_run [rgb_to_y_and_avg_uv_8x_trace s s' _ _ _ _ _ _ _, vst1_lane_u32_trace ..]

theorem rgb_to_nv12_neon_trace (ix : Index) (p : Sampler) (depth : Nat) (c : Colorimetry)
    (w h ss ys uvs : Nat) (y uv : Dst) : K.Trace (rgb_to_nv12_neon ix p depth c w h ss s ys uvs y uv)
      (rgb_to_nv12_neon ix p depth c w h ss s' ys uvs y uv) Eq := by
  unfold rgb_to_nv12_neon
  refine .forK (fun y => .forK (fun x => ?_) _) _
  trace_run [rgb_to_nv12_8x_trace s s' ..]

theorem rgb_to_i420_neon_trace (ix : Index) (p : Sampler) (depth : Nat) (c : Colorimetry)
    (w h ss ys us vs : Nat) (y u v : Dst) :
    K.Trace (rgb_to_i420_neon ix p depth c w h ss s ys us vs y u v)
      (rgb_to_i420_neon ix p depth c w h ss s' ys us vs y u v) Eq := by
  unfold rgb_to_i420_neon
  refine .forK (fun y => .forK (fun x => ?_) _) _
  trace_run [rgb_to_i420_8x_trace s s' ..]

theorem rgb_to_i444_neon_trace (ix : Index) (p : Sampler) (depth : Nat) (c : Colorimetry)
    (w h ss ys us vs : Nat) (y u v : Dst) :
    K.Trace (rgb_to_i444_neon ix p depth c w h ss s ys us vs y u v)
      (rgb_to_i444_neon ix p depth c w h ss s' ys us vs y u v) Eq := by
  unfold rgb_to_i444_neon
  refine .forK (fun y => .forK (fun x => ?_) _) _
  trace_run [rgb_to_i444_8x_trace s s' ..]

theorem bgr_to_rgb_16_trace (so : Nat) (d : Dst) (o : Nat) :
    K.Trace (bgr_to_rgb_16 s so d o) (bgr_to_rgb_16 s' so d o) Eq := by
  unfold bgr_to_rgb_16
  trace_run [vld3_trace s s' _ _, vst3q_u8_trace ..]

theorem bgr_to_rgb_neon_trace (mul : Nat → Nat → R Nat) (w h ss ds : Nat) (d : Dst) :
    K.Trace (bgr_to_rgb_neon mul w h ss s ds d) (bgr_to_rgb_neon mul w h ss s' ds d) Eq := by
  unfold bgr_to_rgb_neon
  refine .forK (fun _ => .after fun _ => .after fun _ => (K.Trace.iterK ?_ _ _).seq fun _ _ => .refl _) _
  rintro ⟨so, o⟩
  exact (bgr_to_rgb_16_trace s s' so d o).seq fun _ _ => .refl _

theorem bgra_to_rgb_16_trace (so : Nat) (d : Dst) (o : Nat) :
    K.Trace (bgra_to_rgb_16 s so d o) (bgra_to_rgb_16 s' so d o) Eq := by
  unfold bgra_to_rgb_16
  trace_run [vld4_trace s s' _ _, vst3q_u8_trace ..]

theorem bgra_to_rgb_neon_trace (mul : Nat → Nat → R Nat) (w h ss ds : Nat) (d : Dst) :
    K.Trace (bgra_to_rgb_neon mul w h ss s ds d) (bgra_to_rgb_neon mul w h ss s' ds d) Eq := by
  unfold bgra_to_rgb_neon
  refine .forK (fun _ => .after fun _ => .after fun _ => (K.Trace.iterK ?_ _ _).seq fun _ _ => .refl _) _
  rintro ⟨so, o⟩
  exact (bgra_to_rgb_16_trace s s' so d o).seq fun _ _ => .refl _

theorem rgb_to_bgra_16_trace (so : Nat) (d : Dst) (o : Nat) :
    K.Trace (rgb_to_bgra_16 s so d o) (rgb_to_bgra_16 s' so d o) Eq := by
  unfold rgb_to_bgra_16
  trace_run [vld3_trace s s' _ _, vst4q_u8_trace ..]

theorem rgb_to_bgra_neon_trace (mul : Nat → Nat → R Nat) (w h ss ds : Nat) (d : Dst) :
    K.Trace (rgb_to_bgra_neon mul w h ss s ds d) (rgb_to_bgra_neon mul w h ss s' ds d) Eq := by
  unfold rgb_to_bgra_neon
  refine .forK (fun _ => .after fun _ => .after fun _ => (K.Trace.iterK ?_ _ _).seq fun _ _ => .refl _) _
  rintro ⟨so, o⟩
  exact (rgb_to_bgra_16_trace s s' so d o).seq fun _ _ => .refl _

theorem rgb_nv12_trace (ix : Index) (p : Sampler) (depth : Nat) (c : Colorimetry) (w h ss ys uvs : Nat)
    (y uv : Dst) : K.Trace (rgb_nv12 ix p depth c w h ss s ys uvs y uv)
      (rgb_nv12 ix p depth c w h ss s' ys uvs y uv) Eq := by
  unfold rgb_nv12
  trace_run [rgb_to_nv12_neon_trace .., X86.rgb_to_nv12_trace ..]

theorem rgb_i420_trace (ix : Index) (p : Sampler) (depth : Nat) (c : Colorimetry)
    (w h ss ys us vs : Nat) (y u v : Dst) : K.Trace (rgb_i420 ix p depth c w h ss s ys us vs y u v)
      (rgb_i420 ix p depth c w h ss s' ys us vs y u v) Eq := by
  unfold rgb_i420
  trace_run [rgb_to_i420_neon_trace .., X86.rgb_to_i420_trace ..]

theorem rgb_i444_trace (ix : Index) (p : Sampler) (depth : Nat) (c : Colorimetry)
    (w h ss ys us vs : Nat) (y u v : Dst) : K.Trace (rgb_i444 ix p depth c w h ss s ys us vs y u v)
      (rgb_i444 ix p depth c w h ss s' ys us vs y u v) Eq := by
  unfold rgb_i444
  trace_run [rgb_to_i444_neon_trace .., X86.rgb_to_i444_trace ..]

theorem bgr_rgb_trace (mul : Nat → Nat → R Nat) (w h ss ds : Nat) (d : Dst) :
    K.Trace (bgr_rgb mul w h ss s ds d) (bgr_rgb mul w h ss s' ds d) Eq := by
  unfold bgr_rgb
  trace_run [bgr_to_rgb_neon_trace .., X86.bgr_to_rgb_trace ..]

theorem bgra_rgb_trace (mul : Nat → Nat → R Nat) (t : Target) (w h ss ds : Nat) (d : Dst) :
    K.Trace (bgra_rgb mul t w h ss s ds d) (bgra_rgb mul t w h ss s' ds d) Eq := by
  unfold bgra_rgb
  trace_run [bgra_to_rgb_neon_trace .., X86.bgra_to_rgb_trace ..]

theorem rgb_bgra_trace (mul : Nat → Nat → R Nat) (t : Target) (w h ss ds : Nat) (d : Dst) :
    K.Trace (rgb_bgra mul t w h ss s ds d) (rgb_bgra mul t w h ss s' ds d) Eq := by
  unfold rgb_bgra
  trace_run [rgb_to_bgra_neon_trace .., X86.rgb_to_bgra_trace ..]

end Verif.Neon
