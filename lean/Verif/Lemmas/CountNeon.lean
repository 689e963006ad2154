import Verif.Lemmas.Count
import Verif.Lemmas.NeonImpl
/-! # How many bytes the kernels of neon.rs write -/

namespace Verif.Neon

open Verif.Simd

variable (s : Buf)

theorem vld3_puts (n i : Nat) : K.Puts (vld3 n s i) 0 := by
  unfold vld3
  apply K.Puts.of
  count_run [K.Puts.load s _ _]

theorem vld4_puts (n i : Nat) : K.Puts (vld4 n s i) 0 := by
  unfold vld4
  apply K.Puts.of
  count_run [K.Puts.load s _ _]

theorem load_rgb_8x_puts (p : Sampler) (i : Nat) : K.Puts (load_rgb_8x p s i) 0 := by
  unfold load_rgb_8x
  apply K.Puts.of
  cases p
  all_goals count_run [vld3_puts s _ _, vld4_puts s _ _]

theorem vst1_u8_puts (d : Dst) (i : Nat) (r : Reg) : K.Puts (vst1_u8 d i r) 8 := .store ..

theorem vst1_lane_u32_puts (d : Dst) (i : Nat) (r : Reg) (l : Nat) :
    K.Puts (vst1_lane_u32 d i r l) 4 := .store ..

theorem vst3q_u8_puts (d : Dst) (i : Nat) (a b c : Reg) : K.Puts (vst3q_u8 d i a b c) 48 := .store ..

theorem vst4q_u8_puts (d : Dst) (i : Nat) (a b c e : Reg) : K.Puts (vst4q_u8 d i a b c e) 64 := .store ..

theorem rgb_to_y_and_avg_uv_8x_puts (p : Sampler) (a b : Nat) (yp : Dst) (y0 y1 : Nat) (w : Weights) :
    K.Puts (rgb_to_y_and_avg_uv_8x p s a b yp y0 y1 w) 16 := by
  unfold rgb_to_y_and_avg_uv_8x
  exact .of (.seq (load_rgb_8x_puts s _ _) fun _ => .seq (vst1_u8_puts ..) fun _ =>
    .seq (load_rgb_8x_puts s _ _) fun _ => .seq (vst1_u8_puts ..) fun _ => .pure rfl)

theorem rgb_to_i444_8x_puts (p : Sampler) (a : Nat) (yp : Dst) (y : Nat) (up : Dst) (u : Nat)
    (vp : Dst) (v : Nat) (w : Weights) : K.Puts (rgb_to_i444_8x p s a yp y up u vp v w) 24 := by
  unfold rgb_to_i444_8x
  apply K.Puts.of
  count_run [load_rgb_8x_puts s _ _, vst1_u8_puts ..]

theorem rgb_to_nv12_8x_puts (p : Sampler) (a b : Nat) (yp : Dst) (y0 y1 : Nat) (uvp : Dst) (uv : Nat)
    (w : Weights) : K.Puts (rgb_to_nv12_8x p s a b yp y0 y1 uvp uv w) 24 := by
  unfold rgb_to_nv12_8x
  apply K.Puts.of
  count_run [rgb_to_y_and_avg_uv_8x_puts s _ _ _ _ _ _ _, vst1_u8_puts ..]

theorem rgb_to_i420_8x_puts (p : Sampler) (a b : Nat) (yp : Dst) (y0 y1 : Nat) (up : Dst) (u : Nat)
    (vp : Dst) (v : Nat) (w : Weights) : K.Puts (rgb_to_i420_8x p s a b yp y0 y1 up u vp v w) 24 := by
  unfold rgb_to_i420_8x
  apply K.Puts.of
  count_run [rgb_to_y_and_avg_uv_8x_puts s _ _ _ _ _ _ _, vst1_lane_u32_puts ..]

theorem rgb_to_nv12_neon_puts (ix : Index) (p : Sampler) (depth : Nat) (c : Colorimetry)
    (w h ss ys uvs : Nat) (y uv : Dst) :
    K.AtMost (rgb_to_nv12_neon ix p depth c w h ss s ys uvs y uv) (h / 2 * (w / 8 * 24)) := by
  unfold rgb_to_nv12_neon
  refine .puts (.forK (fun y => .forK (fun x => .of ?_) _) _) (Nat.le_refl _)
  count_run [rgb_to_nv12_8x_puts s ..]

theorem rgb_to_i420_neon_puts (ix : Index) (p : Sampler) (depth : Nat) (c : Colorimetry)
    (w h ss ys us vs : Nat) (y u v : Dst) :
    K.AtMost (rgb_to_i420_neon ix p depth c w h ss s ys us vs y u v) (h / 2 * (w / 8 * 24)) := by
  unfold rgb_to_i420_neon
  refine .puts (.forK (fun y => .forK (fun x => .of ?_) _) _) (Nat.le_refl _)
  count_run [rgb_to_i420_8x_puts s ..]

theorem rgb_to_i444_neon_puts (ix : Index) (p : Sampler) (depth : Nat) (c : Colorimetry)
    (w h ss ys us vs : Nat) (y u v : Dst) :
    K.AtMost (rgb_to_i444_neon ix p depth c w h ss s ys us vs y u v) (h * (w / 8 * 24)) := by
  unfold rgb_to_i444_neon
  refine .puts (.forK (fun y => .forK (fun x => .of ?_) _) _) (Nat.le_refl _)
  count_run [rgb_to_i444_8x_puts s ..]

theorem bgr_to_rgb_16_puts (so : Nat) (d : Dst) (o : Nat) : K.Puts (bgr_to_rgb_16 s so d o) 48 := by
  unfold bgr_to_rgb_16
  apply K.Puts.of
  count_run [vld3_puts s _ _, vst3q_u8_puts ..]

theorem bgr_to_rgb_neon_puts (mul : Nat → Nat → R Nat) (w h ss ds : Nat) (d : Dst) :
    K.AtMost (bgr_to_rgb_neon mul w h ss s ds d) (h * ((w + 15) / 16 * 48)) := by
  unfold bgr_to_rgb_neon
  refine .forK (fun _ => .after fun _ => .after fun _ =>
    K.AtMost.mono (K.AtMost.seq (m := 0) (K.AtMost.iterK (c := 48) ?_ _ _) fun _ => .pure) ?_) _
  · rintro ⟨so, o⟩
    exact K.AtMost.mono (K.AtMost.seq (m := 0) (.puts (bgr_to_rgb_16_puts s so d o) (Nat.le_refl _))
      fun _ => .pure) (Nat.le_refl _)
  · simp only [LANE_COUNT]
    omega

theorem bgra_to_rgb_16_puts (so : Nat) (d : Dst) (o : Nat) : K.Puts (bgra_to_rgb_16 s so d o) 48 := by
  unfold bgra_to_rgb_16
  apply K.Puts.of
  count_run [vld4_puts s _ _, vst3q_u8_puts ..]

theorem bgra_to_rgb_neon_puts (mul : Nat → Nat → R Nat) (w h ss ds : Nat) (d : Dst) :
    K.AtMost (bgra_to_rgb_neon mul w h ss s ds d) (h * ((w + 15) / 16 * 48)) := by
  unfold bgra_to_rgb_neon
  refine .forK (fun _ => .after fun _ => .after fun _ =>
    K.AtMost.mono (K.AtMost.seq (m := 0) (K.AtMost.iterK (c := 48) ?_ _ _) fun _ => .pure) ?_) _
  · rintro ⟨so, o⟩
    exact K.AtMost.mono (K.AtMost.seq (m := 0) (.puts (bgra_to_rgb_16_puts s so d o) (Nat.le_refl _))
      fun _ => .pure) (Nat.le_refl _)
  · simp only [LANE_COUNT]
    omega

theorem rgb_to_bgra_16_puts (so : Nat) (d : Dst) (o : Nat) : K.Puts (rgb_to_bgra_16 s so d o) 64 := by
  unfold rgb_to_bgra_16
  apply K.Puts.of
  count_run [vld3_puts s _ _, vst4q_u8_puts ..]

theorem rgb_to_bgra_neon_puts (mul : Nat → Nat → R Nat) (w h ss ds : Nat) (d : Dst) :
    K.AtMost (rgb_to_bgra_neon mul w h ss s ds d) (h * ((w + 15) / 16 * 64)) := by
  unfold rgb_to_bgra_neon
  refine .forK (fun _ => .after fun _ => .after fun _ =>
    K.AtMost.mono (K.AtMost.seq (m := 0) (K.AtMost.iterK (c := 64) ?_ _ _) fun _ => .pure) ?_) _
  · rintro ⟨so, o⟩
    exact K.AtMost.mono (K.AtMost.seq (m := 0) (.puts (rgb_to_bgra_16_puts s so d o) (Nat.le_refl _))
      fun _ => .pure) (Nat.le_refl _)
  · simp only [LANE_COUNT]
    omega

/-! ## The wrappers after validation -/

theorem le_of_lower (w p : Nat) : lower_multiple_of_pot w p ≤ w := Nat.and_le_left

theorem rgb_nv12_puts (ix : Index) (p : Sampler) (depth : Nat) (c : Colorimetry) (w h ss ys uvs : Nat)
    (y uv : Dst) : K.AtMost (rgb_nv12 ix p depth c w h ss s ys uvs y uv) (h / 2 * (w / 2 * 6)) := by
  unfold rgb_nv12
  dsimp only
  have := le_of_lower w RGB_TO_YUV_WAVES
  exact .split (rgb_to_nv12_neon_puts ..) (.ite (fun _ => .after fun _ => .after fun _ => .after fun _ =>
    X86.rgb_to_nv12_puts ..) fun _ => .pure) (by omega)

theorem rgb_i420_puts (ix : Index) (p : Sampler) (depth : Nat) (c : Colorimetry)
    (w h ss ys us vs : Nat) (y u v : Dst) :
    K.AtMost (rgb_i420 ix p depth c w h ss s ys us vs y u v) (h / 2 * (w / 2 * 6)) := by
  unfold rgb_i420
  dsimp only
  have := le_of_lower w RGB_TO_YUV_WAVES
  exact .split (rgb_to_i420_neon_puts ..) (.ite (fun _ => .after fun _ => .after fun _ => .after fun _ =>
    .after fun _ => X86.rgb_to_i420_puts ..) fun _ => .pure) (by omega)

theorem rgb_i444_puts (ix : Index) (p : Sampler) (depth : Nat) (c : Colorimetry)
    (w h ss ys us vs : Nat) (y u v : Dst) :
    K.AtMost (rgb_i444 ix p depth c w h ss s ys us vs y u v) (h * (w * 3)) := by
  unfold rgb_i444
  dsimp only
  have := le_of_lower w RGB_TO_YUV_WAVES
  exact .split (rgb_to_i444_neon_puts ..) (.ite (fun _ => .after fun _ => .after fun _ => .after fun _ =>
    .after fun _ => X86.rgb_to_i444_puts ..) fun _ => .pure) (by omega)

theorem bgr_rgb_puts (mul : Nat → Nat → R Nat) (w h ss ds : Nat) (hw : w < 2 ^ 32) (d : Dst) :
    K.AtMost (bgr_rgb mul w h ss s ds d) (h * (w * 3)) := by
  unfold bgr_rgb
  dsimp only
  have hl : lower_multiple_of_pot w LANE_COUNT = 16 * (w / 16) := lower_multiple (k := 4) hw (by omega)
  rw [hl]
  exact .split (bgr_to_rgb_neon_puts ..) (.ite (fun hp => .after fun _ => .after fun _ =>
    X86.bgr_to_rgb_puts _ _ _ _ _ _ (by omega) _) fun _ => .pure) (by omega)

theorem bgra_rgb_puts (mul : Nat → Nat → R Nat) (t : Target) (w h ss ds : Nat) (hw : w < 2 ^ 32) (d : Dst) :
    K.AtMost (bgra_rgb mul t w h ss s ds d) (h * (w * 3)) := by
  unfold bgra_rgb
  dsimp only
  have hl : lower_multiple_of_pot w LANE_COUNT = 16 * (w / 16) := lower_multiple (k := 4) hw (by omega)
  rw [hl]
  exact .split (bgra_to_rgb_neon_puts ..) (.ite (fun hp => .after fun _ => .after fun _ =>
    X86.bgra_to_rgb_puts _ _ _ _ _ _ (by omega) _) fun _ => .pure) (by omega)

theorem rgb_bgra_puts (mul : Nat → Nat → R Nat) (t : Target) (w h ss ds : Nat) (hw : w < 2 ^ 32) (d : Dst) :
    K.AtMost (rgb_bgra mul t w h ss s ds d) (h * (w * 4)) := by
  unfold rgb_bgra
  dsimp only
  have hl : lower_multiple_of_pot w LANE_COUNT = 16 * (w / 16) := lower_multiple (k := 4) hw (by omega)
  rw [hl]
  exact .split (rgb_to_bgra_neon_puts ..) (.ite (fun hp => .after fun _ => .after fun _ =>
    X86.rgb_to_bgra_puts _ _ _ _ _ _ hp _) fun _ => .pure) (by omega)

end Verif.Neon
