import Verif.Lemmas.WpTail
import Verif.Lemmas.NeonImpl
/-! # Kernels of neon.rs: exactly when they stay in bounds -/

namespace Verif.Neon

open Verif.Simd (Reg lower_multiple)

variable {S X : Prop}

/-- Close an obligation from the facts `o`. -/
local macro "wpo" o:ident : tactic => `(tactic| (intro s; have := $o s; omega))

theorem load_rgb_8x_wp {s : Sampler} {b : Buf} {i : Nat} (h : S → i + s.pf.depth * 8 ≤ b.len) :
    K.Wp S X (load_rgb_8x s b i) (fun _ => i + s.pf.depth * 8 ≤ b.len) := by
  unfold load_rgb_8x vld3 vld4
  cases s <;> (simp only [bind_assoc, pure_bind]; exact K.Wp.bind (K.Wp.load h) fun _ h => K.Wp.pure h)

theorem vst1_u8_wp {d : Dst} {i : Nat} {r : Reg} (h : S → i + 8 ≤ d.len) :
    K.Wp S X (vst1_u8 d i r) (fun _ => i + 8 ≤ d.len) := K.Wp.store (by omega) h

theorem rgb_to_nv12_neon_wp (s : Sampler) (c : Colorimetry) {w h ss ys uvs : Nat} {src : Buf}
    {yp uvp : Dst} (hw : 0 < w) (hh : 0 < h) (hw8 : w % 8 = 0) (hh2 : h % 2 = 0)
    (hS : S → Ext src.len ss (w * s.pf.depth) h ∧ Ext yp.len ys w h ∧
      Ext uvp.len uvs w (h / 2)) :
    K.Wp S X (rgb_to_nv12_neon exactIx s s.pf.depth c w h ss src ys uvs yp uvp) (fun _ =>
      Ext src.len ss (w * s.pf.depth) h ∧ Ext yp.len ys w h ∧
      Ext uvp.len uvs w (h / 2)) := by
  unfold rgb_to_nv12_neon
  simp only [wg_eq, K.liftM_eq, K.lift_ok, pure_bind, RGB_TO_YUV_WAVES, RGB_TO_YUV_WG_SIZE, LANE_COUNT, Nat.reduceDiv]
  refine (K.Wp.grid (P := fun y x => ss * (2 * y + 1) + s.pf.depth * 8 * x + s.pf.depth * 8 ≤ src.len ∧
    ys * (2 * y + 1) + 8 * x + 8 ≤ yp.len ∧ uvs * y + 8 * x + 8 ≤ uvp.len)
    fun y hy x hx => ?_).mono fun _ hp => ?_
  · have o : S → ss * (2 * y) + s.pf.depth * 8 * x + s.pf.depth * 8 ≤ src.len ∧
        ss * (2 * y + 1) + s.pf.depth * 8 * x + s.pf.depth * 8 ≤ src.len ∧
        ys * (2 * y) + 8 * x + 8 ≤ yp.len ∧ ys * (2 * y + 1) + 8 * x + 8 ≤ yp.len ∧
        uvs * y + 8 * x + 8 ≤ uvp.len := by
      intro hs
      obtain ⟨h1, h2, h3⟩ := hS hs
      have h1' := h1.at (y := 2 * y) (by omega)
      have h2' := h2.at (y := 2 * y) (by omega)
      have h1 := h1.at (y := 2 * y + 1) (by omega)
      have h2 := h2.at (y := 2 * y + 1) (by omega)
      have h3 := h3.at hy
      have : s.pf.depth * 8 * x + s.pf.depth * 8 ≤ w * s.pf.depth := by
        rw [Nat.mul_assoc, ← Nat.mul_add, Nat.mul_comm w]; exact Nat.mul_le_mul_left _ (by omega)
      omega
    unfold rgb_to_nv12_8x rgb_to_y_and_avg_uv_8x
    simp only [bind_assoc, pure_bind]
    refine K.Wp.bind (load_rgb_8x_wp fun s => (o s).1) fun _ _ => ?_
    refine K.Wp.bind (vst1_u8_wp (by wpo o)) fun _ _ => ?_
    refine K.Wp.bind (load_rgb_8x_wp fun s => (o s).2.1) fun _ h1 => ?_
    refine K.Wp.bind (vst1_u8_wp (by wpo o)) fun _ h2 => ?_
    exact (vst1_u8_wp (by wpo o)).mono fun _ h3 => ⟨h1, h2, h3⟩
  · have := hp (h / 2 - 1) (by omega) (w / 8 - 1) (by omega)
    rw [show 2 * (h / 2 - 1) + 1 = h - 1 by omega, Nat.mul_assoc,
      Nat.add_assoc, ← Nat.mul_add, show 8 * (w / 8 - 1) + 8 = w by omega, Nat.mul_comm _ w] at this
    unfold Ext
    omega

theorem rgb_to_i420_neon_wp (s : Sampler) (c : Colorimetry) {w h ss ys us vs : Nat} {src : Buf}
    {yp up vp : Dst} (hw : 0 < w) (hh : 0 < h) (hw8 : w % 8 = 0) (hh2 : h % 2 = 0)
    (hS : S → Ext src.len ss (w * s.pf.depth) h ∧ Ext yp.len ys w h ∧
      Ext up.len us (w / 2) (h / 2) ∧ Ext vp.len vs (w / 2) (h / 2)) :
    K.Wp S X (rgb_to_i420_neon exactIx s s.pf.depth c w h ss src ys us vs yp up vp) (fun _ =>
      Ext src.len ss (w * s.pf.depth) h ∧ Ext yp.len ys w h ∧
      Ext up.len us (w / 2) (h / 2) ∧ Ext vp.len vs (w / 2) (h / 2)) := by
  unfold rgb_to_i420_neon
  simp only [wg_eq, K.liftM_eq, K.lift_ok, pure_bind, RGB_TO_YUV_WAVES, RGB_TO_YUV_WG_SIZE, LANE_COUNT, Nat.reduceDiv]
  refine (K.Wp.grid (P := fun y x => ss * (2 * y + 1) + s.pf.depth * 8 * x + s.pf.depth * 8 ≤ src.len ∧
    ys * (2 * y + 1) + 8 * x + 8 ≤ yp.len ∧ us * y + 4 * x + 4 ≤ up.len ∧
    vs * y + 4 * x + 4 ≤ vp.len)
    fun y hy x hx => ?_).mono fun _ hp => ?_
  · have o : S → ss * (2 * y) + s.pf.depth * 8 * x + s.pf.depth * 8 ≤ src.len ∧
        ss * (2 * y + 1) + s.pf.depth * 8 * x + s.pf.depth * 8 ≤ src.len ∧
        ys * (2 * y) + 8 * x + 8 ≤ yp.len ∧ ys * (2 * y + 1) + 8 * x + 8 ≤ yp.len ∧
        us * y + 4 * x + 4 ≤ up.len ∧ vs * y + 4 * x + 4 ≤ vp.len := by
      intro hs
      obtain ⟨h1, h2, h3, h4⟩ := hS hs
      have h1' := h1.at (y := 2 * y) (by omega)
      have h2' := h2.at (y := 2 * y) (by omega)
      have h1 := h1.at (y := 2 * y + 1) (by omega)
      have h2 := h2.at (y := 2 * y + 1) (by omega)
      have h3 := h3.at hy
      have h4 := h4.at hy
      have : s.pf.depth * 8 * x + s.pf.depth * 8 ≤ w * s.pf.depth := by
        rw [Nat.mul_assoc, ← Nat.mul_add, Nat.mul_comm w]; exact Nat.mul_le_mul_left _ (by omega)
      omega
    unfold rgb_to_i420_8x rgb_to_y_and_avg_uv_8x vst1_lane_u32
    simp only [bind_assoc, pure_bind]
    refine K.Wp.bind (load_rgb_8x_wp fun s => (o s).1) fun _ _ => ?_
    refine K.Wp.bind (vst1_u8_wp (by wpo o)) fun _ _ => ?_
    refine K.Wp.bind (load_rgb_8x_wp fun s => (o s).2.1) fun _ h1 => ?_
    refine K.Wp.bind (vst1_u8_wp (by wpo o)) fun _ h2 => ?_
    refine K.Wp.bind (K.Wp.store (by omega) (by wpo o)) fun _ h3 => ?_
    exact (K.Wp.store (by omega) (by wpo o)).mono fun _ h4 => ⟨h1, h2, h3, h4⟩
  · have := hp (h / 2 - 1) (by omega) (w / 8 - 1) (by omega)
    rw [show 2 * (h / 2 - 1) + 1 = h - 1 by omega, Nat.mul_assoc,
      Nat.add_assoc, ← Nat.mul_add, show 8 * (w / 8 - 1) + 8 = w by omega, Nat.mul_comm _ w] at this
    unfold Ext
    omega

theorem rgb_to_i444_neon_wp (s : Sampler) (c : Colorimetry) {w h ss ys us vs : Nat} {src : Buf}
    {yp up vp : Dst} (hw : 0 < w) (hh : 0 < h) (hw8 : w % 8 = 0)
    (hS : S → Ext src.len ss (w * s.pf.depth) h ∧ Ext yp.len ys w h ∧
      Ext up.len us w h ∧ Ext vp.len vs w h) :
    K.Wp S X (rgb_to_i444_neon exactIx s s.pf.depth c w h ss src ys us vs yp up vp) (fun _ =>
      Ext src.len ss (w * s.pf.depth) h ∧ Ext yp.len ys w h ∧
      Ext up.len us w h ∧ Ext vp.len vs w h) := by
  unfold rgb_to_i444_neon
  simp only [wg_eq, K.liftM_eq, K.lift_ok, pure_bind, RGB_TO_YUV_WAVES, RGB_TO_YUV_WG_SIZE, LANE_COUNT, Nat.reduceDiv]
  refine (K.Wp.grid (P := fun y x => ss * y + s.pf.depth * 8 * x + s.pf.depth * 8 ≤ src.len ∧
    ys * y + 8 * x + 8 ≤ yp.len ∧ us * y + 8 * x + 8 ≤ up.len ∧ vs * y + 8 * x + 8 ≤ vp.len)
    fun y hy x hx => ?_).mono fun _ hp => ?_
  · have o : S → ss * y + s.pf.depth * 8 * x + s.pf.depth * 8 ≤ src.len ∧
        ys * y + 8 * x + 8 ≤ yp.len ∧ us * y + 8 * x + 8 ≤ up.len ∧ vs * y + 8 * x + 8 ≤ vp.len := by
      intro hs
      obtain ⟨h1, h2, h3, h4⟩ := hS hs
      have h1 := h1.at hy
      have h2 := h2.at hy
      have h3 := h3.at hy
      have h4 := h4.at hy
      have : s.pf.depth * 8 * x + s.pf.depth * 8 ≤ w * s.pf.depth := by
        rw [Nat.mul_assoc, ← Nat.mul_add, Nat.mul_comm w]; exact Nat.mul_le_mul_left _ (by omega)
      omega
    unfold rgb_to_i444_8x
    refine K.Wp.bind (load_rgb_8x_wp fun s => (o s).1) fun _ h1 => ?_
    refine K.Wp.bind (vst1_u8_wp (by wpo o)) fun _ h2 => ?_
    refine K.Wp.bind (vst1_u8_wp (by wpo o)) fun _ h3 => ?_
    exact (vst1_u8_wp (by wpo o)).mono fun _ h4 => ⟨h1, h2, h3, h4⟩
  · have := hp (h - 1) (by omega) (w / 8 - 1) (by omega)
    rw [Nat.mul_assoc, Nat.add_assoc, ← Nat.mul_add, show 8 * (w / 8 - 1) + 8 = w by omega,
      Nat.mul_comm _ w] at this
    unfold Ext
    omega

/-! ## RGB to RGB -/

theorem bgr_to_rgb_neon_wp {w h ss ds : Nat} {src : Buf} {d : Dst} (hw : 0 < w)
    (hh : 0 < h) (hw16 : w % 16 = 0)
    (o : S → Ext src.len ss (w * 3) h ∧ Ext d.len ds (w * 3) h) :
    K.Wp S X (bgr_to_rgb_neon exactMul w h ss src ds d) (fun _ =>
      Ext src.len ss (w * 3) h ∧ Ext d.len ds (w * 3) h) := by
  unfold bgr_to_rgb_neon
  simp only [exactMul, K.liftM_eq, K.lift_ok, pure_bind]
  simp only [LANE_COUNT]
  rw [show (w + (16 - 1)) / 16 = w / 16 by omega]
  refine (K.Wp.forK (P := fun y => ss * y + w * 3 ≤ src.len ∧ ds * y + w * 3 ≤ d.len)
    fun y hy => ?_).mono fun _ hp => hp (h - 1) (by omega)
  have o : S → ss * y + w * 3 ≤ src.len ∧ ds * y + w * 3 ≤ d.len := fun hs =>
    ⟨(o hs).1.at hy, (o hs).2.at hy⟩
  refine K.Wp.bind (K.Wp.iterK (I := fun i s => s = (ss * y + 48 * i, ds * y + 48 * i) ∧ (0 < i →
    ss * y + 48 * i ≤ src.len ∧ ds * y + 48 * i ≤ d.len)) ⟨by simp, by omega⟩ ?_) ?_
  · rintro i s hi ⟨rfl, -⟩
    have o1 : S → ss * y + 48 * i + 48 ≤ src.len ∧ ds * y + 48 * i + 48 ≤ d.len := by wpo o
    unfold bgr_to_rgb_16 vld3 vst3q_u8
    simp only [bind_assoc, pure_bind]
    refine K.Wp.bind (K.Wp.load (by wpo o1)) fun _ h1 => ?_
    refine K.Wp.bind (K.Wp.store (by omega) (by wpo o1)) fun _ h2 => K.Wp.pure ⟨?_, fun _ => ?_⟩
    · simp only [Prod.mk.injEq]; omega
    · omega
  · rintro s ⟨rfl, hm⟩
    have hm := hm (by omega)
    refine K.Wp.pure ?_
    omega

theorem bgra_to_rgb_neon_wp {w h ss ds : Nat} {src : Buf} {d : Dst} (hw : 0 < w)
    (hh : 0 < h) (hw16 : w % 16 = 0)
    (o : S → Ext src.len ss (w * 4) h ∧ Ext d.len ds (w * 3) h) :
    K.Wp S X (bgra_to_rgb_neon exactMul w h ss src ds d) (fun _ =>
      Ext src.len ss (w * 4) h ∧ Ext d.len ds (w * 3) h) := by
  unfold bgra_to_rgb_neon
  simp only [exactMul, K.liftM_eq, K.lift_ok, pure_bind]
  simp only [LANE_COUNT]
  rw [show (w + (16 - 1)) / 16 = w / 16 by omega]
  refine (K.Wp.forK (P := fun y => ss * y + w * 4 ≤ src.len ∧ ds * y + w * 3 ≤ d.len)
    fun y hy => ?_).mono fun _ hp => hp (h - 1) (by omega)
  have o : S → ss * y + w * 4 ≤ src.len ∧ ds * y + w * 3 ≤ d.len := fun hs =>
    ⟨(o hs).1.at hy, (o hs).2.at hy⟩
  refine K.Wp.bind (K.Wp.iterK (I := fun i s => s = (ss * y + 64 * i, ds * y + 48 * i) ∧ (0 < i →
    ss * y + 64 * i ≤ src.len ∧ ds * y + 48 * i ≤ d.len)) ⟨by simp, by omega⟩ ?_) ?_
  · rintro i s hi ⟨rfl, -⟩
    have o1 : S → ss * y + 64 * i + 64 ≤ src.len ∧ ds * y + 48 * i + 48 ≤ d.len := by wpo o
    unfold bgra_to_rgb_16 vld4 vst3q_u8
    simp only [bind_assoc, pure_bind]
    refine K.Wp.bind (K.Wp.load (by wpo o1)) fun _ h1 => ?_
    refine K.Wp.bind (K.Wp.store (by omega) (by wpo o1)) fun _ h2 => K.Wp.pure ⟨?_, fun _ => ?_⟩
    · simp only [Prod.mk.injEq]; omega
    · omega
  · rintro s ⟨rfl, hm⟩
    have hm := hm (by omega)
    refine K.Wp.pure ?_
    omega

theorem rgb_to_bgra_neon_wp {w h ss ds : Nat} {src : Buf} {d : Dst} (hw : 0 < w)
    (hh : 0 < h) (hw16 : w % 16 = 0)
    (o : S → Ext src.len ss (w * 3) h ∧ Ext d.len ds (w * 4) h) :
    K.Wp S X (rgb_to_bgra_neon exactMul w h ss src ds d) (fun _ =>
      Ext src.len ss (w * 3) h ∧ Ext d.len ds (w * 4) h) := by
  unfold rgb_to_bgra_neon
  simp only [exactMul, K.liftM_eq, K.lift_ok, pure_bind]
  simp only [LANE_COUNT]
  rw [show (w + (16 - 1)) / 16 = w / 16 by omega]
  refine (K.Wp.forK (P := fun y => ss * y + w * 3 ≤ src.len ∧ ds * y + w * 4 ≤ d.len)
    fun y hy => ?_).mono fun _ hp => hp (h - 1) (by omega)
  have o : S → ss * y + w * 3 ≤ src.len ∧ ds * y + w * 4 ≤ d.len := fun hs =>
    ⟨(o hs).1.at hy, (o hs).2.at hy⟩
  refine K.Wp.bind (K.Wp.iterK (I := fun i s => s = (ss * y + 48 * i, ds * y + 64 * i) ∧ (0 < i →
    ss * y + 48 * i ≤ src.len ∧ ds * y + 64 * i ≤ d.len)) ⟨by simp, by omega⟩ ?_) ?_
  · rintro i s hi ⟨rfl, -⟩
    have o1 : S → ss * y + 48 * i + 48 ≤ src.len ∧ ds * y + 64 * i + 64 ≤ d.len := by wpo o
    unfold rgb_to_bgra_16 vld3 vst4q_u8
    simp only [bind_assoc, pure_bind]
    refine K.Wp.bind (K.Wp.load (by wpo o1)) fun _ h1 => ?_
    refine K.Wp.bind (K.Wp.store (by omega) (by wpo o1)) fun _ h2 => K.Wp.pure ⟨?_, fun _ => ?_⟩
    · simp only [Prod.mk.injEq]; omega
    · omega
  · rintro s ⟨rfl, hm⟩
    have hm := hm (by omega)
    refine K.Wp.pure ?_
    omega

/-! ## The kernels behind the wrappers -/

theorem rgb_nv12_wp (s : Sampler) (c : Colorimetry) {w h ss ys uvs : Nat} {src : Buf}
    {yp uvp : Dst} (hdim : Dim w h) (hw2 : w % 2 = 0) (hh2 : h % 2 = 0)
    (o : S → Ext src.len ss (encEnd s (lower_multiple_of_pot w RGB_TO_YUV_WAVES)
        (lower_multiple_of_pot w RGB_TO_YUV_WAVES * s.pf.depth) w) h ∧ Ext yp.len ys w h ∧
      Ext uvp.len uvs w (h / 2)) :
    K.Wp S X (rgb_nv12 exactIx s s.pf.depth c w h ss src ys uvs yp uvp) (fun _ =>
      Ext src.len ss (encEnd s (lower_multiple_of_pot w RGB_TO_YUV_WAVES)
        (lower_multiple_of_pot w RGB_TO_YUV_WAVES * s.pf.depth) w) h ∧ Ext yp.len ys w h ∧
      Ext uvp.len uvs w (h / 2)) := by
  have hv0 : lower_multiple_of_pot w RGB_TO_YUV_WAVES = 8 * (w / 8) :=
    lower_multiple (k := 3) hdim.w_lt (by omega)
  exact tail_rgb_nv12_wp s c hdim.w_pos hdim.h_pos hw2 hh2 (by rw [hv0]; omega) (by rw [hv0]; omega) (fun _ => Nat.le_refl _)
    (fun hp o => rgb_to_nv12_neon_wp s c hp hdim.h_pos (by rw [hv0]; omega) hh2 o) o

theorem rgb_i420_wp (s : Sampler) (c : Colorimetry) {w h ss ys us vs : Nat} {src : Buf}
    {yp up vp : Dst} (hdim : Dim w h) (hw2 : w % 2 = 0) (hh2 : h % 2 = 0)
    (o : S → Ext src.len ss (encEnd s (lower_multiple_of_pot w RGB_TO_YUV_WAVES)
        (lower_multiple_of_pot w RGB_TO_YUV_WAVES * s.pf.depth) w) h ∧ Ext yp.len ys w h ∧
      Ext up.len us (w / 2) (h / 2) ∧ Ext vp.len vs (w / 2) (h / 2)) :
    K.Wp S X (rgb_i420 exactIx s s.pf.depth c w h ss src ys us vs yp up vp) (fun _ =>
      Ext src.len ss (encEnd s (lower_multiple_of_pot w RGB_TO_YUV_WAVES)
        (lower_multiple_of_pot w RGB_TO_YUV_WAVES * s.pf.depth) w) h ∧ Ext yp.len ys w h ∧
      Ext up.len us (w / 2) (h / 2) ∧ Ext vp.len vs (w / 2) (h / 2)) := by
  have hv0 : lower_multiple_of_pot w RGB_TO_YUV_WAVES = 8 * (w / 8) :=
    lower_multiple (k := 3) hdim.w_lt (by omega)
  exact tail_rgb_i420_wp s c hdim.w_pos hdim.h_pos hw2 hh2 (by rw [hv0]; omega) (by rw [hv0]; omega) (fun _ => Nat.le_refl _)
    (fun hp o => rgb_to_i420_neon_wp s c hp hdim.h_pos (by rw [hv0]; omega) hh2 o) o

theorem rgb_i444_wp (s : Sampler) (c : Colorimetry) {w h ss ys us vs : Nat} {src : Buf}
    {yp up vp : Dst} (hdim : Dim w h)
    (o : S → Ext src.len ss (encEnd s (lower_multiple_of_pot w RGB_TO_YUV_WAVES)
        (lower_multiple_of_pot w RGB_TO_YUV_WAVES * s.pf.depth) w) h ∧ Ext yp.len ys w h ∧
      Ext up.len us w h ∧ Ext vp.len vs w h) :
    K.Wp S X (rgb_i444 exactIx s s.pf.depth c w h ss src ys us vs yp up vp) (fun _ =>
      Ext src.len ss (encEnd s (lower_multiple_of_pot w RGB_TO_YUV_WAVES)
        (lower_multiple_of_pot w RGB_TO_YUV_WAVES * s.pf.depth) w) h ∧ Ext yp.len ys w h ∧
      Ext up.len us w h ∧ Ext vp.len vs w h) := by
  have hv0 : lower_multiple_of_pot w RGB_TO_YUV_WAVES = 8 * (w / 8) :=
    lower_multiple (k := 3) hdim.w_lt (by omega)
  exact tail_rgb_i444_wp s c hdim.w_pos hdim.h_pos (by rw [hv0]; omega) (fun _ => Nat.le_refl _)
    (fun hp o => rgb_to_i444_neon_wp s c hp hdim.h_pos (by rw [hv0]; omega) o) o

theorem rgb_bgra_wp {t : Target} {w h ss ds : Nat} {src : Buf} {d : Dst} (hdim : Dim w h)
    (hss : 0 < ss)
    (hX : t.checked = true →
      X86.Stuck [(16 * (w / 16), w % 16)] 3 4 ss ds src.len d.len h → X)
    (hs : src.len + ss < 2 ^ t.bits) (hd : d.len + ds < 2 ^ t.bits)
    (o : S → (Ext src.len ss (3 * w) h ∧ Ext d.len ds (4 * w) h) ∧
      X86.Peek t ss src.len w (w % 16) h) :
    K.Wp S X (rgb_bgra exactMul t w h ss src ds d) (fun _ =>
      ((Ext src.len ss (3 * w) h ∧ Ext d.len ds (4 * w) h) ∧ X86.Peek t ss src.len w (w % 16) h) ∧
      (t.checked = true → X86.Fit [(16 * (w / 16), w % 16)] 3 4 ss ds)) := by
  have hv0 : lower_multiple_of_pot w LANE_COUNT = 16 * (w / 16) :=
    lower_multiple (k := 4) hdim.w_lt (by omega)
  have := hdim.w_pos
  have em : w - 16 * (w / 16) = w % 16 := by omega
  rw [Nat.mul_comm 4 w] at o
  refine (tail_rgb_rgb_wp (P := fun w src' d' => X86.rgb_to_bgra t w h ss src' ds d')
    (A := True) (B := X86.Peek t ss src.len w (w % 16) h ∧
      (t.checked = true → 3 * (w % 16) ≤ ss ∧ 4 * (w % 16) ≤ ds))
    (send := 3 * w) (rend := fun w => 3 * w) hdim.w_pos (by rw [hv0]; omega)
    (by rw [hv0]; omega) (by omega) (by rw [hv0]; omega)
    (fun hp o => (rgb_to_bgra_neon_wp hp hdim.h_pos (by rw [hv0]; omega) o).mono
      fun _ h => ⟨h, trivial⟩) ?_ fun s => (o s).1).mono ?_
  · intro src' d' h1 h2 h3 hv o'
    rw [Nat.mul_comm _ 4] at o' ⊢
    rw [hv0] at h1 h3 hv o' ⊢
    have peek : X86.Peek t ss src'.len (w - 16 * (w / 16)) (w - 16 * (w / 16)) h ↔
        X86.Peek t ss src.len w (w % 16) h := by
      unfold X86.Peek
      rw [em]
      constructor <;> (intro h a b c d; have := h a b c d; omega)
    rw [← em]
    refine (X86.rgb_to_bgra_any_wp (by omega) hdim.h_pos hss
      (fun hk hc => hX hk ⟨(16 * (w / 16), w % 16), by simp, em ▸ hc, ?_⟩) (by omega) (by omega)
      fun s => ⟨(o' s).1, (o' s).2, peek.2 (o s).2⟩).mono
      fun _ hq => ⟨⟨hq.1.1, hq.1.2.1⟩, em.symm ▸ peek.1 hq.1.2.2, hq.2⟩
    rwa [Nat.mul_comm 3, Nat.mul_comm 4]
  · rintro _ ⟨h, -, hB⟩
    rw [hv0] at hB
    refine ⟨⟨by rwa [Nat.mul_comm 4 w], ?_⟩, fun hk p hp => ?_⟩
    · by_cases e : 16 * (w / 16) < w
      · exact (hB e).1
      · exact fun _ h => by omega
    obtain rfl := List.mem_singleton.1 hp
    by_cases e : 16 * (w / 16) < w
    · exact (hB e).2 hk
    · simp only
      omega

theorem bgr_rgb_wp {t : Target} {w h ss ds : Nat} {src : Buf} {d : Dst} (hdim : Dim w h)
    (o : S → Ext src.len ss (3 * w) h ∧ Ext d.len ds (3 * w) h) :
    K.Wp S X (bgr_rgb exactMul w h ss src ds d) (fun _ =>
      Ext src.len ss (3 * w) h ∧ Ext d.len ds (3 * w) h) := by
  have hv0 : lower_multiple_of_pot w LANE_COUNT = 16 * (w / 16) :=
    lower_multiple (k := 4) hdim.w_lt (by omega)
  have := hdim.w_pos
  have := hdim.w_lt
  rw [Nat.mul_comm 3 w] at o
  refine (tail_rgb_rgb_wp (P := fun w src' d' => X86.bgr_to_rgb exactMul w h ss src' ds d')
    (send := w * 3) (rend := fun w => w * 3) hdim.w_pos (by rw [hv0]; omega)
    (by rw [hv0]; omega) (by omega) (by rw [hv0]; omega)
    (A := True) (B := True)
    (fun hp o => (bgr_to_rgb_neon_wp hp hdim.h_pos (by rw [hv0]; omega) o).mono
      fun _ h => ⟨h, trivial⟩) ?_ o).mono ?_
  · intro src' d' h1 h2 h3 _ o
    rw [Nat.mul_comm _ 3] at o ⊢
    exact (X86.bgr_to_rgb_wp (by omega) (by omega) hdim.h_pos o).mono fun _ h => ⟨h, trivial⟩
  · intro _ h
    rw [Nat.mul_comm 3 w]
    exact h.1

theorem bgra_rgb_wp {t : Target} {w h ss ds : Nat} {src : Buf} {d : Dst} (hdim : Dim w h)
    (hX : t.checked = true →
      X86.Stuck [(16 * (w / 16), w % 16)] 4 3 ss ds src.len d.len h → X)
    (hs : src.len + ss < 2 ^ t.bits) (hd : d.len + ds < 2 ^ t.bits)
    (o : S → Ext src.len ss (X86.bgraEnd w) h ∧ Ext d.len ds (3 * w) h) :
    K.Wp S X (bgra_rgb exactMul t w h ss src ds d) (fun _ =>
      (Ext src.len ss (X86.bgraEnd w) h ∧ Ext d.len ds (3 * w) h) ∧
      (t.checked = true → X86.Fit [(16 * (w / 16), w % 16)] 4 3 ss ds)) := by
  have hv0 : lower_multiple_of_pot w LANE_COUNT = 16 * (w / 16) :=
    lower_multiple (k := 4) hdim.w_lt (by omega)
  have := hdim.w_pos
  have := hdim.w_lt
  have em : w - 16 * (w / 16) = w % 16 := by omega
  rw [Nat.mul_comm 3 w] at o
  refine (tail_rgb_rgb_wp (P := fun w src' d' => X86.bgra_to_rgb t w h ss src' ds d')
    (A := True) (B := t.checked = true → 4 * (w % 16) ≤ ss ∧ 3 * (w % 16) ≤ ds)
    (send := X86.bgraEnd w) (rend := X86.bgraEnd) hdim.w_pos (by rw [hv0]; omega)
    ?_ ?_ ?_
    (fun hp o => (bgra_to_rgb_neon_wp hp hdim.h_pos (by rw [hv0]; omega) o).mono
      fun _ h => ⟨h, trivial⟩) ?_ o).mono ?_
  · rw [hv0]
    intro hlt
    unfold X86.bgraEnd
    split <;> split <;> omega
  · rw [hv0]
    intro e
    unfold X86.bgraEnd
    rw [if_pos (by omega)]
    omega
  · rw [hv0]
    unfold X86.bgraEnd
    split <;> omega
  · intro src' d' h1 h2 h3 hv o
    rw [Nat.mul_comm _ 3] at o ⊢
    rw [hv0] at h3 hv o ⊢
    rw [← em]
    refine X86.bgra_to_rgb_any_wp (by omega) (by omega) hdim.h_pos
      (fun hk hc => hX hk ⟨(16 * (w / 16), w % 16), by simp, em ▸ hc, ?_⟩) (by omega) (by omega) o
    rwa [Nat.mul_comm 4, Nat.mul_comm 3]
  · rintro _ ⟨h, -, hB⟩
    rw [hv0] at hB
    refine ⟨by rwa [Nat.mul_comm 3 w], fun hk p hp => ?_⟩
    obtain rfl := List.mem_singleton.1 hp
    by_cases e : 16 * (w / 16) < w
    · exact hB e hk
    · simp only
      omega

theorem rgb_bgra_over {t : Target} {w h ss ds : Nat} {src : Buf} {d : Dst} (hdim : Dim w h)
    (hc : t.checked = true)
    (hk : X86.Stuck [(16 * (w / 16), w % 16)] 3 4 ss ds src.len d.len h) :
    K.Wp True True (rgb_bgra exactMul t w h ss src ds d) (fun _ => False) := by
  have hv0 : lower_multiple_of_pot w LANE_COUNT = 16 * (w / 16) :=
    lower_multiple (k := 4) hdim.w_lt (by omega)
  have em : w - 16 * (w / 16) = w % 16 := by omega
  obtain ⟨p, hp, hn, hb⟩ := hk
  obtain rfl := List.mem_singleton.1 hp
  have hlt : 16 * (w / 16) < w := by
    by_contra h0
    exact hn (by simp only; omega)
  refine tail_over_wp (P := fun w src' d' => X86.rgb_to_bgra t w h ss src' ds d') (h := h)
    (ss := ss) (ds := ds) (by rwa [hv0]) (fun hp => ?_) fun src' d' => ?_
  · rw [hv0] at hp ⊢
    simp only at hb
    rw [Nat.mul_comm 3, Nat.mul_comm 4] at hb
    exact rgb_to_bgra_neon_wp hp hdim.h_pos (by omega) fun _ => hb hp
  · rw [hv0, em]
    exact X86.diffs_over hc hn trivial

theorem bgra_rgb_over {t : Target} {w h ss ds : Nat} {src : Buf} {d : Dst} (hdim : Dim w h)
    (hc : t.checked = true)
    (hk : X86.Stuck [(16 * (w / 16), w % 16)] 4 3 ss ds src.len d.len h) :
    K.Wp True True (bgra_rgb exactMul t w h ss src ds d) (fun _ => False) := by
  have hv0 : lower_multiple_of_pot w LANE_COUNT = 16 * (w / 16) :=
    lower_multiple (k := 4) hdim.w_lt (by omega)
  have em : w - 16 * (w / 16) = w % 16 := by omega
  obtain ⟨p, hp, hn, hb⟩ := hk
  obtain rfl := List.mem_singleton.1 hp
  have hlt : 16 * (w / 16) < w := by
    by_contra h0
    exact hn (by simp only; omega)
  refine tail_over_wp (P := fun w src' d' => X86.bgra_to_rgb t w h ss src' ds d') (h := h)
    (ss := ss) (ds := ds) (by rwa [hv0]) (fun hp => ?_) fun src' d' => ?_
  · rw [hv0] at hp ⊢
    simp only at hb
    rw [Nat.mul_comm 4, Nat.mul_comm 3] at hb
    exact bgra_to_rgb_neon_wp hp hdim.h_pos (by omega) fun _ => hb hp
  · rw [hv0, em]
    exact X86.diffs_over hc hn trivial

end Verif.Neon
