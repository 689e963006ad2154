import Verif.Lemmas.WpTail
import Verif.Lemmas.Avx2Impl
/-! # Kernels of avx2.rs: exactly when they stay in bounds -/

namespace Verif.Avx2

open Verif.Simd

variable {S X : Prop}

/-- Close an obligation from the facts `o`. -/
local macro "wpo" o:ident : tactic => `(tactic| (intro s; have := $o s; omega))

theorem unpack3_wp {s : Sampler} {b : Buf} {i : Nat} (h : S → i + 32 ≤ b.len) :
    K.Wp S X (unpack_ui8x3_i16x2_8x s b i) (fun _ => i + 32 ≤ b.len) := by
  unfold unpack_ui8x3_i16x2_8x
  cases s <;> exact K.Wp.bind (K.Wp.load h) fun _ h => K.Wp.pure h

theorem pack_i32_8x_wp {d : Dst} {i : Nat} {r : Reg} (h : S → i + 8 ≤ d.len) :
    K.Wp S X (pack_i32_8x d i r) (fun _ => i + 8 ≤ d.len) := K.Wp.store (by omega) h

theorem rgb_to_nv12_avx2_wp (s : Sampler) (c : Colorimetry) {w h ss ys uvs : Nat} {src : Buf}
    {yp uvp : Dst} (hw : 0 < w) (hh : 0 < h) (hw8 : w % 8 = 0) (hh2 : h % 2 = 0)
    (hS : S → Ext src.len ss (s.pf.depth * (w - 8) + 32) h ∧ Ext yp.len ys w h ∧
      Ext uvp.len uvs w (h / 2)) :
    K.Wp S X (rgb_to_nv12_avx2 exactIx s s.pf.depth c w h ss src ys uvs yp uvp) (fun _ =>
      Ext src.len ss (s.pf.depth * (w - 8) + 32) h ∧ Ext yp.len ys w h ∧
      Ext uvp.len uvs w (h / 2)) := by
  unfold rgb_to_nv12_avx2
  simp only [wg_eq, K.liftM_eq, K.lift_ok, pure_bind, RGB_TO_YUV_WAVES, LANE_COUNT, Nat.reduceDiv]
  refine (K.Wp.grid (P := fun y x => ss * (2 * y + 1) + s.pf.depth * 8 * x + 32 ≤ src.len ∧
    ys * (2 * y + 1) + 8 * x + 8 ≤ yp.len ∧ uvs * y + 8 * x + 8 ≤ uvp.len)
    fun y hy x hx => ?_).mono fun _ hp => ?_
  · have o : S → ss * (2 * y) + s.pf.depth * 8 * x + 32 ≤ src.len ∧
        ss * (2 * y + 1) + s.pf.depth * 8 * x + 32 ≤ src.len ∧
        ys * (2 * y) + 8 * x + 8 ≤ yp.len ∧ ys * (2 * y + 1) + 8 * x + 8 ≤ yp.len ∧
        uvs * y + 8 * x + 8 ≤ uvp.len := by
      intro hs
      obtain ⟨h1, h2, h3⟩ := hS hs
      have h1' := h1.at (y := 2 * y) (by omega)
      have h2' := h2.at (y := 2 * y) (by omega)
      have h1 := h1.at (y := 2 * y + 1) (by omega)
      have h2 := h2.at (y := 2 * y + 1) (by omega)
      have h3 := h3.at hy
      have : s.pf.depth * 8 * x ≤ s.pf.depth * (w - 8) := by
        rw [Nat.mul_assoc]; exact Nat.mul_le_mul_left _ (by omega)
      omega
    unfold rgb_to_yuv_8x
    refine K.Wp.bind (unpack3_wp fun s => (o s).1) fun _ _ => ?_
    refine K.Wp.bind (pack_i32_8x_wp (by wpo o)) fun _ _ => ?_
    refine K.Wp.bind (unpack3_wp fun s => (o s).2.1) fun _ h1 => ?_
    refine K.Wp.bind (pack_i32_8x_wp (by wpo o)) fun _ h2 => ?_
    exact (pack_i32_8x_wp (by wpo o)).mono fun _ h3 => ⟨h1, h2, h3⟩
  · have := hp (h / 2 - 1) (by omega) (w / 8 - 1) (by omega)
    rw [show 2 * (h / 2 - 1) + 1 = h - 1 by omega, Nat.mul_assoc,
      show 8 * (w / 8 - 1) = w - 8 by omega] at this
    unfold Ext
    omega

theorem rgb_to_i420_avx2_wp (s : Sampler) (c : Colorimetry) {w h ss ys us vs : Nat} {src : Buf}
    {yp up vp : Dst} (hw : 0 < w) (hh : 0 < h) (hw8 : w % 8 = 0) (hh2 : h % 2 = 0)
    (hS : S → Ext src.len ss (s.pf.depth * (w - 8) + 32) h ∧ Ext yp.len ys w h ∧
      Ext up.len us (w / 2) (h / 2) ∧ Ext vp.len vs (w / 2) (h / 2)) :
    K.Wp S X (rgb_to_i420_avx2 exactIx s s.pf.depth c w h ss src ys us vs yp up vp) (fun _ =>
      Ext src.len ss (s.pf.depth * (w - 8) + 32) h ∧ Ext yp.len ys w h ∧
      Ext up.len us (w / 2) (h / 2) ∧ Ext vp.len vs (w / 2) (h / 2)) := by
  unfold rgb_to_i420_avx2
  simp only [wg_eq, K.liftM_eq, K.lift_ok, pure_bind, RGB_TO_YUV_WAVES, LANE_COUNT, Nat.reduceDiv]
  refine (K.Wp.grid (P := fun y x => ss * (2 * y + 1) + s.pf.depth * 8 * x + 32 ≤ src.len ∧
    ys * (2 * y + 1) + 8 * x + 8 ≤ yp.len ∧ us * y + 4 * x + 4 ≤ up.len ∧
    vs * y + 4 * x + 4 ≤ vp.len)
    fun y hy x hx => ?_).mono fun _ hp => ?_
  · have o : S → ss * (2 * y) + s.pf.depth * 8 * x + 32 ≤ src.len ∧
        ss * (2 * y + 1) + s.pf.depth * 8 * x + 32 ≤ src.len ∧
        ys * (2 * y) + 8 * x + 8 ≤ yp.len ∧ ys * (2 * y + 1) + 8 * x + 8 ≤ yp.len ∧
        us * y + 4 * x + 4 ≤ up.len ∧ vs * y + 4 * x + 4 ≤ vp.len := by
      intro hs
      obtain ⟨h1, h2, h3, h4⟩ := hS hs
      have h1' := h1.at (y := 2 * y) (by omega)
      have h2' := h2.at (y := 2 * y) (by omega)
      have h1 := h1.at (y := 2 * y + 1) (by omega)
      have h2 := h2.at (y := 2 * y + 1) (by omega)
      have h3 := h3.at hy
      have h4 := h4.at hy
      have : s.pf.depth * 8 * x ≤ s.pf.depth * (w - 8) := by
        rw [Nat.mul_assoc]; exact Nat.mul_le_mul_left _ (by omega)
      omega
    unfold rgb_to_i420_8x
    refine K.Wp.bind (unpack3_wp fun s => (o s).1) fun _ _ => ?_
    refine K.Wp.bind (pack_i32_8x_wp (by wpo o)) fun _ _ => ?_
    refine K.Wp.bind (unpack3_wp fun s => (o s).2.1) fun _ h1 => ?_
    refine K.Wp.bind (pack_i32_8x_wp (by wpo o)) fun _ h2 => ?_
    refine K.Wp.bind (K.Wp.store (by omega) (by wpo o)) fun _ h3 => ?_
    exact (K.Wp.store (by omega) (by wpo o)).mono fun _ h4 => ⟨h1, h2, h3, h4⟩
  · have := hp (h / 2 - 1) (by omega) (w / 8 - 1) (by omega)
    rw [show 2 * (h / 2 - 1) + 1 = h - 1 by omega, Nat.mul_assoc,
      show 8 * (w / 8 - 1) = w - 8 by omega] at this
    unfold Ext
    omega

theorem rgb_to_i444_avx2_wp (s : Sampler) (c : Colorimetry) {w h ss ys us vs : Nat} {src : Buf}
    {yp up vp : Dst} (hw : 0 < w) (hh : 0 < h) (hw8 : w % 8 = 0)
    (hS : S → Ext src.len ss (s.pf.depth * (w - 8) + 32) h ∧ Ext yp.len ys w h ∧
      Ext up.len us w h ∧ Ext vp.len vs w h) :
    K.Wp S X (rgb_to_i444_avx2 exactIx s s.pf.depth c w h ss src ys us vs yp up vp) (fun _ =>
      Ext src.len ss (s.pf.depth * (w - 8) + 32) h ∧ Ext yp.len ys w h ∧
      Ext up.len us w h ∧ Ext vp.len vs w h) := by
  unfold rgb_to_i444_avx2
  simp only [wg_eq, K.liftM_eq, K.lift_ok, pure_bind, RGB_TO_YUV_WAVES, LANE_COUNT, Nat.reduceDiv]
  refine (K.Wp.grid (P := fun y x => ss * y + s.pf.depth * 8 * x + 32 ≤ src.len ∧
    ys * y + 8 * x + 8 ≤ yp.len ∧ us * y + 8 * x + 8 ≤ up.len ∧ vs * y + 8 * x + 8 ≤ vp.len)
    fun y hy x hx => ?_).mono fun _ hp => ?_
  · have o : S → ss * y + s.pf.depth * 8 * x + 32 ≤ src.len ∧
        ys * y + 8 * x + 8 ≤ yp.len ∧ us * y + 8 * x + 8 ≤ up.len ∧ vs * y + 8 * x + 8 ≤ vp.len := by
      intro hs
      obtain ⟨h1, h2, h3, h4⟩ := hS hs
      have h1 := h1.at hy
      have h2 := h2.at hy
      have h3 := h3.at hy
      have h4 := h4.at hy
      have : s.pf.depth * 8 * x ≤ s.pf.depth * (w - 8) := by
        rw [Nat.mul_assoc]; exact Nat.mul_le_mul_left _ (by omega)
      omega
    unfold rgb_to_i444_8x
    refine K.Wp.bind (unpack3_wp fun s => (o s).1) fun _ h1 => ?_
    refine K.Wp.bind (pack_i32_8x_wp (by wpo o)) fun _ h2 => ?_
    refine K.Wp.bind (pack_i32_8x_wp (by wpo o)) fun _ h3 => ?_
    exact (pack_i32_8x_wp (by wpo o)).mono fun _ h4 => ⟨h1, h2, h3, h4⟩
  · have := hp (h - 1) (by omega) (w / 8 - 1) (by omega)
    rw [Nat.mul_assoc, show 8 * (w / 8 - 1) = w - 8 by omega] at this
    unfold Ext
    omega

/-! ## Decoders -/

theorem pack_i16x3_16x_wp {rev : Bool} {d : Dst} {i : Nat} {r g b : Reg} (h : S → i + 64 ≤ d.len) :
    K.Wp S X (pack_i16x3_16x rev d i r g b) (fun _ => i + 64 ≤ d.len) := by
  unfold pack_i16x3_16x
  refine K.Wp.bind (K.Wp.store (by omega) (by wpo h)) fun _ _ => ?_
  exact (K.Wp.store (by omega) (by wpo h)).mono fun _ h => by omega

theorem pack_rgb_16x_wp {d : Dst} {i : Nat} {r g b : Reg} (h : S → i + 48 ≤ d.len) :
    K.Wp S X (pack_rgb_16x d i r g b) (fun _ => i + 48 ≤ d.len) := by
  unfold pack_rgb_16x
  refine K.Wp.bind (K.Wp.store (by omega) (by wpo h)) fun _ h1 => ?_
  exact (K.Wp.store (by omega) (by wpo h)).mono fun _ _ => by omega

theorem block_32x2_wp {k : Back} {cb cr : Reg} {yb : Buf} {y0 y1 : Nat} {d : Dst}
    {put : Nat → Reg → Reg → Reg → K Unit} {n : Nat}
    (hput : ∀ i r g b, (S → i + n ≤ d.len) → K.Wp S X (put i r g b) (fun _ => i + n ≤ d.len))
    {d00 d10 d01 d11 : Nat} (o : S → (y0 + 32 ≤ yb.len ∧ y1 + 32 ≤ yb.len) ∧ d00 + n ≤ d.len ∧
      d10 + n ≤ d.len ∧ d01 + n ≤ d.len ∧ d11 + n ≤ d.len) :
    K.Wp S X (block_32x2 k put cb cr yb (.ok y0) (.ok y1) (.ok d00) (.ok d10) (.ok d01) (.ok d11))
      (fun _ => y1 + 32 ≤ yb.len ∧ d11 + n ≤ d.len) := by
  unfold block_32x2
  simp only [K.liftM_eq, K.lift_ok, pure_bind]
  refine K.Wp.bind (K.Wp.load (by wpo o)) fun _ _ => ?_
  refine K.Wp.bind (hput _ _ _ _ (by wpo o)) fun _ _ => ?_
  refine K.Wp.bind (hput _ _ _ _ (by wpo o)) fun _ _ => ?_
  refine K.Wp.bind (K.Wp.load (by wpo o)) fun _ h1 => ?_
  refine K.Wp.bind (hput _ _ _ _ (by wpo o)) fun _ _ => ?_
  exact (hput _ _ _ _ (by wpo o)).mono fun _ h2 => ⟨h1, h2⟩

theorem nv12_to_bgra_avx2_wp (c : Colorimetry) (rev : Bool) {w h ys uvs ds : Nat}
    {yb uvb : Buf} {d : Dst} (hw : 0 < w) (hh : 0 < h) (hw32 : w % 32 = 0) (hh2 : h % 2 = 0)
    (hS : S → Ext yb.len ys w h ∧ Ext uvb.len uvs w (h / 2) ∧ Ext d.len ds (w * 4) h) :
    K.Wp S X (nv12_to_bgra_avx2 exactIx c rev w h ys uvs yb uvb ds d) (fun _ =>
      Ext yb.len ys w h ∧ Ext uvb.len uvs w (h / 2) ∧ Ext d.len ds (w * 4) h) := by
  unfold nv12_to_bgra_avx2
  simp only [wg_eq, K.liftM_eq, K.lift_ok, pure_bind, YUV_TO_RGB_WAVES, LANE_COUNT, Nat.reduceDiv, Nat.reduceMul]
  refine (K.Wp.grid (P := fun y x => uvs * y + 32 * x + 32 ≤ uvb.len ∧
    ys * (2 * y + 1) + 32 * x + 32 ≤ yb.len ∧
    ds * (2 * y + 1) + 64 * (2 * x + 1) + 64 ≤ d.len) fun y hy x hx => ?_).mono fun _ hp => ?_
  · have o : S → uvs * y + 32 * x + 32 ≤ uvb.len ∧ ys * (2 * y) + 32 * x + 32 ≤ yb.len ∧
        ys * (2 * y + 1) + 32 * x + 32 ≤ yb.len ∧
        ds * (2 * y) + 64 * (2 * x + 1) + 64 ≤ d.len ∧
        ds * (2 * y + 1) + 64 * (2 * x + 1) + 64 ≤ d.len := by
      intro hs
      obtain ⟨h1, h2, h4⟩ := hS hs
      have h1' := h1.at (y := 2 * y) (by omega)
      have h1 := h1.at (y := 2 * y + 1) (by omega)
      have h2 := h2.at hy
      have h4' := h4.at (y := 2 * y) (by omega)
      have h4 := h4.at (y := 2 * y + 1) (by omega)
      omega
    unfold unpack_ui8x2_i16be_16x
    simp only [bind_assoc, pure_bind]
    refine K.Wp.bind (K.Wp.load (by wpo o)) fun _ h1 => ?_
    exact (block_32x2_wp (fun _ _ _ _ => pack_i16x3_16x_wp) (by wpo o)).mono fun _ h2 => ⟨h1, h2⟩
  · have := hp (h / 2 - 1) (by omega) (w / 32 - 1) (by omega)
    rw [show 2 * (h / 2 - 1) + 1 = h - 1 by omega] at this
    unfold Ext
    omega

theorem nv12_to_rgb_avx2_wp (c : Colorimetry) {w h ys uvs ds : Nat}
    {yb uvb : Buf} {d : Dst} (hw : 0 < w) (hh : 0 < h) (hw32 : w % 32 = 0) (hh2 : h % 2 = 0)
    (hS : S → Ext yb.len ys w h ∧ Ext uvb.len uvs w (h / 2) ∧ Ext d.len ds (w * 3) h) :
    K.Wp S X (nv12_to_rgb_avx2 exactIx c w h ys uvs yb uvb ds d) (fun _ =>
      Ext yb.len ys w h ∧ Ext uvb.len uvs w (h / 2) ∧ Ext d.len ds (w * 3) h) := by
  unfold nv12_to_rgb_avx2
  simp only [wg_eq, K.liftM_eq, K.lift_ok, pure_bind, YUV_TO_RGB_WAVES, LANE_COUNT, Nat.reduceDiv]
  refine (K.Wp.grid (P := fun y x => uvs * y + 32 * x + 32 ≤ uvb.len ∧
    ys * (2 * y + 1) + 32 * x + 32 ≤ yb.len ∧
    ds * (2 * y + 1) + 48 * (2 * x + 1) + 48 ≤ d.len) fun y hy x hx => ?_).mono fun _ hp => ?_
  · have o : S → uvs * y + 32 * x + 32 ≤ uvb.len ∧ ys * (2 * y) + 32 * x + 32 ≤ yb.len ∧
        ys * (2 * y + 1) + 32 * x + 32 ≤ yb.len ∧
        ds * (2 * y) + 48 * (2 * x + 1) + 48 ≤ d.len ∧
        ds * (2 * y + 1) + 48 * (2 * x + 1) + 48 ≤ d.len := by
      intro hs
      obtain ⟨h1, h2, h4⟩ := hS hs
      have h1' := h1.at (y := 2 * y) (by omega)
      have h1 := h1.at (y := 2 * y + 1) (by omega)
      have h2 := h2.at hy
      have h4' := h4.at (y := 2 * y) (by omega)
      have h4 := h4.at (y := 2 * y + 1) (by omega)
      omega
    unfold unpack_ui8x2_i16be_16x
    simp only [bind_assoc, pure_bind]
    refine K.Wp.bind (K.Wp.load (by wpo o)) fun _ h1 => ?_
    exact (block_32x2_wp (fun _ _ _ _ => pack_rgb_16x_wp) (by wpo o)).mono fun _ h2 => ⟨h1, h2⟩
  · have := hp (h / 2 - 1) (by omega) (w / 32 - 1) (by omega)
    rw [show 2 * (h / 2 - 1) + 1 = h - 1 by omega] at this
    unfold Ext
    omega

theorem i420_to_bgra_avx2_wp (c : Colorimetry) (rev : Bool) {w h ys us vs ds : Nat}
    {yb ub vb : Buf} {d : Dst} (hw : 0 < w) (hh : 0 < h) (hw32 : w % 32 = 0) (hh2 : h % 2 = 0)
    (hS : S → Ext yb.len ys w h ∧ Ext ub.len us (w / 2) (h / 2) ∧ Ext vb.len vs (w / 2) (h / 2) ∧
      Ext d.len ds (w * 4) h) :
    K.Wp S X (i420_to_bgra_avx2 exactIx c rev w h ys us vs yb ub vb ds d) (fun _ =>
      Ext yb.len ys w h ∧ Ext ub.len us (w / 2) (h / 2) ∧ Ext vb.len vs (w / 2) (h / 2) ∧
      Ext d.len ds (w * 4) h) := by
  unfold i420_to_bgra_avx2
  simp only [wg_eq, K.liftM_eq, K.lift_ok, pure_bind, YUV_TO_RGB_WAVES, LANE_COUNT, Nat.reduceDiv, Nat.reduceMul]
  refine (K.Wp.grid (P := fun y x => us * y + 16 * x + 16 ≤ ub.len ∧
    vs * y + 16 * x + 16 ≤ vb.len ∧
    ys * (2 * y + 1) + 32 * x + 32 ≤ yb.len ∧
    ds * (2 * y + 1) + 64 * (2 * x + 1) + 64 ≤ d.len) fun y hy x hx => ?_).mono fun _ hp => ?_
  · have o : S → us * y + 16 * x + 16 ≤ ub.len ∧ vs * y + 16 * x + 16 ≤ vb.len ∧
        ys * (2 * y) + 32 * x + 32 ≤ yb.len ∧
        ys * (2 * y + 1) + 32 * x + 32 ≤ yb.len ∧
        ds * (2 * y) + 64 * (2 * x + 1) + 64 ≤ d.len ∧
        ds * (2 * y + 1) + 64 * (2 * x + 1) + 64 ≤ d.len := by
      intro hs
      obtain ⟨h1, h2, h3, h4⟩ := hS hs
      have h1' := h1.at (y := 2 * y) (by omega)
      have h1 := h1.at (y := 2 * y + 1) (by omega)
      have h2 := h2.at hy
      have h3 := h3.at hy
      have h4' := h4.at (y := 2 * y) (by omega)
      have h4 := h4.at (y := 2 * y + 1) (by omega)
      omega
    unfold unpack_ui8_i16be_16x
    simp only [bind_assoc, pure_bind]
    refine K.Wp.bind (K.Wp.load (by wpo o)) fun _ h1 => ?_
    refine K.Wp.bind (K.Wp.load (by wpo o)) fun _ h2 => ?_
    exact (block_32x2_wp (fun _ _ _ _ => pack_i16x3_16x_wp) (by wpo o)).mono fun _ h3 => ⟨h1, h2, h3⟩
  · have := hp (h / 2 - 1) (by omega) (w / 32 - 1) (by omega)
    rw [show 2 * (h / 2 - 1) + 1 = h - 1 by omega] at this
    unfold Ext
    omega

theorem i444_to_bgra_avx2_wp (c : Colorimetry) (rev : Bool) {w h ys us vs ds : Nat}
    {yb ub vb : Buf} {d : Dst} (hw : 0 < w) (hh : 0 < h) (hw16 : w % 16 = 0)
    (hS : S → Ext yb.len ys w h ∧ Ext ub.len us w h ∧ Ext vb.len vs w h ∧ Ext d.len ds (w * 4) h) :
    K.Wp S X (i444_to_bgra_avx2 exactIx c rev w h ys us vs yb ub vb ds d) (fun _ =>
      Ext yb.len ys w h ∧ Ext ub.len us w h ∧ Ext vb.len vs w h ∧ Ext d.len ds (w * 4) h) := by
  unfold i444_to_bgra_avx2
  simp only [wg_eq, K.liftM_eq, K.lift_ok, pure_bind, YUV_TO_RGB_WAVES, LANE_COUNT, Nat.reduceDiv, Nat.reduceMul]
  refine (K.Wp.grid (P := fun y x => us * y + 16 * x + 16 ≤ ub.len ∧
    vs * y + 16 * x + 16 ≤ vb.len ∧ ys * y + 16 * x + 16 ≤ yb.len ∧
    ds * y + 64 * x + 64 ≤ d.len) fun y hy x hx => ?_).mono fun _ hp => ?_
  · have o : S → us * y + 16 * x + 16 ≤ ub.len ∧
        vs * y + 16 * x + 16 ≤ vb.len ∧ ys * y + 16 * x + 16 ≤ yb.len ∧
        ds * y + 64 * x + 64 ≤ d.len := by
      intro hs
      obtain ⟨h1, h2, h3, h4⟩ := hS hs
      have h1 := h1.at hy
      have h2 := h2.at hy
      have h3 := h3.at hy
      have h4 := h4.at hy
      omega
    refine K.Wp.bind (K.Wp.load (by wpo o)) fun _ h1 => ?_
    refine K.Wp.bind (K.Wp.load (by wpo o)) fun _ h2 => ?_
    refine K.Wp.bind (K.Wp.load (by wpo o)) fun _ h3 => ?_
    exact (pack_i16x3_16x_wp (by wpo o)).mono fun _ h4 => ⟨h1, h2, h3, h4⟩
  · have := hp (h - 1) (by omega) (w / 16 - 1) (by omega)
    unfold Ext
    omega

/-! ## RGB to RGB -/

theorem rgb_to_bgra_avx2_wp {t : Target} {w h ss ds : Nat} {src : Buf} {d : Dst} (hw : 0 < w)
    (hh : 0 < h) (hw32 : w % 32 = 0)
    (hn : t.checked = false ∨ (3 * w ≤ ss ∧ 4 * w ≤ ds)) (hs : src.len + ss < 2 ^ t.bits)
    (hd : d.len + ds < 2 ^ t.bits)
    (o : S → Ext src.len ss (w * 3) h ∧ Ext d.len ds (w * 4) h) :
    K.Wp S X (rgb_to_bgra_avx2 t w h ss src ds d) (fun _ =>
      Ext src.len ss (w * 3) h ∧ Ext d.len ds (w * 4) h) := by
  obtain ⟨m, sd, m1, e1, -, a1, -⟩ :=
    X86.gap (hn.imp_right And.left) (show ss < 2 ^ t.bits by omega)
  obtain ⟨n, dd, m2, e2, -, a2, -⟩ :=
    X86.gap (hn.imp_right And.right) (show ds < 2 ^ t.bits by omega)
  unfold rgb_to_bgra_avx2
  simp only [K.liftM_eq, m1, m2, K.lift_ok, pure_bind, e1, e2, LANE_COUNT]
  rw [show (w + (32 - 1)) / 32 = w / 32 by omega]
  refine K.Wp.bind (K.Wp.iterK (I := fun y s => s = (ss * y, ds * y) ∧ (0 < y →
    ss * (y - 1) + w * 3 ≤ src.len ∧ ds * (y - 1) + w * 4 ≤ d.len)) ⟨by simp, by omega⟩ ?_)
    fun _ hp => K.Wp.pure (hp.2 hh)
  rintro y s hy ⟨rfl, -⟩
  have o : S → ss * y + w * 3 ≤ src.len ∧ ds * y + w * 4 ≤ d.len := fun hs =>
    ⟨(o hs).1.at hy, (o hs).2.at hy⟩
  refine K.Wp.bind (K.Wp.iterK (I := fun i s => s = (ss * y + 96 * i, ds * y + 128 * i) ∧ (0 < i →
    ss * y + 96 * i ≤ src.len ∧ ds * y + 128 * i ≤ d.len)) ⟨by simp, by omega⟩ ?_) ?_
  · rintro i s hi ⟨rfl, -⟩
    have o1 : S → ss * y + 96 * i + 96 ≤ src.len ∧ ds * y + 128 * i + 128 ≤ d.len := by wpo o
    unfold rgb_to_bgra_32
    simp only [bind_assoc]
    refine K.Wp.bind (K.Wp.load (by wpo o1)) fun _ _ => ?_
    refine K.Wp.bind (K.Wp.load (by wpo o1)) fun _ _ => ?_
    refine K.Wp.bind (K.Wp.store (by omega) (by wpo o1)) fun _ _ => ?_
    refine K.Wp.bind (K.Wp.store (by omega) (by wpo o1)) fun _ _ => ?_
    refine K.Wp.bind (K.Wp.load (by wpo o1)) fun _ h1 => ?_
    refine K.Wp.bind (K.Wp.store (by omega) (by wpo o1)) fun _ _ => ?_
    refine K.Wp.bind (K.Wp.store (by omega) (by wpo o1)) fun _ h2 => K.Wp.pure ⟨?_, fun _ => ?_⟩
    · simp only [Prod.mk.injEq]; omega
    · omega
  · rintro s ⟨rfl, hm⟩
    have hm := hm (by omega)
    simp only
    rw [show ss * y + 96 * (w / 32) = ss * y + 3 * w by omega,
      show ds * y + 128 * (w / 32) = ds * y + 4 * w by omega, a1 _ _ (by omega) hs,
      a2 _ _ (by omega) hd]
    simp only [K.lift_ok, pure_bind]
    refine K.Wp.pure ⟨?_, fun _ => ?_⟩
    · simp only [Prod.mk.injEq, Nat.mul_add]; omega
    · rw [Nat.add_sub_cancel]; omega

theorem bgr_to_rgb_avx2_wp {w h ss ds : Nat} {src : Buf} {d : Dst} (hw : 0 < w)
    (hh : 0 < h) (hw32 : w % 32 = 0)
    (o : S → Ext src.len ss (w * 3) h ∧ Ext d.len ds (w * 3) h) :
    K.Wp S X (bgr_to_rgb_avx2 exactMul w h ss src ds d) (fun _ =>
      Ext src.len ss (w * 3) h ∧ Ext d.len ds (w * 3) h) := by
  unfold bgr_to_rgb_avx2
  simp only [exactMul, K.liftM_eq, K.lift_ok, pure_bind]
  simp only [LANE_COUNT]
  rw [show (w + (32 - 1)) / 32 = w / 32 by omega]
  refine (K.Wp.forK (P := fun y => ss * y + w * 3 ≤ src.len ∧ ds * y + w * 3 ≤ d.len)
    fun y hy => ?_).mono fun _ hp => hp (h - 1) (by omega)
  have o : S → ss * y + w * 3 ≤ src.len ∧ ds * y + w * 3 ≤ d.len := fun hs =>
    ⟨(o hs).1.at hy, (o hs).2.at hy⟩
  refine K.Wp.bind (K.Wp.iterK (I := fun i s => s = (ss * y + 96 * i, ds * y + 96 * i) ∧ (0 < i →
    ss * y + 96 * i ≤ src.len ∧ ds * y + 96 * i ≤ d.len)) ⟨by simp, by omega⟩ ?_) ?_
  · rintro i s hi ⟨rfl, -⟩
    have o1 : S → ss * y + 96 * i + 96 ≤ src.len ∧ ds * y + 96 * i + 96 ≤ d.len := by wpo o
    unfold bgr_to_rgb_32
    simp only [bind_assoc]
    refine K.Wp.bind (K.Wp.load (by wpo o1)) fun _ _ => ?_
    refine K.Wp.bind (K.Wp.load (by wpo o1)) fun _ _ => ?_
    refine K.Wp.bind (K.Wp.load (by wpo o1)) fun _ h1 => ?_
    refine K.Wp.bind (K.Wp.store (by omega) (by wpo o1)) fun _ _ => ?_
    refine K.Wp.bind (K.Wp.store (by omega) (by wpo o1)) fun _ _ => ?_
    refine K.Wp.bind (K.Wp.store (by omega) (by wpo o1)) fun _ h2 => K.Wp.pure ⟨?_, fun _ => ?_⟩
    · simp only [Prod.mk.injEq]; omega
    · omega
  · rintro s ⟨rfl, hm⟩
    have hm := hm (by omega)
    refine K.Wp.pure ?_
    omega

/-- The product overflows, or it is exact; if the caller does not care it may also wrap. -/
theorem mul_wp {t : Target} {a b : Nat} {Z : Prop}
    (hZ : Z → a * b < 2 ^ t.bits) (hX : t.checked = true → 2 ^ t.bits ≤ a * b → X) :
    K.Wp S X (K.lift (t.mul a b)) (fun v => Z → v = a * b) := by
  by_cases h : a * b < 2 ^ t.bits
  · exact K.Wp.lift (X86.mul_ok h) fun _ => rfl
  · unfold Target.mul
    rw [if_neg h]
    split
    · rename_i hc
      exact .inr ⟨rfl, hX hc (by omega)⟩
    · exact fun z => absurd (hZ z) h

/-- Groups of eight pixels of one line. -/
theorem bgra_line_wp {w : Nat} {src : Buf} {d : Dst} {so e : Nat} (hw : w < 2 ^ 32)
    (o : S → 8 ≤ w → so + 4 * (8 * (w / 8)) ≤ src.len ∧ e + 3 * (8 * (w / 8)) ≤ d.len) :
    K.Wp S X (do
      let s ← whileK w (fun s => s.x < lower_multiple_of_pot w LANE_COUNT)
        (bgra_to_rgb_4x src d) ⟨0, so, e⟩
      let _ ← whileK w (fun s => s.x < lower_multiple_of_pot w 8) (bgra_to_rgb_1x src d) s
      return ()) (fun _ => 8 ≤ w → so + 4 * (8 * (w / 8)) ≤ src.len ∧
        e + 3 * (8 * (w / 8)) ≤ d.len) := by
  have h8 : lower_multiple_of_pot w 8 = 8 * (w / 8) := lower_multiple (k := 3) hw (by omega)
  have h32 : lower_multiple_of_pot w LANE_COUNT = 32 * (w / 32) :=
    lower_multiple (k := 5) hw (by omega)
  simp only [h8, h32]
  refine K.Wp.bind (K.Wp.whileK (n := w / 32) (I := fun i s => s = ⟨32 * i, so + 128 * i, e + 96 * i⟩ ∧
    (0 < i → so + 128 * i ≤ src.len ∧ e + 96 * i ≤ d.len)) (by omega) ⟨rfl, by omega⟩ ?_ ?_) ?_
  · rintro i s hi ⟨rfl, -⟩
    refine ⟨by simp only [decide_eq_true_eq]; omega, ?_⟩
    have o1 : S → so + 128 * i + 128 ≤ src.len ∧ e + 96 * i + 96 ≤ d.len := fun hs => by
      have := o hs (by omega)
      omega
    unfold bgra_to_rgb_4x
    dsimp only
    refine K.Wp.bind (K.Wp.load (by wpo o1)) fun _ _ => ?_
    refine K.Wp.bind (K.Wp.load (by wpo o1)) fun _ _ => ?_
    refine K.Wp.bind (K.Wp.load (by wpo o1)) fun _ _ => ?_
    refine K.Wp.bind (K.Wp.load (by wpo o1)) fun _ h1 => ?_
    refine K.Wp.bind (K.Wp.store (by omega) (by wpo o1)) fun _ _ => ?_
    refine K.Wp.bind (K.Wp.store (by omega) (by wpo o1)) fun _ _ => ?_
    refine K.Wp.bind (K.Wp.store (by omega) (by wpo o1)) fun _ h2 => K.Wp.pure ⟨?_, fun _ => ?_⟩
    · simp only [X86.Cur.mk.injEq, LANE_COUNT]; omega
    · omega
  · rintro s ⟨rfl, -⟩
    simp only [decide_eq_false_iff_not]; omega
  rintro s ⟨rfl, hm⟩
  refine K.Wp.bind (K.Wp.whileK (n := w / 8 - 4 * (w / 32))
    (I := fun i s => s = ⟨32 * (w / 32) + 8 * i, so + 4 * (32 * (w / 32) + 8 * i),
        e + 3 * (32 * (w / 32) + 8 * i)⟩ ∧
    (0 < 32 * (w / 32) + i → so + 4 * (32 * (w / 32) + 8 * i) ≤ src.len ∧
      e + 3 * (32 * (w / 32) + 8 * i) ≤ d.len)) (by omega) ⟨?_, ?_⟩ ?_ ?_) ?_
  · simp only [X86.Cur.mk.injEq]; omega
  · omega
  · rintro i s hi ⟨rfl, -⟩
    refine ⟨by simp only [decide_eq_true_eq]; omega, ?_⟩
    have o1 : S → so + 4 * (32 * (w / 32) + 8 * i) + 32 ≤ src.len ∧
        e + 3 * (32 * (w / 32) + 8 * i) + 24 ≤ d.len := fun hs => by
      have := o hs (by omega)
      omega
    unfold bgra_to_rgb_1x
    dsimp only
    refine K.Wp.bind (K.Wp.load (by wpo o1)) fun _ h1 => ?_
    refine K.Wp.bind (K.Wp.store (by omega) (by wpo o1)) fun _ _ => ?_
    refine K.Wp.bind (K.Wp.store (by omega) (by wpo o1)) fun _ h2 => K.Wp.pure ⟨?_, fun _ => ?_⟩
    · simp only [X86.Cur.mk.injEq]; omega
    · omega
  · rintro s ⟨rfl, -⟩
    simp only [decide_eq_false_iff_not]; omega
  rintro s ⟨-, hm'⟩
  refine K.Wp.pure fun h => ?_
  omega

theorem bgra_to_rgb_px_wp {src : Buf} {d : Dst} {so e y : Nat}
    (o : S → so + 4 * y + 3 ≤ src.len ∧ e + 3 * y + 3 ≤ d.len) :
    K.Wp S X (bgra_to_rgb_px src d so e y)
      (fun _ => so + 4 * y + 3 ≤ src.len ∧ e + 3 * y + 3 ≤ d.len) := by
  unfold bgra_to_rgb_px
  refine K.Wp.bind (K.Wp.rd (by wpo o)) fun _ h1 => ?_
  refine K.Wp.bind (K.Wp.wr (by wpo o)) fun _ _ => ?_
  refine K.Wp.bind (K.Wp.rd (by wpo o)) fun _ _ => ?_
  refine K.Wp.bind (K.Wp.wr (by wpo o)) fun _ _ => ?_
  refine K.Wp.bind (K.Wp.rd (by wpo o)) fun _ _ => ?_
  refine (K.Wp.wr (by wpo o)).mono fun _ h2 => ?_
  omega

/-- The offset of a line can overflow before any access when the first loop handles no pixel. -/
def LateOverflow (t : Target) (w h ss ds : Nat) : Prop :=
  t.checked = true ∧ w < 8 ∧ (2 ^ t.bits ≤ ss * (h - 1) ∨ 2 ^ t.bits ≤ ds * (h - 1))

theorem bgra_to_rgb_avx2_wp {t : Target} {w h ss ds : Nat} {src : Buf} {d : Dst} (hw : 0 < w)
    (hw' : w < 2 ^ 32) (hh : 0 < h)
    (hn : t.checked = false ∨ (4 * w ≤ ss ∧ 3 * w ≤ ds)) (hs : src.len + ss < 2 ^ t.bits)
    (hd : d.len + ds < 2 ^ t.bits) (hX : LateOverflow t w h ss ds → X)
    (o : S → Ext src.len ss (X86.bgraEnd w) h ∧ Ext d.len ds (3 * w) h) :
    K.Wp S X (bgra_to_rgb_avx2 t w h ss src ds d) (fun _ =>
      Ext src.len ss (X86.bgraEnd w) h ∧ Ext d.len ds (3 * w) h) := by
  have h8 : lower_multiple_of_pot w 8 = 8 * (w / 8) := lower_multiple (k := 3) hw' (by omega)
  have o : S → ∀ y, y < h → ss * y + 4 * w ≤ src.len + 1 ∧ (w % 8 = 0 → ss * y + 4 * w ≤ src.len) ∧
      ds * y + 3 * w ≤ d.len := by
    intro hs y hy
    have h1 := (o hs).1.at hy
    have h2 := (o hs).2.at hy
    unfold X86.bgraEnd at h1
    split at h1 <;> omega
  obtain ⟨m, sd, m1, e1, z1, -, -⟩ :=
    X86.gap (hn.imp_right And.left) (show ss < 2 ^ t.bits by omega)
  obtain ⟨n, dd, m2, e2, z2, -, -⟩ :=
    X86.gap (hn.imp_right And.right) (show ds < 2 ^ t.bits by omega)
  unfold bgra_to_rgb_avx2
  simp only [K.liftM_eq, m1, m2, K.lift_ok, pure_bind, e1, e2, z1, z2]
  refine K.Wp.bind (K.Wp.forK' (P := fun y => 8 ≤ w → ss * y + 4 * (8 * (w / 8)) ≤ src.len ∧
    ds * y + 3 * (8 * (w / 8)) ≤ d.len) fun y hy hprev => ?_) fun _ hv => ?_
  · have b : 8 ≤ w → ss * y < 2 ^ t.bits ∧ ds * y < 2 ^ t.bits := by
      intro h8
      rcases y with _ | y
      · simp
      · have := hprev y (by omega) h8
        rw [Nat.mul_add, Nat.mul_add]
        omega
    have m1 : ss * y ≤ ss * (h - 1) := Nat.mul_le_mul_left _ (by omega)
    have m2 : ds * y ≤ ds * (h - 1) := Nat.mul_le_mul_left _ (by omega)
    refine K.Wp.bind (mul_wp (Z := 8 ≤ w) (fun h => (b h).1) fun hc ho => hX ⟨hc, ?_, .inl ?_⟩)
      fun so hso => ?_
    · by_contra hn
      have := b (by omega)
      omega
    · omega
    refine K.Wp.bind (mul_wp (Z := 8 ≤ w) (fun h => (b h).2) fun hc ho => hX ⟨hc, ?_, .inr ?_⟩)
      fun e he => ?_
    · by_contra hn
      have := b (by omega)
      omega
    · omega
    refine (bgra_line_wp hw' ?_).mono ?_
    · intro hs h
      rw [hso h, he h]
      have := o hs y hy
      omega
    · intro _ hq h
      have := hq h
      rwa [hso h, he h] at this
  rw [h8]
  split
  · rename_i hl
    refine K.Wp.bind (K.Wp.iterK (I := fun y s => s = (ss * y, ds * y) ∧ (0 < y →
      ss * (y - 1) + 4 * w ≤ src.len + 1 ∧ ds * (y - 1) + 3 * w ≤ d.len)) ⟨by simp, by omega⟩ ?_)
      fun _ hp => K.Wp.pure ?_
    · rintro y s hy ⟨rfl, -⟩
      simp only
      refine K.Wp.bind (K.Wp.forFrom (P := fun x => ss * y + 4 * x + 3 ≤ src.len ∧
        ds * y + 3 * x + 3 ≤ d.len) fun x hx _ => bgra_to_rgb_px_wp fun hs => ?_) fun _ hm => ?_
      · have := o hs y hy
        omega
      · have := hm (w - 8 * (w / 8) - 1) (by omega)
        rw [X86.add_ok (by omega), X86.add_ok (by omega)]
        simp only [K.lift_ok, pure_bind]
        refine K.Wp.pure ⟨?_, fun _ => ?_⟩
        · simp only [Prod.mk.injEq, Nat.mul_add]; omega
        · rw [Nat.add_sub_cancel]; omega
    · have := hp.2 hh
      unfold X86.bgraEnd Ext
      rw [if_neg (by omega)]
      omega
  · have := hv (h - 1) (by omega) (by omega)
    refine K.Wp.pure ?_
    unfold X86.bgraEnd Ext
    rw [if_pos (by omega)]
    omega

/-- With overflow checks such an offset does overflow. -/
theorem late_overflow {t : Target} {w h ss ds : Nat} {src : Buf} {d : Dst} (hw' : w < 2 ^ 32)
    (hh : 0 < h) (hsw : 4 * w ≤ ss) (hdw : 3 * w ≤ ds) (hs : ss < 2 ^ t.bits) (hd : ds < 2 ^ t.bits)
    (hl : LateOverflow t w h ss ds) :
    K.Wp True True (bgra_to_rgb_avx2 t w h ss src ds d) (fun _ => False) := by
  obtain ⟨hc, h8, hl⟩ := hl
  unfold bgra_to_rgb_avx2
  simp only [K.liftM_eq, X86.mul_ok (t := t) (show 4 * w < 2 ^ t.bits by omega),
    X86.mul_ok (t := t) (show 3 * w < 2 ^ t.bits by omega), K.lift_ok, pure_bind]
  rw [X86.sub_ok hsw, X86.sub_ok hdw]
  simp only [K.lift_ok, pure_bind]
  rw [show t.add (4 * w) (ss - 4 * w) = .ok ss by rw [X86.add_ok (by omega)]; congr 1; omega,
    show t.add (3 * w) (ds - 3 * w) = .ok ds by rw [X86.add_ok (by omega)]; congr 1; omega]
  simp only [K.lift_ok, pure_bind]
  have mul : ∀ a b, K.Wp True True (K.lift (t.mul a b)) fun _ => a * b < 2 ^ t.bits := by
    intro a b
    unfold Target.mul
    split
    · rename_i h
      rw [K.lift_ok]
      exact K.Wp.pure h
    · exact .inr ⟨rfl, trivial⟩
  refine K.Wp.bind (K.Wp.forK' (P := fun y => ss * y < 2 ^ t.bits ∧ ds * y < 2 ^ t.bits)
    fun y hy hprev => ?_) fun _ hv => ?_
  · refine K.Wp.bind (mul _ _) fun so h1 => K.Wp.bind (mul _ _) fun e h2 => ?_
    exact (bgra_line_wp hw' fun _ h => by omega).mono fun _ _ => ⟨h1, h2⟩
  · have := hv (h - 1) (by omega)
    omega

/-! ## The kernels behind the wrappers -/

/-- Bytes of a line read by the vector encoders. -/
theorem vend_le (s : Sampler) {v : Nat} (hv : 0 < v) (hv8 : v % 8 = 0) :
    v * s.pf.depth ≤ s.pf.depth * (v - 8) + 32 := by
  cases s <;> simp only [Sampler.pf, PixelFormat.depth] <;> omega

theorem rgb_nv12_wp (s : Sampler) (c : Colorimetry) {w h ss ys uvs : Nat} {src : Buf}
    {yp uvp : Dst} (hdim : Dim w h) (hw2 : w % 2 = 0) (hh2 : h % 2 = 0)
    (o : S → Ext src.len ss (encEnd s (encode_part s.pf.depth w)
        (s.pf.depth * (encode_part s.pf.depth w - 8) + 32) w) h ∧ Ext yp.len ys w h ∧
      Ext uvp.len uvs w (h / 2)) :
    K.Wp S X (rgb_nv12 exactIx s s.pf.depth c w h ss src ys uvs yp uvp) (fun _ =>
      Ext src.len ss (encEnd s (encode_part s.pf.depth w)
        (s.pf.depth * (encode_part s.pf.depth w - 8) + 32) w) h ∧ Ext yp.len ys w h ∧
      Ext uvp.len uvs w (h / 2)) := by
  obtain ⟨hle, h4⟩ := encode_part_le s hdim.w_lt
  exact tail_rgb_nv12_wp s c hdim.w_pos hdim.h_pos hw2 hh2 hle (by omega) (fun hp => vend_le s hp h4)
    (fun hp o => rgb_to_nv12_avx2_wp s c hp hdim.h_pos h4 hh2 o) o

theorem rgb_i420_wp (s : Sampler) (c : Colorimetry) {w h ss ys us vs : Nat} {src : Buf}
    {yp up vp : Dst} (hdim : Dim w h) (hw2 : w % 2 = 0) (hh2 : h % 2 = 0)
    (o : S → Ext src.len ss (encEnd s (encode_part s.pf.depth w)
        (s.pf.depth * (encode_part s.pf.depth w - 8) + 32) w) h ∧ Ext yp.len ys w h ∧
      Ext up.len us (w / 2) (h / 2) ∧ Ext vp.len vs (w / 2) (h / 2)) :
    K.Wp S X (rgb_i420 exactIx s s.pf.depth c w h ss src ys us vs yp up vp) (fun _ =>
      Ext src.len ss (encEnd s (encode_part s.pf.depth w)
        (s.pf.depth * (encode_part s.pf.depth w - 8) + 32) w) h ∧ Ext yp.len ys w h ∧
      Ext up.len us (w / 2) (h / 2) ∧ Ext vp.len vs (w / 2) (h / 2)) := by
  obtain ⟨hle, h4⟩ := encode_part_le s hdim.w_lt
  exact tail_rgb_i420_wp s c hdim.w_pos hdim.h_pos hw2 hh2 hle (by omega) (fun hp => vend_le s hp h4)
    (fun hp o => rgb_to_i420_avx2_wp s c hp hdim.h_pos h4 hh2 o) o

theorem rgb_i444_wp (s : Sampler) (c : Colorimetry) {w h ss ys us vs : Nat} {src : Buf}
    {yp up vp : Dst} (hdim : Dim w h)
    (o : S → Ext src.len ss (encEnd s (encode_part s.pf.depth w)
        (s.pf.depth * (encode_part s.pf.depth w - 8) + 32) w) h ∧ Ext yp.len ys w h ∧
      Ext up.len us w h ∧ Ext vp.len vs w h) :
    K.Wp S X (rgb_i444 exactIx s s.pf.depth c w h ss src ys us vs yp up vp) (fun _ =>
      Ext src.len ss (encEnd s (encode_part s.pf.depth w)
        (s.pf.depth * (encode_part s.pf.depth w - 8) + 32) w) h ∧ Ext yp.len ys w h ∧
      Ext up.len us w h ∧ Ext vp.len vs w h) := by
  obtain ⟨hle, h4⟩ := encode_part_le s hdim.w_lt
  exact tail_rgb_i444_wp s c hdim.w_pos hdim.h_pos hle (fun hp => vend_le s hp h4)
    (fun hp o => rgb_to_i444_avx2_wp s c hp hdim.h_pos h4 o) o

theorem i444_rgb_wp (c : Colorimetry) (rev : Bool) {w h ys us vs ds : Nat} {yb ub vb : Buf}
    {d : Dst} (hdim : Dim w h)
    (o : S → Ext yb.len ys w h ∧ Ext ub.len us w h ∧ Ext vb.len vs w h ∧ Ext d.len ds (4 * w) h) :
    K.Wp S X (i444_rgb exactIx c 4 rev w h ys us vs yb ub vb ds d) (fun _ =>
      Ext yb.len ys w h ∧ Ext ub.len us w h ∧ Ext vb.len vs w h ∧ Ext d.len ds (4 * w) h) := by
  have hv0 : lower_multiple_of_pot w (YUV_TO_RGB_WAVES / 2) = 16 * (w / 16) :=
    lower_multiple (k := 4) hdim.w_lt (by omega)
  exact tail_i444_rgb_wp c rev hdim.w_pos hdim.h_pos (by rw [hv0]; omega)
    (fun hp o => i444_to_bgra_avx2_wp c rev hp hdim.h_pos (by rw [hv0]; omega) o) o

theorem i420_rgb_wp (c : Colorimetry) (rev : Bool) {w h ys us vs ds : Nat} {yb ub vb : Buf}
    {d : Dst} (hdim : Dim w h) (hw2 : w % 2 = 0) (hh2 : h % 2 = 0)
    (o : S → Ext yb.len ys w h ∧ Ext ub.len us (w / 2) (h / 2) ∧ Ext vb.len vs (w / 2) (h / 2) ∧
      Ext d.len ds (4 * w) h) :
    K.Wp S X (i420_rgb exactIx c 4 rev w h ys us vs yb ub vb ds d) (fun _ =>
      Ext yb.len ys w h ∧ Ext ub.len us (w / 2) (h / 2) ∧ Ext vb.len vs (w / 2) (h / 2) ∧
      Ext d.len ds (4 * w) h) := by
  have hv0 : lower_multiple_of_pot w YUV_TO_RGB_WAVES = 32 * (w / 32) :=
    lower_multiple (k := 5) hdim.w_lt (by omega)
  exact tail_i420_rgb_wp c rev hdim.w_pos hdim.h_pos hw2 hh2 (by rw [hv0]; omega) (by rw [hv0]; omega)
    (fun hp o => i420_to_bgra_avx2_wp c rev hp hdim.h_pos (by rw [hv0]; omega) hh2 o) o

theorem nv12_bgra_wp (c : Colorimetry) (rev : Bool) {w h ys uvs ds : Nat} {yb uvb : Buf}
    {d : Dst} (hdim : Dim w h) (hw2 : w % 2 = 0) (hh2 : h % 2 = 0)
    (o : S → Ext yb.len ys w h ∧ Ext uvb.len uvs w (h / 2) ∧ Ext d.len ds (4 * w) h) :
    K.Wp S X (nv12_rgb exactIx c 4 rev w h ys uvs yb uvb ds d) (fun _ =>
      Ext yb.len ys w h ∧ Ext uvb.len uvs w (h / 2) ∧ Ext d.len ds (4 * w) h) := by
  have hv0 : lower_multiple_of_pot w YUV_TO_RGB_WAVES = 32 * (w / 32) :=
    lower_multiple (k := 5) hdim.w_lt (by omega)
  exact tail_nv12_bgra_wp (v := lower_multiple_of_pot w YUV_TO_RGB_WAVES) c rev hdim.w_pos hdim.h_pos
    hw2 hh2 (by rw [hv0]; omega) (by rw [hv0]; omega)
    (fun hp o => nv12_to_bgra_avx2_wp c rev hp hdim.h_pos (by rw [hv0]; omega) hh2 o) o

theorem nv12_rgb_wp (c : Colorimetry) (rev : Bool) {w h ys uvs ds : Nat} {yb uvb : Buf}
    {d : Dst} (hdim : Dim w h) (hw2 : w % 2 = 0) (hh2 : h % 2 = 0)
    (o : S → Ext yb.len ys w h ∧ Ext uvb.len uvs w (h / 2) ∧ Ext d.len ds (3 * w) h) :
    K.Wp S X (nv12_rgb exactIx c 3 rev w h ys uvs yb uvb ds d) (fun _ =>
      Ext yb.len ys w h ∧ Ext uvb.len uvs w (h / 2) ∧ Ext d.len ds (3 * w) h) := by
  have hv0 : lower_multiple_of_pot w YUV_TO_RGB_WAVES = 32 * (w / 32) :=
    lower_multiple (k := 5) hdim.w_lt (by omega)
  exact tail_nv12_rgb_wp (v := lower_multiple_of_pot w YUV_TO_RGB_WAVES) c hdim.w_pos hdim.h_pos
    hw2 hh2 (by rw [hv0]; omega) (by rw [hv0]; omega)
    (fun hp o => nv12_to_rgb_avx2_wp c hp hdim.h_pos (by rw [hv0]; omega) hh2 o) o

theorem rgb_bgra_wp {t : Target} {w h ss ds : Nat} {src : Buf} {d : Dst} (hdim : Dim w h)
    (hss : 0 < ss)
    (hX : t.checked = true →
      X86.Stuck [(0, 32 * (w / 32)), (32 * (w / 32), w % 32)] 3 4 ss ds src.len d.len h → X)
    (hs : src.len + ss < 2 ^ t.bits) (hd : d.len + ds < 2 ^ t.bits)
    (o : S → (Ext src.len ss (3 * w) h ∧ Ext d.len ds (4 * w) h) ∧
      X86.Peek t ss src.len w (w % 32) h) :
    K.Wp S X (rgb_bgra t w h ss src ds d) (fun _ =>
      ((Ext src.len ss (3 * w) h ∧ Ext d.len ds (4 * w) h) ∧ X86.Peek t ss src.len w (w % 32) h) ∧
      (t.checked = true → X86.Fit [(0, 32 * (w / 32)), (32 * (w / 32), w % 32)] 3 4 ss ds)) := by
  have hv0 : lower_multiple_of_pot w LANE_COUNT = 32 * (w / 32) :=
    lower_multiple (k := 5) hdim.w_lt (by omega)
  have := hdim.w_pos
  have em : w - 32 * (w / 32) = w % 32 := by omega
  rw [Nat.mul_comm 4 w] at o
  refine (tail_rgb_rgb_wp (P := fun w src' d' => X86.rgb_to_bgra t w h ss src' ds d')
    (A := t.checked = true → 3 * (32 * (w / 32)) ≤ ss ∧ 4 * (32 * (w / 32)) ≤ ds)
    (B := X86.Peek t ss src.len w (w % 32) h ∧
      (t.checked = true → 3 * (w % 32) ≤ ss ∧ 4 * (w % 32) ≤ ds))
    (send := 3 * w) (rend := fun w => 3 * w) hdim.w_pos (by rw [hv0]; omega)
    (by rw [hv0]; omega) (by omega) (by rw [hv0]; omega)
    (fun hp o => ?_) ?_ fun s => (o s).1).mono ?_
  · rw [hv0] at hp o ⊢
    exact X86.diffs_wp (fun hk hc => hX hk ⟨(0, _), by simp, hc, fun h => absurd h (by simp)⟩)
      fun hn => rgb_to_bgra_avx2_wp hp hdim.h_pos (by omega) hn hs hd o
  · intro src' d' h1 h2 h3 hv o'
    rw [Nat.mul_comm _ 4] at o' ⊢
    rw [hv0] at h1 h3 hv o' ⊢
    have peek : X86.Peek t ss src'.len (w - 32 * (w / 32)) (w - 32 * (w / 32)) h ↔
        X86.Peek t ss src.len w (w % 32) h := by
      unfold X86.Peek
      rw [em]
      constructor <;> (intro h a b c d; have := h a b c d; omega)
    rw [← em]
    refine (X86.rgb_to_bgra_any_wp (by omega) hdim.h_pos hss
      (fun hk hc => hX hk ⟨(32 * (w / 32), w % 32), by simp, em ▸ hc, ?_⟩) (by omega) (by omega)
      fun s => ⟨(o' s).1, (o' s).2, peek.2 (o s).2⟩).mono
      fun _ hq => ⟨⟨hq.1.1, hq.1.2.1⟩, em.symm ▸ peek.1 hq.1.2.2, hq.2⟩
    rwa [Nat.mul_comm 3, Nat.mul_comm 4]
  · rintro _ ⟨h, hA, hB⟩
    rw [hv0] at hA hB
    refine ⟨⟨by rwa [Nat.mul_comm 4 w], ?_⟩, fun hk p hp => ?_⟩
    · by_cases e : 32 * (w / 32) < w
      · exact (hB e).1
      · exact fun _ h => by omega
    simp only [List.mem_cons, List.not_mem_nil, or_false] at hp
    rcases hp with rfl | rfl
    · rcases Nat.eq_zero_or_pos (32 * (w / 32)) with e | e
      · rw [e]; omega
      · exact hA e hk
    · by_cases e : 32 * (w / 32) < w
      · exact (hB e).2 hk
      · simp only
        omega

theorem rgb_bgra_over {t : Target} {w h ss ds : Nat} {src : Buf} {d : Dst} (hdim : Dim w h)
    (hc : t.checked = true) (hs : src.len + ss < 2 ^ t.bits)
    (hd : d.len + ds < 2 ^ t.bits)
    (hk : X86.Stuck [(0, 32 * (w / 32)), (32 * (w / 32), w % 32)] 3 4 ss ds src.len d.len h) :
    K.Wp True True (rgb_bgra t w h ss src ds d) (fun _ => False) := by
  have hv0 : lower_multiple_of_pot w LANE_COUNT = 32 * (w / 32) :=
    lower_multiple (k := 5) hdim.w_lt (by omega)
  have em : w - 32 * (w / 32) = w % 32 := by omega
  obtain ⟨p, hp, hn, hb⟩ := hk
  simp only [List.mem_cons, List.not_mem_nil, or_false] at hp
  rcases hp with rfl | rfl
  · have hp : 0 < 32 * (w / 32) := by
      by_contra h0
      exact hn (by rw [show 32 * (w / 32) = 0 by omega]; omega)
    unfold rgb_bgra
    simp only
    rw [hv0, if_pos hp]
    exact K.Wp.bind (P := fun _ => False) (X86.diffs_over hc hn trivial) fun _ h => h.elim
  · have hlt : 32 * (w / 32) < w := by
      by_contra h0
      exact hn (by simp only; omega)
    refine tail_over_wp (P := fun w src' d' => X86.rgb_to_bgra t w h ss src' ds d') (h := h)
      (ss := ss) (ds := ds) (by rwa [hv0]) (fun hp => ?_) fun src' d' => ?_
    · rw [hv0] at hp ⊢
      simp only at hb
      rw [Nat.mul_comm 3, Nat.mul_comm 4] at hb
      by_cases hf : 3 * (32 * (w / 32)) ≤ ss ∧ 4 * (32 * (w / 32)) ≤ ds
      · exact rgb_to_bgra_avx2_wp hp hdim.h_pos (by omega) (.inr hf) hs hd fun _ => hb hp
      · exact X86.diffs_over hc hf trivial
    · rw [hv0, em]
      exact X86.diffs_over hc hn trivial

theorem bgra_rgb_wp {t : Target} {w h ss ds : Nat} {src : Buf} {d : Dst} (hdim : Dim w h)
   
    (hX : t.checked = true → X86.Stuck [(0, w)] 4 3 ss ds src.len d.len h → X)
    (hs : src.len + ss < 2 ^ t.bits)
    (hd : d.len + ds < 2 ^ t.bits) (hX' : LateOverflow t w h ss ds → X)
    (o : S → Ext src.len ss (X86.bgraEnd w) h ∧ Ext d.len ds (3 * w) h) :
    K.Wp S X (bgra_rgb t w h ss src ds d) (fun _ =>
      (Ext src.len ss (X86.bgraEnd w) h ∧ Ext d.len ds (3 * w) h) ∧
      (t.checked = true → X86.Fit [(0, w)] 4 3 ss ds)) :=
  (X86.diffs_wp (fun hk h => hX hk (X86.Stuck.one.2 h)) fun hn =>
    bgra_to_rgb_avx2_wp hdim.w_pos hdim.w_lt hdim.h_pos hn hs hd hX' o).mono
    fun _ h => ⟨h.1, fun hk => .one (h.2 hk)⟩

theorem bgra_rgb_over {t : Target} {w h ss ds : Nat} {src : Buf} {d : Dst} (hdim : Dim w h)
    (hc : t.checked = true) (hs : src.len + ss < 2 ^ t.bits) (hd : d.len + ds < 2 ^ t.bits)
    (hk : X86.Stuck [(0, w)] 4 3 ss ds src.len d.len h ∨ LateOverflow t w h ss ds) :
    K.Wp True True (bgra_rgb t w h ss src ds d) (fun _ => False) := by
  by_cases hf : 4 * w ≤ ss ∧ 3 * w ≤ ds
  · exact late_overflow hdim.w_lt hdim.h_pos hf.1 hf.2 (by omega) (by omega)
      (hk.resolve_left fun h => X86.Stuck.one.1 h hf)
  · exact X86.diffs_over hc hf trivial

theorem bgr_rgb_wp {t : Target} {w h ss ds : Nat} {src : Buf} {d : Dst} (hdim : Dim w h)
    (o : S → Ext src.len ss (3 * w) h ∧ Ext d.len ds (3 * w) h) :
    K.Wp S X (bgr_rgb exactMul w h ss src ds d) (fun _ =>
      Ext src.len ss (3 * w) h ∧ Ext d.len ds (3 * w) h) := by
  have hv0 : lower_multiple_of_pot w LANE_COUNT = 32 * (w / 32) :=
    lower_multiple (k := 5) hdim.w_lt (by omega)
  have := hdim.w_pos
  have := hdim.w_lt
  rw [Nat.mul_comm 3 w] at o
  refine (tail_rgb_rgb_wp (P := fun w src' d' => X86.bgr_to_rgb exactMul w h ss src' ds d')
    (send := w * 3) (rend := fun w => w * 3) hdim.w_pos (by rw [hv0]; omega)
    (by rw [hv0]; omega) (by omega) (by rw [hv0]; omega)
    (A := True) (B := True)
    (fun hp o => (bgr_to_rgb_avx2_wp hp hdim.h_pos (by rw [hv0]; omega) o).mono
      fun _ h => ⟨h, trivial⟩) ?_ o).mono ?_
  · intro src' d' h1 h2 h3 _ o
    rw [Nat.mul_comm _ 3] at o ⊢
    exact (X86.bgr_to_rgb_wp (by omega) (by omega) hdim.h_pos o).mono fun _ h => ⟨h, trivial⟩
  · intro _ h
    rw [Nat.mul_comm 3 w]
    exact h.1

end Verif.Avx2
