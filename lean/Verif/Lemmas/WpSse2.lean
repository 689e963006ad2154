import Verif.Lemmas.WpTail
import Verif.Lemmas.Sse2Impl
/-! # Kernels of sse2.rs: exactly when they stay in bounds -/

namespace Verif.Sse2

open Verif.Simd

variable {S X : Prop}

/-- Close an obligation from the facts `o`. -/
local macro "wpo" o:ident : tactic => `(tactic| (intro s; have := $o s; omega))

theorem unpack3_wp {s : Sampler} {b : Buf} {i : Nat} (h : S → i + 16 ≤ b.len) :
    K.Wp S X (unpack_ui8x3_i16x2_4x s b i) (fun _ => i + 16 ≤ b.len) := by
  unfold unpack_ui8x3_i16x2_4x
  cases s <;> exact K.Wp.bind (K.Wp.load h) fun _ h => K.Wp.pure h

theorem pack_i32_4x_wp {d : Dst} {i : Nat} {r : Reg} (h : S → i + 4 ≤ d.len) :
    K.Wp S X (pack_i32_4x d i r) (fun _ => i + 4 ≤ d.len) := K.Wp.store (by omega) h

theorem rgb_to_nv12_sse2_wp (s : Sampler) (c : Colorimetry) {w h ss ys uvs : Nat} {src : Buf}
    {yp uvp : Dst} (hw : 0 < w) (hh : 0 < h) (hw4 : w % 4 = 0) (hh2 : h % 2 = 0)
    (hS : S → Ext src.len ss (s.pf.depth * (w - 4) + 16) h ∧ Ext yp.len ys w h ∧
      Ext uvp.len uvs w (h / 2)) :
    K.Wp S X (rgb_to_nv12_sse2 exactIx s s.pf.depth c w h ss src ys uvs yp uvp) (fun _ =>
      Ext src.len ss (s.pf.depth * (w - 4) + 16) h ∧ Ext yp.len ys w h ∧
      Ext uvp.len uvs w (h / 2)) := by
  unfold rgb_to_nv12_sse2
  simp only [wg_eq, K.liftM_eq, K.lift_ok, pure_bind, RGB_TO_YUV_WAVES]
  refine (K.Wp.grid (P := fun y x => ss * (2 * y + 1) + s.pf.depth * 4 * x + 16 ≤ src.len ∧
    ys * (2 * y + 1) + 4 * x + 4 ≤ yp.len ∧ uvs * y + 4 * x + 4 ≤ uvp.len)
    fun y hy x hx => ?_).mono fun _ hp => ?_
  · have o : S → ss * (2 * y) + s.pf.depth * 4 * x + 16 ≤ src.len ∧
        ss * (2 * y + 1) + s.pf.depth * 4 * x + 16 ≤ src.len ∧
        ys * (2 * y) + 4 * x + 4 ≤ yp.len ∧ ys * (2 * y + 1) + 4 * x + 4 ≤ yp.len ∧
        uvs * y + 4 * x + 4 ≤ uvp.len := by
      intro hs
      obtain ⟨h1, h2, h3⟩ := hS hs
      have h1' := h1.at (y := 2 * y) (by omega)
      have h2' := h2.at (y := 2 * y) (by omega)
      have h1 := h1.at (y := 2 * y + 1) (by omega)
      have h2 := h2.at (y := 2 * y + 1) (by omega)
      have h3 := h3.at hy
      have : s.pf.depth * 4 * x ≤ s.pf.depth * (w - 4) := by
        rw [Nat.mul_assoc]; exact Nat.mul_le_mul_left _ (by omega)
      omega
    unfold rgb_to_yuv_4x
    refine K.Wp.bind (unpack3_wp fun s => (o s).1) fun _ _ => ?_
    refine K.Wp.bind (pack_i32_4x_wp (by wpo o)) fun _ _ => ?_
    refine K.Wp.bind (unpack3_wp fun s => (o s).2.1) fun _ h1 => ?_
    refine K.Wp.bind (pack_i32_4x_wp (by wpo o)) fun _ h2 => ?_
    exact (pack_i32_4x_wp (by wpo o)).mono fun _ h3 => ⟨h1, h2, h3⟩
  · have := hp (h / 2 - 1) (by omega) (w / 4 - 1) (by omega)
    rw [show 2 * (h / 2 - 1) + 1 = h - 1 by omega, Nat.mul_assoc,
      show 4 * (w / 4 - 1) = w - 4 by omega] at this
    unfold Ext
    omega

theorem rgb_to_i420_sse2_wp (s : Sampler) (c : Colorimetry) {w h ss ys us vs : Nat} {src : Buf}
    {yp up vp : Dst} (hw : 0 < w) (hh : 0 < h) (hw4 : w % 4 = 0) (hh2 : h % 2 = 0)
    (hS : S → Ext src.len ss (s.pf.depth * (w - 4) + 16) h ∧ Ext yp.len ys w h ∧
      Ext up.len us (w / 2) (h / 2) ∧ Ext vp.len vs (w / 2) (h / 2)) :
    K.Wp S X (rgb_to_i420_sse2 exactIx s s.pf.depth c w h ss src ys us vs yp up vp) (fun _ =>
      Ext src.len ss (s.pf.depth * (w - 4) + 16) h ∧ Ext yp.len ys w h ∧
      Ext up.len us (w / 2) (h / 2) ∧ Ext vp.len vs (w / 2) (h / 2)) := by
  unfold rgb_to_i420_sse2
  simp only [wg_eq, K.liftM_eq, K.lift_ok, pure_bind, RGB_TO_YUV_WAVES]
  refine (K.Wp.grid (P := fun y x => ss * (2 * y + 1) + s.pf.depth * 4 * x + 16 ≤ src.len ∧
    ys * (2 * y + 1) + 4 * x + 4 ≤ yp.len ∧ us * y + 4 / 2 * x + 2 ≤ up.len ∧
    vs * y + 4 / 2 * x + 2 ≤ vp.len)
    fun y hy x hx => ?_).mono fun _ hp => ?_
  · have o : S → ss * (2 * y) + s.pf.depth * 4 * x + 16 ≤ src.len ∧
        ss * (2 * y + 1) + s.pf.depth * 4 * x + 16 ≤ src.len ∧
        ys * (2 * y) + 4 * x + 4 ≤ yp.len ∧ ys * (2 * y + 1) + 4 * x + 4 ≤ yp.len ∧
        us * y + 4 / 2 * x + 2 ≤ up.len ∧ vs * y + 4 / 2 * x + 2 ≤ vp.len := by
      intro hs
      obtain ⟨h1, h2, h3, h4⟩ := hS hs
      have h1' := h1.at (y := 2 * y) (by omega)
      have h2' := h2.at (y := 2 * y) (by omega)
      have h1 := h1.at (y := 2 * y + 1) (by omega)
      have h2 := h2.at (y := 2 * y + 1) (by omega)
      have h3 := h3.at hy
      have h4 := h4.at hy
      have : s.pf.depth * 4 * x ≤ s.pf.depth * (w - 4) := by
        rw [Nat.mul_assoc]; exact Nat.mul_le_mul_left _ (by omega)
      omega
    unfold rgb_to_i420_4x
    refine K.Wp.bind (unpack3_wp fun s => (o s).1) fun _ _ => ?_
    refine K.Wp.bind (pack_i32_4x_wp (by wpo o)) fun _ _ => ?_
    refine K.Wp.bind (unpack3_wp fun s => (o s).2.1) fun _ h1 => ?_
    refine K.Wp.bind (pack_i32_4x_wp (by wpo o)) fun _ h2 => ?_
    refine K.Wp.bind (K.Wp.store (by omega) (by wpo o)) fun _ h3 => ?_
    exact (K.Wp.store (by omega) (by wpo o)).mono fun _ h4 => ⟨h1, h2, h3, h4⟩
  · have := hp (h / 2 - 1) (by omega) (w / 4 - 1) (by omega)
    rw [show 2 * (h / 2 - 1) + 1 = h - 1 by omega, Nat.mul_assoc,
      show 4 * (w / 4 - 1) = w - 4 by omega] at this
    unfold Ext
    omega

theorem rgb_to_i444_sse2_wp (s : Sampler) (c : Colorimetry) {w h ss ys us vs : Nat} {src : Buf}
    {yp up vp : Dst} (hw : 0 < w) (hh : 0 < h) (hw4 : w % 4 = 0)
    (hS : S → Ext src.len ss (s.pf.depth * (w - 4) + 16) h ∧ Ext yp.len ys w h ∧
      Ext up.len us w h ∧ Ext vp.len vs w h) :
    K.Wp S X (rgb_to_i444_sse2 exactIx s s.pf.depth c w h ss src ys us vs yp up vp) (fun _ =>
      Ext src.len ss (s.pf.depth * (w - 4) + 16) h ∧ Ext yp.len ys w h ∧
      Ext up.len us w h ∧ Ext vp.len vs w h) := by
  unfold rgb_to_i444_sse2
  simp only [wg_eq, K.liftM_eq, K.lift_ok, pure_bind, RGB_TO_YUV_WAVES]
  refine (K.Wp.grid (P := fun y x => ss * y + s.pf.depth * 4 * x + 16 ≤ src.len ∧
    ys * y + 4 * x + 4 ≤ yp.len ∧ us * y + 4 * x + 4 ≤ up.len ∧ vs * y + 4 * x + 4 ≤ vp.len)
    fun y hy x hx => ?_).mono fun _ hp => ?_
  · have o : S → ss * y + s.pf.depth * 4 * x + 16 ≤ src.len ∧
        ys * y + 4 * x + 4 ≤ yp.len ∧ us * y + 4 * x + 4 ≤ up.len ∧ vs * y + 4 * x + 4 ≤ vp.len := by
      intro hs
      obtain ⟨h1, h2, h3, h4⟩ := hS hs
      have h1 := h1.at hy
      have h2 := h2.at hy
      have h3 := h3.at hy
      have h4 := h4.at hy
      have : s.pf.depth * 4 * x ≤ s.pf.depth * (w - 4) := by
        rw [Nat.mul_assoc]; exact Nat.mul_le_mul_left _ (by omega)
      omega
    unfold rgb_to_i444_4x
    refine K.Wp.bind (unpack3_wp fun s => (o s).1) fun _ h1 => ?_
    refine K.Wp.bind (pack_i32_4x_wp (by wpo o)) fun _ h2 => ?_
    refine K.Wp.bind (pack_i32_4x_wp (by wpo o)) fun _ h3 => ?_
    exact (pack_i32_4x_wp (by wpo o)).mono fun _ h4 => ⟨h1, h2, h3, h4⟩
  · have := hp (h - 1) (by omega) (w / 4 - 1) (by omega)
    rw [Nat.mul_assoc, show 4 * (w / 4 - 1) = w - 4 by omega] at this
    unfold Ext
    omega

/-! ## Decoders -/

theorem put_8x_wp {rev : Bool} {d : Dst} {i : Nat} {sr sg sb y : Reg} (h : S → i + 32 ≤ d.len) :
    K.Wp S X (put_8x rev d i sr sg sb y) (fun _ => i + 32 ≤ d.len) := by
  unfold put_8x pack_i16x3_8x
  refine K.Wp.bind (K.Wp.store (by omega) (by wpo h)) fun _ _ => ?_
  exact (K.Wp.store (by omega) (by wpo h)).mono fun _ h => by omega

theorem block_16x2_wp {k : Back} {rev : Bool} {cb cr : Reg} {yb : Buf} {y0 y1 : Nat} {d : Dst}
    {d00 d10 d01 d11 : Nat} (o : S → (y0 + 16 ≤ yb.len ∧ y1 + 16 ≤ yb.len) ∧ d00 + 32 ≤ d.len ∧
      d10 + 32 ≤ d.len ∧ d01 + 32 ≤ d.len ∧ d11 + 32 ≤ d.len) :
    K.Wp S X (block_16x2 k rev cb cr yb (.ok y0) (.ok y1) d (.ok d00) (.ok d10) (.ok d01) (.ok d11))
      (fun _ => y1 + 16 ≤ yb.len ∧ d11 + 32 ≤ d.len) := by
  unfold block_16x2
  simp only [K.liftM_eq, K.lift_ok, pure_bind]
  refine K.Wp.bind (K.Wp.load (by wpo o)) fun _ _ => ?_
  refine K.Wp.bind (put_8x_wp (by wpo o)) fun _ _ => ?_
  refine K.Wp.bind (put_8x_wp (by wpo o)) fun _ _ => ?_
  refine K.Wp.bind (K.Wp.load (by wpo o)) fun _ h1 => ?_
  refine K.Wp.bind (put_8x_wp (by wpo o)) fun _ _ => ?_
  exact (put_8x_wp (by wpo o)).mono fun _ h2 => ⟨h1, h2⟩

theorem nv12_to_bgra_sse2_wp (c : Colorimetry) (rev : Bool) {w h ys uvs ds : Nat}
    {yb uvb : Buf} {d : Dst} (hw : 0 < w) (hh : 0 < h) (hw16 : w % 16 = 0) (hh2 : h % 2 = 0)
    (hS : S → Ext yb.len ys w h ∧ Ext uvb.len uvs w (h / 2) ∧ Ext d.len ds (w * 4) h) :
    K.Wp S X (nv12_to_bgra_sse2 exactIx c rev w h ys uvs yb uvb ds d) (fun _ =>
      Ext yb.len ys w h ∧ Ext uvb.len uvs w (h / 2) ∧ Ext d.len ds (w * 4) h) := by
  unfold nv12_to_bgra_sse2
  simp only [wg_eq, K.liftM_eq, K.lift_ok, pure_bind, YUV_TO_RGB_WAVES]
  refine (K.Wp.grid (P := fun y x => uvs * y + 16 * x + 16 ≤ uvb.len ∧
    ys * (2 * y + 1) + 16 * x + 16 ≤ yb.len ∧
    ds * (2 * y + 1) + 2 * 16 * (2 * x + 1) + 32 ≤ d.len) fun y hy x hx => ?_).mono fun _ hp => ?_
  · have o : S → uvs * y + 16 * x + 16 ≤ uvb.len ∧ ys * (2 * y) + 16 * x + 16 ≤ yb.len ∧
        ys * (2 * y + 1) + 16 * x + 16 ≤ yb.len ∧
        ds * (2 * y) + 2 * 16 * (2 * x + 1) + 32 ≤ d.len ∧
        ds * (2 * y + 1) + 2 * 16 * (2 * x + 1) + 32 ≤ d.len := by
      intro hs
      obtain ⟨h1, h2, h4⟩ := hS hs
      have h1' := h1.at (y := 2 * y) (by omega)
      have h1 := h1.at (y := 2 * y + 1) (by omega)
      have h2 := h2.at hy
      have h4' := h4.at (y := 2 * y) (by omega)
      have h4 := h4.at (y := 2 * y + 1) (by omega)
      omega
    unfold unpack_ui8x2_i16be_8x
    simp only [bind_assoc, pure_bind]
    refine K.Wp.bind (K.Wp.load (by wpo o)) fun _ h1 => ?_
    exact (block_16x2_wp (by wpo o)).mono fun _ h2 => ⟨h1, h2⟩
  · have := hp (h / 2 - 1) (by omega) (w / 16 - 1) (by omega)
    rw [show 2 * (h / 2 - 1) + 1 = h - 1 by omega] at this
    unfold Ext
    omega

theorem i420_to_bgra_sse2_wp (c : Colorimetry) (rev : Bool) {w h ys us vs ds : Nat}
    {yb ub vb : Buf} {d : Dst} (hw : 0 < w) (hh : 0 < h) (hw16 : w % 16 = 0) (hh2 : h % 2 = 0)
    (hS : S → Ext yb.len ys w h ∧ Ext ub.len us (w / 2) (h / 2) ∧ Ext vb.len vs (w / 2) (h / 2) ∧
      Ext d.len ds (w * 4) h) :
    K.Wp S X (i420_to_bgra_sse2 exactIx c rev w h ys us vs yb ub vb ds d) (fun _ =>
      Ext yb.len ys w h ∧ Ext ub.len us (w / 2) (h / 2) ∧ Ext vb.len vs (w / 2) (h / 2) ∧
      Ext d.len ds (w * 4) h) := by
  unfold i420_to_bgra_sse2
  simp only [wg_eq, K.liftM_eq, K.lift_ok, pure_bind, YUV_TO_RGB_WAVES]
  refine (K.Wp.grid (P := fun y x => us * y + 16 / 2 * x + 8 ≤ ub.len ∧
    vs * y + 16 / 2 * x + 8 ≤ vb.len ∧
    ys * (2 * y + 1) + 16 * x + 16 ≤ yb.len ∧
    ds * (2 * y + 1) + 2 * 16 * (2 * x + 1) + 32 ≤ d.len) fun y hy x hx => ?_).mono fun _ hp => ?_
  · have o : S → us * y + 16 / 2 * x + 8 ≤ ub.len ∧ vs * y + 16 / 2 * x + 8 ≤ vb.len ∧
        ys * (2 * y) + 16 * x + 16 ≤ yb.len ∧
        ys * (2 * y + 1) + 16 * x + 16 ≤ yb.len ∧
        ds * (2 * y) + 2 * 16 * (2 * x + 1) + 32 ≤ d.len ∧
        ds * (2 * y + 1) + 2 * 16 * (2 * x + 1) + 32 ≤ d.len := by
      intro hs
      obtain ⟨h1, h2, h3, h4⟩ := hS hs
      have h1' := h1.at (y := 2 * y) (by omega)
      have h1 := h1.at (y := 2 * y + 1) (by omega)
      have h2 := h2.at hy
      have h3 := h3.at hy
      have h4' := h4.at (y := 2 * y) (by omega)
      have h4 := h4.at (y := 2 * y + 1) (by omega)
      omega
    unfold unpack_ui8_i16be_8x
    simp only [bind_assoc, pure_bind]
    refine K.Wp.bind (K.Wp.load (by wpo o)) fun _ h1 => ?_
    refine K.Wp.bind (K.Wp.load (by wpo o)) fun _ h2 => ?_
    exact (block_16x2_wp (by wpo o)).mono fun _ h3 => ⟨h1, h2, h3⟩
  · have := hp (h / 2 - 1) (by omega) (w / 16 - 1) (by omega)
    rw [show 2 * (h / 2 - 1) + 1 = h - 1 by omega] at this
    unfold Ext
    omega

theorem i444_to_bgra_sse2_wp (c : Colorimetry) (rev : Bool) {w h ys us vs ds : Nat}
    {yb ub vb : Buf} {d : Dst} (hw : 0 < w) (hh : 0 < h) (hw8 : w % 8 = 0)
    (hS : S → Ext yb.len ys w h ∧ Ext ub.len us w h ∧ Ext vb.len vs w h ∧ Ext d.len ds (w * 4) h) :
    K.Wp S X (i444_to_bgra_sse2 exactIx c rev w h ys us vs yb ub vb ds d) (fun _ =>
      Ext yb.len ys w h ∧ Ext ub.len us w h ∧ Ext vb.len vs w h ∧ Ext d.len ds (w * 4) h) := by
  unfold i444_to_bgra_sse2
  simp only [wg_eq, K.liftM_eq, K.lift_ok, pure_bind, YUV_TO_RGB_WAVES]
  refine (K.Wp.grid (P := fun y x => us * y + 16 / 2 * x + 8 ≤ ub.len ∧
    vs * y + 16 / 2 * x + 8 ≤ vb.len ∧ ys * y + 16 / 2 * x + 8 ≤ yb.len ∧
    ds * y + 2 * 16 * x + 32 ≤ d.len) fun y hy x hx => ?_).mono fun _ hp => ?_
  · have o : S → us * y + 16 / 2 * x + 8 ≤ ub.len ∧
        vs * y + 16 / 2 * x + 8 ≤ vb.len ∧ ys * y + 16 / 2 * x + 8 ≤ yb.len ∧
        ds * y + 2 * 16 * x + 32 ≤ d.len := by
      intro hs
      obtain ⟨h1, h2, h3, h4⟩ := hS hs
      have h1 := h1.at hy
      have h2 := h2.at hy
      have h3 := h3.at hy
      have h4 := h4.at hy
      omega
    refine K.Wp.bind (K.Wp.load (by wpo o)) fun _ h1 => ?_
    refine K.Wp.bind (K.Wp.load (by wpo o)) fun _ h2 => ?_
    refine K.Wp.bind (K.Wp.load (by wpo o)) fun _ h3 => ?_
    exact (put_8x_wp (by wpo o)).mono fun _ h4 => ⟨h1, h2, h3, h4⟩
  · have := hp (h - 1) (by omega) (w / (16 / 2) - 1) (by omega)
    unfold Ext
    omega

/-! ## Rgb to Bgra -/

theorem rgb_to_bgra_sse2_wp {t : Target} {w h ss ds : Nat} {src : Buf} {d : Dst} (hw : 0 < w)
    (hh : 0 < h) (hw16 : w % 16 = 0)
    (hn : t.checked = false ∨ (3 * w ≤ ss ∧ 4 * w ≤ ds)) (hs : src.len + ss < 2 ^ t.bits)
    (hd : d.len + ds < 2 ^ t.bits)
    (o : S → Ext src.len ss (w * 3) h ∧ Ext d.len ds (w * 4) h) :
    K.Wp S X (rgb_to_bgra_sse2 t w h ss src ds d) (fun _ =>
      Ext src.len ss (w * 3) h ∧ Ext d.len ds (w * 4) h) := by
  obtain ⟨m, sd, m1, e1, -, a1, -⟩ :=
    X86.gap (hn.imp_right And.left) (show ss < 2 ^ t.bits by omega)
  obtain ⟨n, dd, m2, e2, -, a2, -⟩ :=
    X86.gap (hn.imp_right And.right) (show ds < 2 ^ t.bits by omega)
  unfold rgb_to_bgra_sse2
  simp only [K.liftM_eq, m1, m2, K.lift_ok, pure_bind, e1, e2, LANE_COUNT]
  rw [show (w + (16 - 1)) / 16 = w / 16 by omega]
  refine K.Wp.bind (K.Wp.iterK (I := fun y s => s = (ss * y, ds * y) ∧ (0 < y →
    ss * (y - 1) + w * 3 ≤ src.len ∧ ds * (y - 1) + w * 4 ≤ d.len)) ⟨by simp, by omega⟩ ?_)
    fun _ hp => K.Wp.pure (hp.2 hh)
  rintro y s hy ⟨rfl, -⟩
  have o : S → ss * y + w * 3 ≤ src.len ∧ ds * y + w * 4 ≤ d.len := fun hs =>
    ⟨(o hs).1.at hy, (o hs).2.at hy⟩
  refine K.Wp.bind (K.Wp.iterK (I := fun i s => s = (ss * y + 48 * i, ds * y + 64 * i) ∧ (0 < i →
    ss * y + 48 * i ≤ src.len ∧ ds * y + 64 * i ≤ d.len)) ⟨by simp, by omega⟩ ?_) ?_
  · rintro i s hi ⟨rfl, -⟩
    have o1 : S → ss * y + 48 * i + 48 ≤ src.len ∧ ds * y + 64 * i + 64 ≤ d.len := by wpo o
    unfold rgb_to_bgra_16 rgb_to_bgra_4x
    simp only [bind_assoc]
    refine K.Wp.bind (K.Wp.load (by wpo o1)) fun _ _ => ?_
    refine K.Wp.bind (K.Wp.load (by wpo o1)) fun _ _ => ?_
    refine K.Wp.bind (K.Wp.load (by wpo o1)) fun _ h1 => ?_
    refine K.Wp.bind (K.Wp.store (by omega) (by wpo o1)) fun _ _ => ?_
    refine K.Wp.bind (K.Wp.store (by omega) (by wpo o1)) fun _ _ => ?_
    refine K.Wp.bind (K.Wp.store (by omega) (by wpo o1)) fun _ _ => ?_
    refine K.Wp.bind (K.Wp.store (by omega) (by wpo o1)) fun _ h2 => K.Wp.pure ⟨?_, fun _ => ?_⟩
    · simp only [Prod.mk.injEq]; omega
    · omega
  · rintro s ⟨rfl, hm⟩
    have hm := hm (by omega)
    simp only
    rw [show ss * y + 48 * (w / 16) = ss * y + 3 * w by omega,
      show ds * y + 64 * (w / 16) = ds * y + 4 * w by omega, a1 _ _ (by omega) hs,
      a2 _ _ (by omega) hd]
    simp only [K.lift_ok, pure_bind]
    refine K.Wp.pure ⟨?_, fun _ => ?_⟩
    · simp only [Prod.mk.injEq, Nat.mul_add]; omega
    · rw [Nat.add_sub_cancel]; omega

/-! ## The kernels behind the wrappers -/

/-- Bytes of a line read by the vector encoders. -/
theorem vend_le (s : Sampler) {v : Nat} (hv : 0 < v) (hv4 : v % 4 = 0) :
    v * s.pf.depth ≤ s.pf.depth * (v - 4) + 16 := by
  cases s <;> simp only [Sampler.pf, PixelFormat.depth] <;> omega

theorem rgb_nv12_wp (s : Sampler) (c : Colorimetry) {w h ss ys uvs : Nat} {src : Buf}
    {yp uvp : Dst} (hdim : Dim w h) (hw2 : w % 2 = 0) (hh2 : h % 2 = 0)
    (o : S → Ext src.len ss (encEnd s (encode_part s.pf.depth w)
        (s.pf.depth * (encode_part s.pf.depth w - 4) + 16) w) h ∧ Ext yp.len ys w h ∧
      Ext uvp.len uvs w (h / 2)) :
    K.Wp S X (rgb_nv12 exactIx s s.pf.depth c w h ss src ys uvs yp uvp) (fun _ =>
      Ext src.len ss (encEnd s (encode_part s.pf.depth w)
        (s.pf.depth * (encode_part s.pf.depth w - 4) + 16) w) h ∧ Ext yp.len ys w h ∧
      Ext uvp.len uvs w (h / 2)) := by
  obtain ⟨hle, h4⟩ := encode_part_le s hdim.w_lt
  exact tail_rgb_nv12_wp s c hdim.w_pos hdim.h_pos hw2 hh2 hle (by omega) (fun hp => vend_le s hp h4)
    (fun hp o => rgb_to_nv12_sse2_wp s c hp hdim.h_pos h4 hh2 o) o

theorem rgb_i420_wp (s : Sampler) (c : Colorimetry) {w h ss ys us vs : Nat} {src : Buf}
    {yp up vp : Dst} (hdim : Dim w h) (hw2 : w % 2 = 0) (hh2 : h % 2 = 0)
    (o : S → Ext src.len ss (encEnd s (encode_part s.pf.depth w)
        (s.pf.depth * (encode_part s.pf.depth w - 4) + 16) w) h ∧ Ext yp.len ys w h ∧
      Ext up.len us (w / 2) (h / 2) ∧ Ext vp.len vs (w / 2) (h / 2)) :
    K.Wp S X (rgb_i420 exactIx s s.pf.depth c w h ss src ys us vs yp up vp) (fun _ =>
      Ext src.len ss (encEnd s (encode_part s.pf.depth w)
        (s.pf.depth * (encode_part s.pf.depth w - 4) + 16) w) h ∧ Ext yp.len ys w h ∧
      Ext up.len us (w / 2) (h / 2) ∧ Ext vp.len vs (w / 2) (h / 2)) := by
  obtain ⟨hle, h4⟩ := encode_part_le s hdim.w_lt
  exact tail_rgb_i420_wp s c hdim.w_pos hdim.h_pos hw2 hh2 hle (by omega) (fun hp => vend_le s hp h4)
    (fun hp o => rgb_to_i420_sse2_wp s c hp hdim.h_pos h4 hh2 o) o

theorem rgb_i444_wp (s : Sampler) (c : Colorimetry) {w h ss ys us vs : Nat} {src : Buf}
    {yp up vp : Dst} (hdim : Dim w h)
    (o : S → Ext src.len ss (encEnd s (encode_part s.pf.depth w)
        (s.pf.depth * (encode_part s.pf.depth w - 4) + 16) w) h ∧ Ext yp.len ys w h ∧
      Ext up.len us w h ∧ Ext vp.len vs w h) :
    K.Wp S X (rgb_i444 exactIx s s.pf.depth c w h ss src ys us vs yp up vp) (fun _ =>
      Ext src.len ss (encEnd s (encode_part s.pf.depth w)
        (s.pf.depth * (encode_part s.pf.depth w - 4) + 16) w) h ∧ Ext yp.len ys w h ∧
      Ext up.len us w h ∧ Ext vp.len vs w h) := by
  obtain ⟨hle, h4⟩ := encode_part_le s hdim.w_lt
  exact tail_rgb_i444_wp s c hdim.w_pos hdim.h_pos hle (fun hp => vend_le s hp h4)
    (fun hp o => rgb_to_i444_sse2_wp s c hp hdim.h_pos h4 o) o

theorem i444_rgb_wp (c : Colorimetry) (rev : Bool) {w h ys us vs ds : Nat} {yb ub vb : Buf}
    {d : Dst} (hdim : Dim w h)
    (o : S → Ext yb.len ys w h ∧ Ext ub.len us w h ∧ Ext vb.len vs w h ∧ Ext d.len ds (4 * w) h) :
    K.Wp S X (i444_rgb exactIx c 4 rev w h ys us vs yb ub vb ds d) (fun _ =>
      Ext yb.len ys w h ∧ Ext ub.len us w h ∧ Ext vb.len vs w h ∧ Ext d.len ds (4 * w) h) := by
  have hv0 : lower_multiple_of_pot w (YUV_TO_RGB_WAVES / 2) = 8 * (w / 8) :=
    lower_multiple (k := 3) hdim.w_lt (by omega)
  exact tail_i444_rgb_wp c rev hdim.w_pos hdim.h_pos (by rw [hv0]; omega)
    (fun hp o => i444_to_bgra_sse2_wp c rev hp hdim.h_pos (by rw [hv0]; omega) o) o

theorem i420_rgb_wp (c : Colorimetry) (rev : Bool) {w h ys us vs ds : Nat} {yb ub vb : Buf}
    {d : Dst} (hdim : Dim w h) (hw2 : w % 2 = 0) (hh2 : h % 2 = 0)
    (o : S → Ext yb.len ys w h ∧ Ext ub.len us (w / 2) (h / 2) ∧ Ext vb.len vs (w / 2) (h / 2) ∧
      Ext d.len ds (4 * w) h) :
    K.Wp S X (i420_rgb exactIx c 4 rev w h ys us vs yb ub vb ds d) (fun _ =>
      Ext yb.len ys w h ∧ Ext ub.len us (w / 2) (h / 2) ∧ Ext vb.len vs (w / 2) (h / 2) ∧
      Ext d.len ds (4 * w) h) := by
  have hv0 : lower_multiple_of_pot w YUV_TO_RGB_WAVES = 16 * (w / 16) :=
    lower_multiple (k := 4) hdim.w_lt (by omega)
  exact tail_i420_rgb_wp c rev hdim.w_pos hdim.h_pos hw2 hh2 (by rw [hv0]; omega) (by rw [hv0]; omega)
    (fun hp o => i420_to_bgra_sse2_wp c rev hp hdim.h_pos (by rw [hv0]; omega) hh2 o) o

theorem nv12_bgra_wp (c : Colorimetry) (rev : Bool) {w h ys uvs ds : Nat} {yb uvb : Buf}
    {d : Dst} (hdim : Dim w h) (hw2 : w % 2 = 0) (hh2 : h % 2 = 0)
    (o : S → Ext yb.len ys w h ∧ Ext uvb.len uvs w (h / 2) ∧ Ext d.len ds (4 * w) h) :
    K.Wp S X (nv12_rgb exactIx c 4 rev w h ys uvs yb uvb ds d) (fun _ =>
      Ext yb.len ys w h ∧ Ext uvb.len uvs w (h / 2) ∧ Ext d.len ds (4 * w) h) := by
  have hv0 : lower_multiple_of_pot w YUV_TO_RGB_WAVES = 16 * (w / 16) :=
    lower_multiple (k := 4) hdim.w_lt (by omega)
  unfold nv12_rgb
  rw [if_neg (by omega)]
  exact tail_nv12_bgra_wp c rev hdim.w_pos hdim.h_pos hw2 hh2 (by rw [hv0]; omega) (by rw [hv0]; omega)
    (fun hp o => nv12_to_bgra_sse2_wp c rev hp hdim.h_pos (by rw [hv0]; omega) hh2 o) o

theorem nv12_rgb_wp (c : Colorimetry) (rev : Bool) {w h ys uvs ds : Nat} {yb uvb : Buf}
    {d : Dst} (hdim : Dim w h) (hw2 : w % 2 = 0) (hh2 : h % 2 = 0)
    (o : S → Ext yb.len ys w h ∧ Ext uvb.len uvs w (h / 2) ∧ Ext d.len ds (3 * w) h) :
    K.Wp S X (nv12_rgb exactIx c 3 rev w h ys uvs yb uvb ds d) (fun _ =>
      Ext yb.len ys w h ∧ Ext uvb.len uvs w (h / 2) ∧ Ext d.len ds (3 * w) h) := by
  unfold nv12_rgb
  rw [if_pos rfl]
  exact X86.nv12_to_rgb_wp c hdim.w_pos hdim.h_pos hw2 hh2 o

theorem rgb_bgra_wp {t : Target} {w h ss ds : Nat} {src : Buf} {d : Dst} (hdim : Dim w h)
    (hss : 0 < ss)
    (hX : t.checked = true →
      X86.Stuck [(0, 16 * (w / 16)), (16 * (w / 16), w % 16)] 3 4 ss ds src.len d.len h → X)
    (hs : src.len + ss < 2 ^ t.bits) (hd : d.len + ds < 2 ^ t.bits)
    (o : S → (Ext src.len ss (3 * w) h ∧ Ext d.len ds (4 * w) h) ∧
      X86.Peek t ss src.len w (w % 16) h) :
    K.Wp S X (rgb_bgra t w h ss src ds d) (fun _ =>
      ((Ext src.len ss (3 * w) h ∧ Ext d.len ds (4 * w) h) ∧ X86.Peek t ss src.len w (w % 16) h) ∧
      (t.checked = true → X86.Fit [(0, 16 * (w / 16)), (16 * (w / 16), w % 16)] 3 4 ss ds)) := by
  have hv0 : lower_multiple_of_pot w LANE_COUNT = 16 * (w / 16) :=
    lower_multiple (k := 4) hdim.w_lt (by omega)
  have := hdim.w_pos
  have em : w - 16 * (w / 16) = w % 16 := by omega
  rw [Nat.mul_comm 4 w] at o
  refine (tail_rgb_rgb_wp (P := fun w src' d' => X86.rgb_to_bgra t w h ss src' ds d')
    (A := t.checked = true → 3 * (16 * (w / 16)) ≤ ss ∧ 4 * (16 * (w / 16)) ≤ ds)
    (B := X86.Peek t ss src.len w (w % 16) h ∧
      (t.checked = true → 3 * (w % 16) ≤ ss ∧ 4 * (w % 16) ≤ ds))
    (send := 3 * w) (rend := fun w => 3 * w) hdim.w_pos (by rw [hv0]; omega)
    (by rw [hv0]; omega) (by omega) (by rw [hv0]; omega)
    (fun hp o => ?_) ?_ fun s => (o s).1).mono ?_
  · rw [hv0] at hp o ⊢
    exact X86.diffs_wp (fun hk hc => hX hk ⟨(0, _), by simp, hc, fun h => absurd h (by simp)⟩)
      fun hn => rgb_to_bgra_sse2_wp hp hdim.h_pos (by omega) hn hs hd o
  · intro src' d' h1 h2 h3 hv o'
    rw [Nat.mul_comm _ 4] at o' ⊢
    rw [hv0] at h1 h3 hv o' ⊢
    have peek : X86.Peek t ss src'.len (w - 16 * (w / 16)) (w - 16 * (w / 16)) h ↔
        X86.Peek t ss src.len w (w % 16) h := by
      unfold X86.Peek
      rw [em]
      constructor <;> (intro h a b c d; have := h a b c d; omega)
    rw [← em]
    refine (X86.rgb_to_bgra_any_wp (by omega) hdim.h_pos hss
      (fun hk hc => hX hk ⟨(16 * (w / 16), w % 16), by simp, em ▸ hc, ?_⟩) (by omega) (by omega)
      fun s => ⟨(o' s).1, (o' s).2, peek.2 (o s).2⟩).mono
      fun _ hq => ⟨⟨hq.1.1, hq.1.2.1⟩, em.symm ▸ peek.1 hq.1.2.2, hq.2⟩
    rwa [Nat.mul_comm 3, Nat.mul_comm 4]
  · rintro _ ⟨h, hA, hB⟩
    rw [hv0] at hA hB
    refine ⟨⟨by rwa [Nat.mul_comm 4 w], ?_⟩, fun hk p hp => ?_⟩
    · by_cases e : 16 * (w / 16) < w
      · exact (hB e).1
      · exact fun _ h => by omega
    simp only [List.mem_cons, List.not_mem_nil, or_false] at hp
    rcases hp with rfl | rfl
    · rcases Nat.eq_zero_or_pos (16 * (w / 16)) with e | e
      · rw [e]; omega
      · exact hA e hk
    · by_cases e : 16 * (w / 16) < w
      · exact (hB e).2 hk
      · simp only
        omega

theorem rgb_bgra_over {t : Target} {w h ss ds : Nat} {src : Buf} {d : Dst} (hdim : Dim w h)
    (hc : t.checked = true) (hs : src.len + ss < 2 ^ t.bits)
    (hd : d.len + ds < 2 ^ t.bits)
    (hk : X86.Stuck [(0, 16 * (w / 16)), (16 * (w / 16), w % 16)] 3 4 ss ds src.len d.len h) :
    K.Wp True True (rgb_bgra t w h ss src ds d) (fun _ => False) := by
  have hv0 : lower_multiple_of_pot w LANE_COUNT = 16 * (w / 16) :=
    lower_multiple (k := 4) hdim.w_lt (by omega)
  have em : w - 16 * (w / 16) = w % 16 := by omega
  obtain ⟨p, hp, hn, hb⟩ := hk
  simp only [List.mem_cons, List.not_mem_nil, or_false] at hp
  rcases hp with rfl | rfl
  · have hp : 0 < 16 * (w / 16) := by
      by_contra h0
      exact hn (by rw [show 16 * (w / 16) = 0 by omega]; omega)
    unfold rgb_bgra
    simp only
    rw [hv0, if_pos hp]
    exact K.Wp.bind (P := fun _ => False) (X86.diffs_over hc hn trivial) fun _ h => h.elim
  · have hlt : 16 * (w / 16) < w := by
      by_contra h0
      exact hn (by simp only; omega)
    refine tail_over_wp (P := fun w src' d' => X86.rgb_to_bgra t w h ss src' ds d') (h := h)
      (ss := ss) (ds := ds) (by rwa [hv0]) (fun hp => ?_) fun src' d' => ?_
    · rw [hv0] at hp ⊢
      simp only at hb
      rw [Nat.mul_comm 3, Nat.mul_comm 4] at hb
      by_cases hf : 3 * (16 * (w / 16)) ≤ ss ∧ 4 * (16 * (w / 16)) ≤ ds
      · exact rgb_to_bgra_sse2_wp hp hdim.h_pos (by omega) (.inr hf) hs hd fun _ => hb hp
      · exact X86.diffs_over hc hf trivial
    · rw [hv0, em]
      exact X86.diffs_over hc hn trivial

end Verif.Sse2
