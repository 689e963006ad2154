import Verif.Lemmas.Wp
/-! # Portable kernels: exactly when they stay in bounds -/

namespace Verif

/-- Bytes of a source pixel an encoder reads one by one (the alpha of Bgra, which comes last, is not
read). -/
def Sampler.reads : Sampler → Nat
  | .argb => 4
  | .bgra => 3
  | .bgr => 3

/-- Close an obligation from the facts `o` about the lines of the block. -/
local macro "wpo" o:ident : tactic => `(tactic| (intro s; have := $o s; omega))

namespace X86

variable {S X : Prop}

theorem rdI_wp {s : Buf} {i : Nat} (h : S → i < s.len) :
    K.Wp S X (rdI s i) (fun v => i < s.len ∧ 0 ≤ v ∧ v ≤ 255) := by
  unfold rdI
  refine K.Wp.bind (K.Wp.rd h) fun v hv => K.Wp.pure ?_
  have := v.toNat_lt
  omega

theorem unpack2_wp {s : Buf} {i : Nat} (h : S → i + 1 < s.len) :
    K.Wp S X (unpack_ui8x2_i32 s i) (fun v => i + 1 < s.len ∧ (0 ≤ v.1 ∧ v.1 ≤ 255) ∧
      0 ≤ v.2 ∧ v.2 ≤ 255) := by
  unfold unpack_ui8x2_i32
  refine K.Wp.bind (rdI_wp (by wpo h)) fun a ha => ?_
  refine K.Wp.bind (rdI_wp h) fun b hb => K.Wp.pure ?_
  simp only; omega

theorem unpack3_wp {s : Sampler} {b : Buf} {i : Nat} (h : S → i + s.reads ≤ b.len) :
    K.Wp S X (unpack_ui8x3_i32 s b i) (fun v => i + s.reads ≤ b.len ∧
      (0 ≤ v.1 ∧ v.1 ≤ 255) ∧ (0 ≤ v.2.1 ∧ v.2.1 ≤ 255) ∧ 0 ≤ v.2.2 ∧ v.2.2 ≤ 255) := by
  unfold unpack_ui8x3_i32
  cases s <;> simp only [SAMPLER_OFFSETS, Sampler.reads] at * <;>
  (refine K.Wp.bind (rdI_wp (by wpo h)) fun a ha => ?_
   refine K.Wp.bind (rdI_wp (by wpo h)) fun b hb => ?_
   refine K.Wp.bind (rdI_wp (by wpo h)) fun b hb => K.Wp.pure ?_
   simp only; omega)

theorem pack2_wp {d : Dst} {i : Nat} {x y : Int} (h : S → i + 1 < d.len) :
    K.Wp S X (pack_i32x2 d i x y) (fun _ => i + 1 < d.len) :=
  K.Wp.bind (K.Wp.wr (by wpo h)) fun _ _ => K.Wp.wr h

theorem luma_wp (c : Colorimetry) {v : Int × Int × Int} (h : (0 ≤ v.1 ∧ v.1 ≤ 255) ∧
    (0 ≤ v.2.1 ∧ v.2.1 ≤ 255) ∧ 0 ≤ v.2.2 ∧ v.2.2 ≤ 255) :
    K.Wp S X (K.lift (affine_transform v.1 v.2.1 v.2.2 (FORWARD_WEIGHTS c).xr (FORWARD_WEIGHTS c).xg
        (FORWARD_WEIGHTS c).xb (FORWARD_WEIGHTS c).yo)) (fun _ => True) := by
  obtain ⟨v, e, -⟩ := luma_ok c h.1 h.2.1 h.2.2
  exact K.Wp.lift e trivial

theorem add_wp {a b l l' u u' : Int} (h : l ≤ a ∧ a ≤ u) (h' : l' ≤ b ∧ b ≤ u')
    (hl : -2147483648 ≤ l + l') (hu : u + u' ≤ 2147483647) :
    K.Wp S X (K.lift (I32.add a b)) (fun v => l + l' ≤ v ∧ v ≤ u + u') := by
  refine K.Wp.lift (v := a + b) ?_ (by omega)
  rw [I32.add, I32.chk_ok (by omega) (by omega)]

theorem rgb_to_i444_wp (s : Sampler) (c : Colorimetry) {w h ss ys us vs : Nat} {src : Buf}
    {yp up vp : Dst} (hw : 0 < w) (hh : 0 < h)
    (hS : S → Ext src.len ss (s.pf.depth * (w - 1) + s.reads) h ∧ Ext yp.len ys w h ∧
      Ext up.len us w h ∧ Ext vp.len vs w h) :
    K.Wp S X (rgb_to_i444 exactIx s s.pf.depth c w h ss src ys us vs yp up vp) (fun _ =>
      Ext src.len ss (s.pf.depth * (w - 1) + s.reads) h ∧ Ext yp.len ys w h ∧
      Ext up.len us w h ∧ Ext vp.len vs w h) := by
  unfold rgb_to_i444
  simp only [derived_ok, co16_ok, K.liftM_eq, K.lift_ok, pure_bind, wg_eq]
  refine (K.Wp.grid (P := fun y x => ss * y + s.pf.depth * x + s.reads ≤ src.len ∧
    ys * y + 1 * x < yp.len ∧ us * y + 1 * x < up.len ∧ vs * y + 1 * x < vp.len)
    fun y hy x hx => ?_).mono fun _ hp => ?_
  · have o : S → ss * y + s.pf.depth * x + s.reads ≤ src.len ∧
        ys * y + 1 * x < yp.len ∧ us * y + 1 * x < up.len ∧ vs * y + 1 * x < vp.len := by
      intro hs
      obtain ⟨h1, h2, h3, h4⟩ := hS hs
      have h1 := h1.at hy
      have h2 := h2.at hy
      have h3 := h3.at hy
      have h4 := h4.at hy
      have : s.pf.depth * x ≤ s.pf.depth * (w - 1) := Nat.mul_le_mul_left _ (by omega)
      omega
    refine K.Wp.bind (unpack3_wp fun s => (o s).1) fun v hv => ?_
    refine K.Wp.bind (luma_wp c hv.2) fun _ _ => ?_
    refine K.Wp.bind (K.Wp.wr (by wpo o)) fun _ h1 => ?_
    obtain ⟨l, e, -⟩ := cb444_ok c hv.2.1 hv.2.2.1 hv.2.2.2
    refine K.Wp.bind (K.Wp.lift (Q := fun _ => True) e trivial) fun _ _ => ?_
    refine K.Wp.bind (K.Wp.wr (by wpo o)) fun _ h2 => ?_
    obtain ⟨l, e, -⟩ := cr444_ok c hv.2.1 hv.2.2.1 hv.2.2.2
    refine K.Wp.bind (K.Wp.lift (Q := fun _ => True) e trivial) fun _ _ => ?_
    refine (K.Wp.wr (by wpo o)).mono fun _ h3 => ?_
    exact ⟨hv.1, h1, h2, h3⟩
  · have := hp (h - 1) (by omega) (w - 1) (by omega)
    unfold Ext
    omega

theorem rgb_to_i420_wp (s : Sampler) (c : Colorimetry) {w h ss ys us vs : Nat} {src : Buf}
    {yp up vp : Dst} (hw : 0 < w) (hh : 0 < h) (hw2 : w % 2 = 0) (hh2 : h % 2 = 0)
    (hS : S → Ext src.len ss (s.pf.depth * (w - 1) + s.reads) h ∧ Ext yp.len ys w h ∧
      Ext up.len us (w / 2) (h / 2) ∧ Ext vp.len vs (w / 2) (h / 2)) :
    K.Wp S X (rgb_to_i420 exactIx s s.pf.depth c w h ss src ys us vs yp up vp) (fun _ =>
      Ext src.len ss (s.pf.depth * (w - 1) + s.reads) h ∧ Ext yp.len ys w h ∧
      Ext up.len us (w / 2) (h / 2) ∧ Ext vp.len vs (w / 2) (h / 2)) := by
  unfold rgb_to_i420
  simp only [derived_ok, co18_ok, K.liftM_eq, K.lift_ok, pure_bind, wg_eq]
  refine (K.Wp.grid (P := fun y x => ss * (2 * y + 1) + s.pf.depth * (2 * x + 1) + s.reads ≤ src.len ∧
    ys * (2 * y + 1) + 1 * (2 * x) + 1 < yp.len ∧ us * y + 1 * x < up.len ∧ vs * y + 1 * x < vp.len)
    fun y hy x hx => ?_).mono fun _ hp => ?_
  · have o : S → (ss * (2 * y) + s.pf.depth * (2 * x) + s.reads ≤ src.len ∧
        ss * (2 * y) + s.pf.depth * (2 * x + 1) + s.reads ≤ src.len ∧
        ss * (2 * y + 1) + s.pf.depth * (2 * x) + s.reads ≤ src.len ∧
        ss * (2 * y + 1) + s.pf.depth * (2 * x + 1) + s.reads ≤ src.len) ∧
        ys * (2 * y) + 1 * (2 * x) + 1 < yp.len ∧ ys * (2 * y + 1) + 1 * (2 * x) + 1 < yp.len ∧
        us * y + 1 * x < up.len ∧ vs * y + 1 * x < vp.len := by
      intro hs
      obtain ⟨h1, h2, h3, h4⟩ := hS hs
      have h1' := h1.at (y := 2 * y) (by omega)
      have h2' := h2.at (y := 2 * y) (by omega)
      have h1 := h1.at (y := 2 * y + 1) (by omega)
      have h2 := h2.at (y := 2 * y + 1) (by omega)
      have h3 := h3.at hy
      have h4 := h4.at hy
      have : s.pf.depth * (2 * x) ≤ s.pf.depth * (w - 1) := Nat.mul_le_mul_left _ (by omega)
      have : s.pf.depth * (2 * x + 1) ≤ s.pf.depth * (w - 1) := Nat.mul_le_mul_left _ (by omega)
      omega
    refine K.Wp.bind (unpack3_wp fun s => (o s).1.1) fun v00 hv00 => ?_
    refine K.Wp.bind (unpack3_wp fun s => (o s).1.2.1) fun v10 hv10 => ?_
    refine K.Wp.bind (luma_wp c hv00.2) fun _ _ => ?_
    refine K.Wp.bind (luma_wp c hv10.2) fun _ _ => ?_
    refine K.Wp.bind (pack2_wp (by wpo o)) fun _ h1 => ?_
    refine K.Wp.bind (unpack3_wp fun s => (o s).1.2.2.1) fun v01 hv01 => ?_
    refine K.Wp.bind (unpack3_wp fun s => (o s).1.2.2.2) fun v11 hv11 => ?_
    refine K.Wp.bind (luma_wp c hv01.2) fun _ _ => ?_
    refine K.Wp.bind (luma_wp c hv11.2) fun _ _ => ?_
    refine K.Wp.bind (pack2_wp (by wpo o)) fun _ h2 => ?_
    refine K.Wp.bind (add_wp hv00.2.1 hv10.2.1 (by omega) (by omega)) fun _ a1 => ?_
    refine K.Wp.bind (add_wp hv01.2.1 hv11.2.1 (by omega) (by omega)) fun _ a2 => ?_
    refine K.Wp.bind (add_wp a1 a2 (by omega) (by omega)) fun _ ra => ?_
    refine K.Wp.bind (add_wp hv00.2.2.1 hv10.2.2.1 (by omega) (by omega)) fun _ a1 => ?_
    refine K.Wp.bind (add_wp hv01.2.2.1 hv11.2.2.1 (by omega) (by omega)) fun _ a2 => ?_
    refine K.Wp.bind (add_wp a1 a2 (by omega) (by omega)) fun _ ga => ?_
    refine K.Wp.bind (add_wp hv00.2.2.2 hv10.2.2.2 (by omega) (by omega)) fun _ a1 => ?_
    refine K.Wp.bind (add_wp hv01.2.2.2 hv11.2.2.2 (by omega) (by omega)) fun _ a2 => ?_
    refine K.Wp.bind (add_wp a1 a2 (by omega) (by omega)) fun _ ba => ?_
    obtain ⟨l, e, -⟩ := cb420_ok c ra ga ba
    refine K.Wp.bind (K.Wp.lift (Q := fun _ => True) e trivial) fun _ _ => ?_
    refine K.Wp.bind (K.Wp.wr (by wpo o)) fun _ h3 => ?_
    obtain ⟨l, e, -⟩ := cr420_ok c ra ga ba
    refine K.Wp.bind (K.Wp.lift (Q := fun _ => True) e trivial) fun _ _ => ?_
    refine (K.Wp.wr (by wpo o)).mono fun _ h4 => ?_
    exact ⟨hv11.1, h2, h3, h4⟩
  · have := hp (h / 2 - 1) (by omega) (w / 2 - 1) (by omega)
    unfold Ext
    rw [show 2 * (h / 2 - 1) + 1 = h - 1 by omega, show 2 * (w / 2 - 1) + 1 = w - 1 by omega] at this
    omega

theorem rgb_to_nv12_wp (s : Sampler) (c : Colorimetry) {w h ss ys uvs : Nat} {src : Buf}
    {yp uvp : Dst} (hw : 0 < w) (hh : 0 < h) (hw2 : w % 2 = 0) (hh2 : h % 2 = 0)
    (hS : S → Ext src.len ss (s.pf.depth * (w - 1) + s.reads) h ∧ Ext yp.len ys w h ∧
      Ext uvp.len uvs w (h / 2)) :
    K.Wp S X (rgb_to_nv12 exactIx s s.pf.depth c w h ss src ys uvs yp uvp) (fun _ =>
      Ext src.len ss (s.pf.depth * (w - 1) + s.reads) h ∧ Ext yp.len ys w h ∧
      Ext uvp.len uvs w (h / 2)) := by
  unfold rgb_to_nv12
  simp only [derived_ok, co18_ok, K.liftM_eq, K.lift_ok, pure_bind, wg_eq]
  refine (K.Wp.grid (P := fun y x => ss * (2 * y + 1) + s.pf.depth * (2 * x + 1) + s.reads ≤ src.len ∧
    ys * (2 * y + 1) + 1 * (2 * x) + 1 < yp.len ∧ uvs * y + 2 * x + 1 < uvp.len)
    fun y hy x hx => ?_).mono fun _ hp => ?_
  · have o : S → (ss * (2 * y) + s.pf.depth * (2 * x) + s.reads ≤ src.len ∧
        ss * (2 * y) + s.pf.depth * (2 * x + 1) + s.reads ≤ src.len ∧
        ss * (2 * y + 1) + s.pf.depth * (2 * x) + s.reads ≤ src.len ∧
        ss * (2 * y + 1) + s.pf.depth * (2 * x + 1) + s.reads ≤ src.len) ∧
        ys * (2 * y) + 1 * (2 * x) + 1 < yp.len ∧ ys * (2 * y + 1) + 1 * (2 * x) + 1 < yp.len ∧
        uvs * y + 2 * x + 1 < uvp.len := by
      intro hs
      obtain ⟨h1, h2, h3⟩ := hS hs
      have h1' := h1.at (y := 2 * y) (by omega)
      have h2' := h2.at (y := 2 * y) (by omega)
      have h1 := h1.at (y := 2 * y + 1) (by omega)
      have h2 := h2.at (y := 2 * y + 1) (by omega)
      have h3 := h3.at hy
      have : s.pf.depth * (2 * x) ≤ s.pf.depth * (w - 1) := Nat.mul_le_mul_left _ (by omega)
      have : s.pf.depth * (2 * x + 1) ≤ s.pf.depth * (w - 1) := Nat.mul_le_mul_left _ (by omega)
      omega
    refine K.Wp.bind (unpack3_wp fun s => (o s).1.1) fun v00 hv00 => ?_
    refine K.Wp.bind (unpack3_wp fun s => (o s).1.2.1) fun v10 hv10 => ?_
    refine K.Wp.bind (luma_wp c hv00.2) fun _ _ => ?_
    refine K.Wp.bind (luma_wp c hv10.2) fun _ _ => ?_
    refine K.Wp.bind (pack2_wp (by wpo o)) fun _ h1 => ?_
    refine K.Wp.bind (unpack3_wp fun s => (o s).1.2.2.1) fun v01 hv01 => ?_
    refine K.Wp.bind (unpack3_wp fun s => (o s).1.2.2.2) fun v11 hv11 => ?_
    refine K.Wp.bind (luma_wp c hv01.2) fun _ _ => ?_
    refine K.Wp.bind (luma_wp c hv11.2) fun _ _ => ?_
    refine K.Wp.bind (pack2_wp (by wpo o)) fun _ h2 => ?_
    refine K.Wp.bind (add_wp hv00.2.1 hv10.2.1 (by omega) (by omega)) fun _ a1 => ?_
    refine K.Wp.bind (add_wp hv01.2.1 hv11.2.1 (by omega) (by omega)) fun _ a2 => ?_
    refine K.Wp.bind (add_wp a1 a2 (by omega) (by omega)) fun _ ra => ?_
    refine K.Wp.bind (add_wp hv00.2.2.1 hv10.2.2.1 (by omega) (by omega)) fun _ a1 => ?_
    refine K.Wp.bind (add_wp hv01.2.2.1 hv11.2.2.1 (by omega) (by omega)) fun _ a2 => ?_
    refine K.Wp.bind (add_wp a1 a2 (by omega) (by omega)) fun _ ga => ?_
    refine K.Wp.bind (add_wp hv00.2.2.2 hv10.2.2.2 (by omega) (by omega)) fun _ a1 => ?_
    refine K.Wp.bind (add_wp hv01.2.2.2 hv11.2.2.2 (by omega) (by omega)) fun _ a2 => ?_
    refine K.Wp.bind (add_wp a1 a2 (by omega) (by omega)) fun _ ba => ?_
    obtain ⟨l, e, -⟩ := cb420_ok c ra ga ba
    refine K.Wp.bind (K.Wp.lift (Q := fun _ => True) e trivial) fun _ _ => ?_
    obtain ⟨l, e, -⟩ := cr420_ok c ra ga ba
    refine K.Wp.bind (K.Wp.lift (Q := fun _ => True) e trivial) fun _ _ => ?_
    refine (pack2_wp (by wpo o)).mono fun _ h3 => ?_
    exact ⟨hv11.1, h2, h3⟩
  · have := hp (h / 2 - 1) (by omega) (w / 2 - 1) (by omega)
    unfold Ext
    rw [show 2 * (h / 2 - 1) + 1 = h - 1 by omega, show 2 * (w / 2 - 1) + 1 = w - 1 by omega] at this
    omega

/-! ## Decoders -/

theorem put_bgra_wp (c : Colorimetry) {rev : Bool} {d : Dst} {i : Nat} (h : S → i + 4 ≤ d.len)
    {l cb cr : Int} (hl : 0 ≤ l ∧ l ≤ 255) (hb : 0 ≤ cb ∧ cb ≤ 255) (hr : 0 ≤ cr ∧ cr ≤ 255) :
    K.Wp S X (put_bgra (BACKWARD_WEIGHTS c) rev d i l (tr (BACKWARD_WEIGHTS c) cr)
      (tg (BACKWARD_WEIGHTS c) cb cr) (tb (BACKWARD_WEIGHTS c) cb)) (fun _ => i + 4 ≤ d.len) := by
  unfold put_bgra
  simp only [decode_px_ok c hl hb hr, K.liftM_eq, K.lift_ok, pure_bind]
  cases rev <;> simp only [pack_ui8x3, Bool.false_eq_true, if_false, if_true] <;>
  (refine K.Wp.bind (K.Wp.wr (by wpo h)) fun _ _ => ?_
   refine K.Wp.bind (K.Wp.wr (by wpo h)) fun _ _ => ?_
   refine K.Wp.bind (K.Wp.wr (by wpo h)) fun _ _ => ?_
   refine (K.Wp.wr (by wpo h)).mono fun _ _ => by omega)

theorem put_rgb_wp (c : Colorimetry) {d : Dst} {i : Nat} (h : S → i + 3 ≤ d.len)
    {l cb cr : Int} (hl : 0 ≤ l ∧ l ≤ 255) (hb : 0 ≤ cb ∧ cb ≤ 255) (hr : 0 ≤ cr ∧ cr ≤ 255) :
    K.Wp S X (put_rgb (BACKWARD_WEIGHTS c) d i l (tr (BACKWARD_WEIGHTS c) cr)
      (tg (BACKWARD_WEIGHTS c) cb cr) (tb (BACKWARD_WEIGHTS c) cb)) (fun _ => i + 3 ≤ d.len) := by
  unfold put_rgb
  simp only [decode_px_ok c hl hb hr, K.liftM_eq, K.lift_ok, pure_bind, pack_rgb]
  refine K.Wp.bind (K.Wp.wr (by wpo h)) fun _ _ => ?_
  refine K.Wp.bind (K.Wp.wr (by wpo h)) fun _ _ => ?_
  refine (K.Wp.wr (by wpo h)).mono fun _ _ => by omega

theorem i444_to_bgra_wp (c : Colorimetry) (rev : Bool) {w h ys us vs ds : Nat}
    {yb ub vb : Buf} {d : Dst} (hw : 0 < w) (hh : 0 < h)
    (hS : S → Ext yb.len ys w h ∧ Ext ub.len us w h ∧ Ext vb.len vs w h ∧ Ext d.len ds (4 * w) h) :
    K.Wp S X (i444_to_bgra exactIx c rev w h ys us vs yb ub vb ds d) (fun _ =>
      Ext yb.len ys w h ∧ Ext ub.len us w h ∧ Ext vb.len vs w h ∧ Ext d.len ds (4 * w) h) := by
  unfold i444_to_bgra
  simp only [K.liftM_eq, wg_eq, K.liftM_eq, K.lift_ok, pure_bind]
  refine (K.Wp.grid (P := fun y x => ys * y + 1 * x < yb.len ∧ us * y + 1 * x < ub.len ∧
    vs * y + 1 * x < vb.len ∧ ds * y + 4 * x + 4 ≤ d.len) fun y hy x hx => ?_).mono fun _ hp => ?_
  · have o : S → ys * y + 1 * x < yb.len ∧ us * y + 1 * x < ub.len ∧
        vs * y + 1 * x < vb.len ∧ ds * y + 4 * x + 4 ≤ d.len := by
      intro hs
      obtain ⟨h1, h2, h3, h4⟩ := hS hs
      have h1 := h1.at hy
      have h2 := h2.at hy
      have h3 := h3.at hy
      have h4 := h4.at hy
      omega
    refine K.Wp.bind (rdI_wp (by wpo o)) fun l hl => ?_
    refine K.Wp.bind (rdI_wp (by wpo o)) fun cb hb => ?_
    refine K.Wp.bind (rdI_wp (by wpo o)) fun cr hr => ?_
    simp only [chroma_terms_ok c hb.2 hr.2, K.lift_ok, pure_bind]
    refine (put_bgra_wp c (by wpo o) hl.2 hb.2 hr.2).mono fun _ h4 => ?_
    exact ⟨hl.1, hb.1, hr.1, h4⟩
  · have := hp (h - 1) (by omega) (w - 1) (by omega)
    unfold Ext
    omega

theorem i420_to_bgra_wp (c : Colorimetry) (rev : Bool) {w h ys us vs ds : Nat}
    {yb ub vb : Buf} {d : Dst} (hw : 0 < w) (hh : 0 < h) (hw2 : w % 2 = 0) (hh2 : h % 2 = 0)
    (hS : S → Ext yb.len ys w h ∧ Ext ub.len us (w / 2) (h / 2) ∧ Ext vb.len vs (w / 2) (h / 2) ∧
      Ext d.len ds (4 * w) h) :
    K.Wp S X (i420_to_bgra exactIx c rev w h ys us vs yb ub vb ds d) (fun _ =>
      Ext yb.len ys w h ∧ Ext ub.len us (w / 2) (h / 2) ∧ Ext vb.len vs (w / 2) (h / 2) ∧
      Ext d.len ds (4 * w) h) := by
  unfold i420_to_bgra
  simp only [K.liftM_eq, wg_eq, K.liftM_eq, K.lift_ok, pure_bind]
  refine (K.Wp.grid (P := fun y x => ys * (2 * y + 1) + 1 * (2 * x) + 1 < yb.len ∧
    us * y + 1 * x < ub.len ∧ vs * y + 1 * x < vb.len ∧
    ds * (2 * y + 1) + 4 * (2 * x + 1) + 4 ≤ d.len) fun y hy x hx => ?_).mono fun _ hp => ?_
  · have o : S → ys * (2 * y) + 1 * (2 * x) + 1 < yb.len ∧ ys * (2 * y + 1) + 1 * (2 * x) + 1 < yb.len ∧
        us * y + 1 * x < ub.len ∧ vs * y + 1 * x < vb.len ∧
        ds * (2 * y) + 4 * (2 * x + 1) + 4 ≤ d.len ∧
        ds * (2 * y + 1) + 4 * (2 * x + 1) + 4 ≤ d.len := by
      intro hs
      obtain ⟨h1, h2, h3, h4⟩ := hS hs
      have h1' := h1.at (y := 2 * y) (by omega)
      have h1 := h1.at (y := 2 * y + 1) (by omega)
      have h2 := h2.at hy
      have h3 := h3.at hy
      have h4' := h4.at (y := 2 * y) (by omega)
      have h4 := h4.at (y := 2 * y + 1) (by omega)
      omega
    refine K.Wp.bind (rdI_wp (by wpo o)) fun cb hb => ?_
    refine K.Wp.bind (rdI_wp (by wpo o)) fun cr hr => ?_
    simp only [chroma_terms_ok c hb.2 hr.2, K.lift_ok, pure_bind]
    refine K.Wp.bind (unpack2_wp (by wpo o)) fun l hl => ?_
    refine K.Wp.bind (put_bgra_wp c (by wpo o) hl.2.1 hb.2 hr.2) fun _ _ => ?_
    refine K.Wp.bind (put_bgra_wp c (by wpo o) hl.2.2 hb.2 hr.2) fun _ _ => ?_
    refine K.Wp.bind (unpack2_wp (by wpo o)) fun l' hl' => ?_
    refine K.Wp.bind (put_bgra_wp c (by wpo o) hl'.2.1 hb.2 hr.2) fun _ _ => ?_
    refine (put_bgra_wp c (by wpo o) hl'.2.2 hb.2 hr.2).mono fun _ h4 => ?_
    exact ⟨hl'.1, hb.1, hr.1, h4⟩
  · have := hp (h / 2 - 1) (by omega) (w / 2 - 1) (by omega)
    rw [show 2 * (h / 2 - 1) + 1 = h - 1 by omega, show 2 * (w / 2 - 1) + 1 = w - 1 by omega] at this
    unfold Ext
    omega

theorem nv12_to_bgra_wp (c : Colorimetry) (rev : Bool) {w h ys uvs ds : Nat}
    {yb uvb : Buf} {d : Dst} (hw : 0 < w) (hh : 0 < h) (hw2 : w % 2 = 0) (hh2 : h % 2 = 0)
    (hS : S → Ext yb.len ys w h ∧ Ext uvb.len uvs w (h / 2) ∧ Ext d.len ds (4 * w) h) :
    K.Wp S X (nv12_to_bgra exactIx c rev w h ys uvs yb uvb ds d) (fun _ =>
      Ext yb.len ys w h ∧ Ext uvb.len uvs w (h / 2) ∧ Ext d.len ds (4 * w) h) := by
  unfold nv12_to_bgra
  simp only [K.liftM_eq, wg_eq, K.liftM_eq, K.lift_ok, pure_bind]
  refine (K.Wp.grid (P := fun y x => ys * (2 * y + 1) + 1 * (2 * x) + 1 < yb.len ∧
    uvs * y + 2 * x + 1 < uvb.len ∧
    ds * (2 * y + 1) + 4 * (2 * x + 1) + 4 ≤ d.len) fun y hy x hx => ?_).mono fun _ hp => ?_
  · have o : S → ys * (2 * y) + 1 * (2 * x) + 1 < yb.len ∧ ys * (2 * y + 1) + 1 * (2 * x) + 1 < yb.len ∧
        uvs * y + 2 * x + 1 < uvb.len ∧
        ds * (2 * y) + 4 * (2 * x + 1) + 4 ≤ d.len ∧
        ds * (2 * y + 1) + 4 * (2 * x + 1) + 4 ≤ d.len := by
      intro hs
      obtain ⟨h1, h2, h4⟩ := hS hs
      have h1' := h1.at (y := 2 * y) (by omega)
      have h1 := h1.at (y := 2 * y + 1) (by omega)
      have h2 := h2.at hy
      have h4' := h4.at (y := 2 * y) (by omega)
      have h4 := h4.at (y := 2 * y + 1) (by omega)
      omega
    refine K.Wp.bind (unpack2_wp (by wpo o)) fun q hq => ?_
    simp only [chroma_terms_ok c hq.2.1 hq.2.2, K.lift_ok, pure_bind]
    refine K.Wp.bind (unpack2_wp (by wpo o)) fun l hl => ?_
    refine K.Wp.bind (put_bgra_wp c (by wpo o) hl.2.1 hq.2.1 hq.2.2) fun _ _ => ?_
    refine K.Wp.bind (put_bgra_wp c (by wpo o) hl.2.2 hq.2.1 hq.2.2) fun _ _ => ?_
    refine K.Wp.bind (unpack2_wp (by wpo o)) fun l' hl' => ?_
    refine K.Wp.bind (put_bgra_wp c (by wpo o) hl'.2.1 hq.2.1 hq.2.2) fun _ _ => ?_
    refine (put_bgra_wp c (by wpo o) hl'.2.2 hq.2.1 hq.2.2).mono fun _ h4 => ?_
    exact ⟨hl'.1, hq.1, h4⟩
  · have := hp (h / 2 - 1) (by omega) (w / 2 - 1) (by omega)
    rw [show 2 * (h / 2 - 1) + 1 = h - 1 by omega, show 2 * (w / 2 - 1) + 1 = w - 1 by omega] at this
    unfold Ext
    omega

theorem nv12_to_rgb_wp (c : Colorimetry) {w h ys uvs ds : Nat}
    {yb uvb : Buf} {d : Dst} (hw : 0 < w) (hh : 0 < h) (hw2 : w % 2 = 0) (hh2 : h % 2 = 0)
    (hS : S → Ext yb.len ys w h ∧ Ext uvb.len uvs w (h / 2) ∧ Ext d.len ds (3 * w) h) :
    K.Wp S X (nv12_to_rgb exactIx c w h ys uvs yb uvb ds d) (fun _ =>
      Ext yb.len ys w h ∧ Ext uvb.len uvs w (h / 2) ∧ Ext d.len ds (3 * w) h) := by
  unfold nv12_to_rgb
  simp only [K.liftM_eq, wg_eq, K.liftM_eq, K.lift_ok, pure_bind]
  refine (K.Wp.grid (P := fun y x => ys * (2 * y + 1) + 1 * (2 * x) + 1 < yb.len ∧
    uvs * y + 2 * x + 1 < uvb.len ∧
    ds * (2 * y + 1) + 3 * (2 * x + 1) + 3 ≤ d.len) fun y hy x hx => ?_).mono fun _ hp => ?_
  · have o : S → ys * (2 * y) + 1 * (2 * x) + 1 < yb.len ∧ ys * (2 * y + 1) + 1 * (2 * x) + 1 < yb.len ∧
        uvs * y + 2 * x + 1 < uvb.len ∧
        ds * (2 * y) + 3 * (2 * x + 1) + 3 ≤ d.len ∧
        ds * (2 * y + 1) + 3 * (2 * x + 1) + 3 ≤ d.len := by
      intro hs
      obtain ⟨h1, h2, h4⟩ := hS hs
      have h1' := h1.at (y := 2 * y) (by omega)
      have h1 := h1.at (y := 2 * y + 1) (by omega)
      have h2 := h2.at hy
      have h4' := h4.at (y := 2 * y) (by omega)
      have h4 := h4.at (y := 2 * y + 1) (by omega)
      omega
    refine K.Wp.bind (unpack2_wp (by wpo o)) fun q hq => ?_
    simp only [chroma_terms_ok c hq.2.1 hq.2.2, K.lift_ok, pure_bind]
    refine K.Wp.bind (unpack2_wp (by wpo o)) fun l hl => ?_
    refine K.Wp.bind (put_rgb_wp c (by wpo o) hl.2.1 hq.2.1 hq.2.2) fun _ _ => ?_
    refine K.Wp.bind (put_rgb_wp c (by wpo o) hl.2.2 hq.2.1 hq.2.2) fun _ _ => ?_
    refine K.Wp.bind (unpack2_wp (by wpo o)) fun l' hl' => ?_
    refine K.Wp.bind (put_rgb_wp c (by wpo o) hl'.2.1 hq.2.1 hq.2.2) fun _ _ => ?_
    refine (put_rgb_wp c (by wpo o) hl'.2.2 hq.2.1 hq.2.2).mono fun _ h4 => ?_
    exact ⟨hl'.1, hq.1, h4⟩
  · have := hp (h / 2 - 1) (by omega) (w / 2 - 1) (by omega)
    rw [show 2 * (h / 2 - 1) + 1 = h - 1 by omega, show 2 * (w / 2 - 1) + 1 = w - 1 by omega] at this
    unfold Ext
    omega

end X86

end Verif
