import Verif.Lemmas.Sim
import Verif.Lemmas.WpRgb
/-! # Portable kernels: `usize` offsets are exact -/

namespace Verif.X86

theorem depth_le (s : Sampler) : s.pf.depth ≤ 4 := by cases s <;> decide

theorem step_pred (x d : Nat) (hx : 0 < x) : x * d = (x - 1) * d + d := by
  obtain ⟨n, rfl⟩ : ∃ n, x = n + 1 := ⟨x - 1, by omega⟩
  rw [Nat.add_sub_cancel, Nat.add_mul, Nat.one_mul]

theorem pair_pred (x d : Nat) (hx : 0 < x) : 2 * x * d = 2 * (x - 1) * d + 2 * d := by
  obtain ⟨n, rfl⟩ : ∃ n, x = n + 1 := ⟨x - 1, by omega⟩
  rw [Nat.add_sub_cancel, Nat.mul_add, Nat.add_mul]

theorem rgb_to_nv12_agrees {t : Target} (s : Sampler) (c : Colorimetry) {w h ss ys uvs : Nat}
    {src : Buf} {yp uvp : Dst} (hB : 256 ≤ 2 ^ t.bits) (hs : Close t src.len ss)
    (hy : Close t yp.len ys) (hu : Close t uvp.len uvs) :
    rgb_to_nv12 (wg_index t) s s.pf.depth c w h ss src ys uvs yp uvp =
      rgb_to_nv12 exactIx s s.pf.depth c w h ss src ys uvs yp uvp := by
  obtain ⟨hs, hs'⟩ := hs
  obtain ⟨hy, hy'⟩ := hy
  obtain ⟨hu, hu'⟩ := hu
  unfold rgb_to_nv12
  simp only [derived_ok, co18_ok, K.liftM_eq, K.lift_ok, pure_bind]
  refine K.Sim.grid (P := fun y x => (ss * (2 * y + 1) + 2 * x * s.pf.depth ≤ src.len ∧
    ss * (2 * y + 1) + (2 * x + 1) * s.pf.depth ≤ src.len) ∧
    ys * (2 * y + 1) + 2 * x * 1 ≤ yp.len ∧ uvs * y + x * 2 ≤ uvp.len)
    fun y hyh hz x hxw hj => ?_
  have hp := fun e : 0 < x => hj (x - 1) (by omega)
  have hd := depth_le s
  have m1 : 2 * x * s.pf.depth ≤ 2 * x * 4 := Nat.mul_le_mul_left _ hd
  have m2 : (2 * x + 1) * s.pf.depth = 2 * x * s.pf.depth + s.pf.depth := by
    rw [Nat.add_mul, Nat.one_mul]
  have m3 := pair_pred x s.pf.depth
  have b1 := line_even hs (y := y) (o := 2 * x * s.pf.depth) (by omega)
    fun z hz' => (hz z hz' x hxw).1.1
  have b2 := line_even hs (y := y) (o := (2 * x + 1) * s.pf.depth) (by omega)
    fun z hz' => (hz z hz' x hxw).1.2
  have b3 := line_even hy (y := y) (o := 2 * x * 1) (by omega) fun z hz' => (hz z hz' x hxw).2.1
  have b4 := line_next hu (y := y) (o := x * 2) (by omega) fun z hz' => (hz z hz' x hxw).2.2
  have e1 := succ_line ss (2 * y)
  have e2 := succ_line ys (2 * y)
  sim_ix; sim_op unpack3_wp nofun
  sim_ix; sim_op unpack3_wp nofun
  sim_any; sim_any
  sim_ix; sim_op pack2_wp nofun
  sim_ix; sim_op unpack3_wp nofun
  sim_ix; sim_op unpack3_wp nofun
  sim_any; sim_any
  sim_ix; sim_op pack2_wp nofun
  iterate 11 sim_any
  sim_ix
  exact (K.Sim.refl (.wp (pack2_wp nofun))).mono fun _ _ => by omega

theorem rgb_to_i420_agrees {t : Target} (s : Sampler) (c : Colorimetry) {w h ss ys us vs : Nat}
    {src : Buf} {yp up vp : Dst} (hB : 256 ≤ 2 ^ t.bits) (hs : Close t src.len ss)
    (hy : Close t yp.len ys) (hu : Close t up.len us)
    (hv : Close t vp.len vs) :
    rgb_to_i420 (wg_index t) s s.pf.depth c w h ss src ys us vs yp up vp =
      rgb_to_i420 exactIx s s.pf.depth c w h ss src ys us vs yp up vp := by
  obtain ⟨hs, hs'⟩ := hs
  obtain ⟨hy, hy'⟩ := hy
  obtain ⟨hu, hu'⟩ := hu
  obtain ⟨hv, hv'⟩ := hv
  unfold rgb_to_i420
  simp only [derived_ok, co18_ok, K.liftM_eq, K.lift_ok, pure_bind]
  refine K.Sim.grid (P := fun y x => (ss * (2 * y + 1) + 2 * x * s.pf.depth ≤ src.len ∧
    ss * (2 * y + 1) + (2 * x + 1) * s.pf.depth ≤ src.len) ∧
    ys * (2 * y + 1) + 2 * x * 1 ≤ yp.len ∧ us * y + x * 1 ≤ up.len ∧ vs * y + x * 1 ≤ vp.len)
    fun y hyh hz x hxw hj => ?_
  have hp := fun e : 0 < x => hj (x - 1) (by omega)
  have hd := depth_le s
  have m1 : 2 * x * s.pf.depth ≤ 2 * x * 4 := Nat.mul_le_mul_left _ hd
  have m2 : (2 * x + 1) * s.pf.depth = 2 * x * s.pf.depth + s.pf.depth := by
    rw [Nat.add_mul, Nat.one_mul]
  have m3 := pair_pred x s.pf.depth
  have b1 := line_even hs (y := y) (o := 2 * x * s.pf.depth) (by omega)
    fun z hz' => (hz z hz' x hxw).1.1
  have b2 := line_even hs (y := y) (o := (2 * x + 1) * s.pf.depth) (by omega)
    fun z hz' => (hz z hz' x hxw).1.2
  have b3 := line_even hy (y := y) (o := 2 * x * 1) (by omega) fun z hz' => (hz z hz' x hxw).2.1
  have b4 := line_next hu (y := y) (o := x * 1) (by omega) fun z hz' => (hz z hz' x hxw).2.2.1
  have b5 := line_next hv (y := y) (o := x * 1) (by omega) fun z hz' => (hz z hz' x hxw).2.2.2
  have e1 := succ_line ss (2 * y)
  have e2 := succ_line ys (2 * y)
  sim_ix; sim_op unpack3_wp nofun
  sim_ix; sim_op unpack3_wp nofun
  sim_any; sim_any
  sim_ix; sim_op pack2_wp nofun
  sim_ix; sim_op unpack3_wp nofun
  sim_ix; sim_op unpack3_wp nofun
  sim_any; sim_any
  sim_ix; sim_op pack2_wp nofun
  iterate 9 sim_any
  sim_ix; sim_ix
  sim_any
  sim_op K.Wp.wr nofun
  sim_any
  exact (K.Sim.refl (.wp (K.Wp.wr nofun))).mono fun _ _ => by omega

theorem rgb_to_i444_agrees {t : Target} (s : Sampler) (c : Colorimetry) {w h ss ys us vs : Nat}
    {src : Buf} {yp up vp : Dst} (hB : 256 ≤ 2 ^ t.bits) (hs : Close t src.len ss)
    (hy : Close t yp.len ys) (hu : Close t up.len us)
    (hv : Close t vp.len vs) :
    rgb_to_i444 (wg_index t) s s.pf.depth c w h ss src ys us vs yp up vp =
      rgb_to_i444 exactIx s s.pf.depth c w h ss src ys us vs yp up vp := by
  obtain ⟨hs, hs'⟩ := hs
  obtain ⟨hy, hy'⟩ := hy
  obtain ⟨hu, hu'⟩ := hu
  obtain ⟨hv, hv'⟩ := hv
  unfold rgb_to_i444
  simp only [derived_ok, co16_ok, K.liftM_eq, K.lift_ok, pure_bind]
  refine K.Sim.grid (P := fun y x => ss * y + x * s.pf.depth ≤ src.len ∧
    ys * y + x * 1 ≤ yp.len ∧ us * y + x * 1 ≤ up.len ∧ vs * y + x * 1 ≤ vp.len)
    fun y hyh hz x hxw hj => ?_
  have hp := fun e : 0 < x => hj (x - 1) (by omega)
  have hd := depth_le s
  have m1 : x * s.pf.depth ≤ x * 4 := Nat.mul_le_mul_left _ hd
  have m2 := step_pred x s.pf.depth
  have b1 := line_next hs (y := y) (o := x * s.pf.depth) (by omega)
    fun z hz' => (hz z hz' x hxw).1
  have b2 := line_next hy (y := y) (o := x * 1) (by omega) fun z hz' => (hz z hz' x hxw).2.1
  have b3 := line_next hu (y := y) (o := x * 1) (by omega) fun z hz' => (hz z hz' x hxw).2.2.1
  have b4 := line_next hv (y := y) (o := x * 1) (by omega) fun z hz' => (hz z hz' x hxw).2.2.2
  sim_ix; sim_op unpack3_wp nofun
  sim_ix; sim_ix; sim_ix
  sim_any
  sim_op K.Wp.wr nofun
  sim_any
  sim_op K.Wp.wr nofun
  sim_any
  exact (K.Sim.refl (.wp (K.Wp.wr nofun))).mono fun _ _ => by omega

/-! ## Decoders -/

theorem put_bgra_post {w : Bwd} {rev : Bool} {d : Dst} {i : Nat} {l sr sg sb : Int} :
    K.Post (put_bgra w rev d i l sr sg sb) (fun _ => i < d.len) := by
  unfold put_bgra
  refine K.Post.last fun _ => ?_
  cases rev <;> simp only [pack_ui8x3, Bool.false_eq_true, if_false, if_true] <;>
  exact K.Post.first (.wp (K.Wp.wr nofun))

theorem put_rgb_post {w : Bwd} {d : Dst} {i : Nat} {l sr sg sb : Int} :
    K.Post (put_rgb w d i l sr sg sb) (fun _ => i < d.len) := by
  unfold put_rgb
  refine K.Post.last fun _ => ?_
  exact K.Post.first (.wp (K.Wp.wr nofun))

/-- Next step: a pixel is stored. -/
local macro "sim_px " r:term : tactic =>
  `(tactic| refine K.Sim.bind (K.Sim.refl ($r)) fun _ _ => ?_)

theorem i444_to_bgra_agrees {t : Target} (c : Colorimetry) (rev : Bool) {w h ys us vs ds : Nat}
    {yb ub vb : Buf} {d : Dst} (hB : 256 ≤ 2 ^ t.bits)
    (hy : Close t yb.len ys) (hu : Close t ub.len us)
    (hv : Close t vb.len vs) (hd : Close t d.len ds) :
    i444_to_bgra (wg_index t) c rev w h ys us vs yb ub vb ds d =
      i444_to_bgra exactIx c rev w h ys us vs yb ub vb ds d := by
  obtain ⟨hy, hy'⟩ := hy
  obtain ⟨hu, hu'⟩ := hu
  obtain ⟨hv, hv'⟩ := hv
  obtain ⟨hd, hd'⟩ := hd
  unfold i444_to_bgra
  simp only [K.liftM_eq]
  refine K.Sim.grid (P := fun y x => ds * y + x * 4 ≤ d.len ∧
    ys * y + x * 1 ≤ yb.len ∧ us * y + x * 1 ≤ ub.len ∧ vs * y + x * 1 ≤ vb.len)
    fun y hyh hz x hxw hj => ?_
  have hp := fun e : 0 < x => hj (x - 1) (by omega)
  have b1 := line_next hd (y := y) (o := x * 4) (by omega) fun z hz' => (hz z hz' x hxw).1
  have b2 := line_next hy (y := y) (o := x * 1) (by omega) fun z hz' => (hz z hz' x hxw).2.1
  have b3 := line_next hu (y := y) (o := x * 1) (by omega) fun z hz' => (hz z hz' x hxw).2.2.1
  have b4 := line_next hv (y := y) (o := x * 1) (by omega) fun z hz' => (hz z hz' x hxw).2.2.2
  sim_ix; sim_op rdI_wp nofun
  sim_ix; sim_op rdI_wp nofun
  sim_ix; sim_op rdI_wp nofun
  sim_any
  sim_ix
  exact (K.Sim.refl put_bgra_post).mono fun _ _ => by omega

theorem i420_to_bgra_agrees {t : Target} (c : Colorimetry) (rev : Bool) {w h ys us vs ds : Nat}
    {yb ub vb : Buf} {d : Dst} (hB : 256 ≤ 2 ^ t.bits)
    (hy : Close t yb.len ys) (hu : Close t ub.len us)
    (hv : Close t vb.len vs) (hd : Close t d.len ds) :
    i420_to_bgra (wg_index t) c rev w h ys us vs yb ub vb ds d =
      i420_to_bgra exactIx c rev w h ys us vs yb ub vb ds d := by
  obtain ⟨hy, hy'⟩ := hy
  obtain ⟨hu, hu'⟩ := hu
  obtain ⟨hv, hv'⟩ := hv
  obtain ⟨hd, hd'⟩ := hd
  unfold i420_to_bgra
  simp only [K.liftM_eq]
  refine K.Sim.grid (P := fun y x => (ds * (2 * y + 1) + 2 * x * 4 ≤ d.len ∧
    ds * (2 * y + 1) + (2 * x + 1) * 4 ≤ d.len) ∧
    ys * (2 * y + 1) + 2 * x * 1 ≤ yb.len ∧ us * y + x * 1 ≤ ub.len ∧ vs * y + x * 1 ≤ vb.len)
    fun y hyh hz x hxw hj => ?_
  have hp := fun e : 0 < x => hj (x - 1) (by omega)
  have b1 := line_even hd (y := y) (o := 2 * x * 4) (by omega) fun z hz' => (hz z hz' x hxw).1.1
  have b2 := line_even hd (y := y) (o := (2 * x + 1) * 4) (by omega)
    fun z hz' => (hz z hz' x hxw).1.2
  have b3 := line_even hy (y := y) (o := 2 * x * 1) (by omega) fun z hz' => (hz z hz' x hxw).2.1
  have b4 := line_next hu (y := y) (o := x * 1) (by omega) fun z hz' => (hz z hz' x hxw).2.2.1
  have b5 := line_next hv (y := y) (o := x * 1) (by omega) fun z hz' => (hz z hz' x hxw).2.2.2
  have e1 := succ_line ds (2 * y)
  have e2 := succ_line ys (2 * y)
  sim_ix; sim_op rdI_wp nofun
  sim_ix; sim_op rdI_wp nofun
  sim_any
  sim_ix; sim_op unpack2_wp nofun
  sim_ix; sim_px put_bgra_post
  sim_ix; sim_px put_bgra_post
  sim_ix; sim_op unpack2_wp nofun
  sim_ix; sim_px put_bgra_post
  sim_ix
  exact (K.Sim.refl put_bgra_post).mono fun _ _ => by omega

theorem nv12_to_bgra_agrees {t : Target} (c : Colorimetry) (rev : Bool) {w h ys uvs ds : Nat}
    {yb uvb : Buf} {d : Dst} (hB : 256 ≤ 2 ^ t.bits)
    (hy : Close t yb.len ys) (hu : Close t uvb.len uvs)
    (hd : Close t d.len ds) :
    nv12_to_bgra (wg_index t) c rev w h ys uvs yb uvb ds d =
      nv12_to_bgra exactIx c rev w h ys uvs yb uvb ds d := by
  obtain ⟨hy, hy'⟩ := hy
  obtain ⟨hu, hu'⟩ := hu
  obtain ⟨hd, hd'⟩ := hd
  unfold nv12_to_bgra
  simp only [K.liftM_eq]
  refine K.Sim.grid (P := fun y x => (ds * (2 * y + 1) + 2 * x * 4 ≤ d.len ∧
    ds * (2 * y + 1) + (2 * x + 1) * 4 ≤ d.len) ∧
    ys * (2 * y + 1) + 2 * x * 1 ≤ yb.len ∧ uvs * y + x * 2 ≤ uvb.len)
    fun y hyh hz x hxw hj => ?_
  have hp := fun e : 0 < x => hj (x - 1) (by omega)
  have b1 := line_even hd (y := y) (o := 2 * x * 4) (by omega) fun z hz' => (hz z hz' x hxw).1.1
  have b2 := line_even hd (y := y) (o := (2 * x + 1) * 4) (by omega)
    fun z hz' => (hz z hz' x hxw).1.2
  have b3 := line_even hy (y := y) (o := 2 * x * 1) (by omega) fun z hz' => (hz z hz' x hxw).2.1
  have b4 := line_next hu (y := y) (o := x * 2) (by omega) fun z hz' => (hz z hz' x hxw).2.2
  have e1 := succ_line ds (2 * y)
  have e2 := succ_line ys (2 * y)
  sim_ix; sim_op unpack2_wp nofun
  sim_any
  sim_ix; sim_op unpack2_wp nofun
  sim_ix; sim_px put_bgra_post
  sim_ix; sim_px put_bgra_post
  sim_ix; sim_op unpack2_wp nofun
  sim_ix; sim_px put_bgra_post
  sim_ix
  exact (K.Sim.refl put_bgra_post).mono fun _ _ => by omega

theorem nv12_to_rgb_agrees {t : Target} (c : Colorimetry) {w h ys uvs ds : Nat}
    {yb uvb : Buf} {d : Dst} (hB : 256 ≤ 2 ^ t.bits)
    (hy : Close t yb.len ys) (hu : Close t uvb.len uvs)
    (hd : Close t d.len ds) :
    nv12_to_rgb (wg_index t) c w h ys uvs yb uvb ds d =
      nv12_to_rgb exactIx c w h ys uvs yb uvb ds d := by
  obtain ⟨hy, hy'⟩ := hy
  obtain ⟨hu, hu'⟩ := hu
  obtain ⟨hd, hd'⟩ := hd
  unfold nv12_to_rgb
  simp only [K.liftM_eq]
  refine K.Sim.grid (P := fun y x => (ds * (2 * y + 1) + 2 * x * 3 ≤ d.len ∧
    ds * (2 * y + 1) + (2 * x + 1) * 3 ≤ d.len) ∧
    ys * (2 * y + 1) + 2 * x * 1 ≤ yb.len ∧ uvs * y + x * 2 ≤ uvb.len)
    fun y hyh hz x hxw hj => ?_
  have hp := fun e : 0 < x => hj (x - 1) (by omega)
  have b1 := line_even hd (y := y) (o := 2 * x * 3) (by omega) fun z hz' => (hz z hz' x hxw).1.1
  have b2 := line_even hd (y := y) (o := (2 * x + 1) * 3) (by omega)
    fun z hz' => (hz z hz' x hxw).1.2
  have b3 := line_even hy (y := y) (o := 2 * x * 1) (by omega) fun z hz' => (hz z hz' x hxw).2.1
  have b4 := line_next hu (y := y) (o := x * 2) (by omega) fun z hz' => (hz z hz' x hxw).2.2
  have e1 := succ_line ds (2 * y)
  have e2 := succ_line ys (2 * y)
  sim_ix; sim_op unpack2_wp nofun
  sim_any
  sim_ix; sim_op unpack2_wp nofun
  sim_ix; sim_px put_rgb_post
  sim_ix; sim_px put_rgb_post
  sim_ix; sim_op unpack2_wp nofun
  sim_ix; sim_px put_rgb_post
  sim_ix
  exact (K.Sim.refl put_rgb_post).mono fun _ _ => by omega

/-! ## Bgr to Rgb -/

theorem bgr_to_rgb_agrees {t : Target} {w h ss ds : Nat} {src : Buf} {d : Dst} (hw : 0 < w)
    (hw' : w < 2 ^ 64) (hs : src.len + ss < 2 ^ t.bits) (hd : d.len + ds < 2 ^ t.bits) :
    bgr_to_rgb t.mul w h ss src ds d = bgr_to_rgb exactMul w h ss src ds d := by
  unfold bgr_to_rgb
  refine K.Sim.prefixes fun i hi hr => ?_
  have b : ss * i < 2 ^ t.bits ∧ ds * i < 2 ^ t.bits := by
    rcases i with _ | n
    · have := Nat.two_pow_pos t.bits; omega
    · obtain ⟨⟨_, ws⟩, hr⟩ := hr (by omega)
      have := (bgr_to_rgb_wp (S := False) (X := True) (ss := ss) (ds := ds) (src := src) (d := d)
        hw hw' (h := n + 1) (by omega) nofun).post hr
      unfold Ext at this
      rw [Nat.add_sub_cancel] at this
      rw [succ_line, succ_line]
      omega
  rw [K.Sim.product b.1, K.Sim.product b.2]

end Verif.X86
