import Verif.Lemmas.SimSse2
import Verif.Lemmas.WpNeon
/-! # Kernels of neon.rs: `usize` offsets are exact, except for very long lines -/

namespace Verif.Neon

open Verif.Simd

theorem rgb_to_nv12_neon_agrees {t : Target} (s : Sampler) (c : Colorimetry) {w h ss ys uvs : Nat}
    {src : Buf} {yp uvp : Dst} (hB : 256 ≤ 2 ^ t.bits)
    (hs : Close t src.len ss)
    (hy : Close t yp.len ys)
    (hu : Close t uvp.len uvs)
    (h3 : 4 ≤ h → 3 * ss < 2 ^ t.bits ∧ 3 * ys < 2 ^ t.bits) :
    rgb_to_nv12_neon (wg_index t) s s.pf.depth c w h ss src ys uvs yp uvp =
      rgb_to_nv12_neon exactIx s s.pf.depth c w h ss src ys uvs yp uvp := by
  obtain ⟨hs, hs'⟩ := hs
  obtain ⟨hy, hy'⟩ := hy
  obtain ⟨hu, hu'⟩ := hu
  unfold rgb_to_nv12_neon
  simp only [K.liftM_eq, RGB_TO_YUV_WAVES, RGB_TO_YUV_WG_SIZE, LANE_COUNT,
    Nat.reduceDiv]
  refine K.Sim.grid (P := fun y x => ss * (2 * y + 1) + x * (s.pf.depth * 8) + s.pf.depth * 8 ≤ src.len ∧
    ys * (2 * y + 1) + x * 8 + 8 ≤ yp.len ∧ uvs * y + x * 8 ≤ uvp.len)
    fun y hyh hz x hxw hj => ?_
  have hp := fun e : 0 < x => hj (x - 1) (by omega)
  have hd := X86.depth_le s
  have m1 := Sse2.vec_le (s := s) (k := 8) (x := x)
  have m2 := X86.step_pred x (s.pf.depth * 8)
  have b1 := line_even hs (y := y) (o := x * (s.pf.depth * 8)) (by omega)
    fun z hz' => by have := (hz z hz' x hxw).1; omega
  have b2 := line_odd hs' (y := y) (x := x) (o := x * (s.pf.depth * 8))
    (o' := (x - 1) * (s.pf.depth * 8)) (by omega)
    (fun e => by have := (hj (x - 1) (by omega)).1; have := Sse2.vec_pred (d := s.pf.depth * 8) e; omega)
    (fun e => (h3 (by omega)).1) (by rintro rfl; rw [Nat.zero_mul])
    (fun e => by have := (hj (x - 1) (by omega)).1; omega)
    fun z hz' => by have := (hz z hz' x hxw).1; omega
  have b3 := line_even hy (y := y) (o := x * 8) (by omega)
    fun z hz' => by have := (hz z hz' x hxw).2.1; omega
  have b4 := line_odd hy' (y := y) (x := x) (o := x * 8) (o' := (x - 1) * 8) (by omega)
    (fun e => by have := (hj (x - 1) (by omega)).2.1; omega)
    (fun e => (h3 (by omega)).2) (by rintro rfl; rw [Nat.zero_mul])
    (fun e => by have := (hj (x - 1) (by omega)).2.1; omega)
    fun z hz' => by have := (hz z hz' x hxw).2.1; omega
  have b5 := line_next hu (y := y) (o := x * 8) (by omega) fun z hz' => (hz z hz' x hxw).2.2
  sim_ix; sim_ix; sim_ix; sim_ix; sim_ix
  refine .refl (.wp ?_)
  unfold rgb_to_nv12_8x rgb_to_y_and_avg_uv_8x
  simp only [bind_assoc, pure_bind]
  refine K.Wp.bind (load_rgb_8x_wp nofun) fun _ _ => ?_
  refine K.Wp.bind (vst1_u8_wp nofun) fun _ _ => ?_
  refine K.Wp.bind (load_rgb_8x_wp nofun) fun _ h1 => ?_
  refine K.Wp.bind (vst1_u8_wp nofun) fun _ h2 => ?_
  exact (vst1_u8_wp nofun).mono fun _ h3 => by omega

theorem rgb_to_i420_neon_agrees {t : Target} (s : Sampler) (c : Colorimetry)
    {w h ss ys us vs : Nat} {src : Buf} {yp up vp : Dst} (hB : 256 ≤ 2 ^ t.bits)
    (hs : Close t src.len ss)
    (hy : Close t yp.len ys)
    (hu : Close t up.len us) (hv : Close t vp.len vs)
    (h3 : 4 ≤ h → 3 * ss < 2 ^ t.bits ∧ 3 * ys < 2 ^ t.bits) :
    rgb_to_i420_neon (wg_index t) s s.pf.depth c w h ss src ys us vs yp up vp =
      rgb_to_i420_neon exactIx s s.pf.depth c w h ss src ys us vs yp up vp := by
  obtain ⟨hs, hs'⟩ := hs
  obtain ⟨hy, hy'⟩ := hy
  obtain ⟨hu, hu'⟩ := hu
  obtain ⟨hv, hv'⟩ := hv
  unfold rgb_to_i420_neon
  simp only [K.liftM_eq, RGB_TO_YUV_WAVES, RGB_TO_YUV_WG_SIZE, LANE_COUNT,
    Nat.reduceDiv]
  refine K.Sim.grid (P := fun y x => ss * (2 * y + 1) + x * (s.pf.depth * 8) + s.pf.depth * 8 ≤ src.len ∧
    ys * (2 * y + 1) + x * 8 + 8 ≤ yp.len ∧ us * y + x * 4 ≤ up.len ∧
    vs * y + x * 4 ≤ vp.len)
    fun y hyh hz x hxw hj => ?_
  have hp := fun e : 0 < x => hj (x - 1) (by omega)
  have hd := X86.depth_le s
  have m1 := Sse2.vec_le (s := s) (k := 8) (x := x)
  have m2 := X86.step_pred x (s.pf.depth * 8)
  have b1 := line_even hs (y := y) (o := x * (s.pf.depth * 8)) (by omega)
    fun z hz' => by have := (hz z hz' x hxw).1; omega
  have b2 := line_odd hs' (y := y) (x := x) (o := x * (s.pf.depth * 8))
    (o' := (x - 1) * (s.pf.depth * 8)) (by omega)
    (fun e => by have := (hj (x - 1) (by omega)).1; have := Sse2.vec_pred (d := s.pf.depth * 8) e; omega)
    (fun e => (h3 (by omega)).1) (by rintro rfl; rw [Nat.zero_mul])
    (fun e => by have := (hj (x - 1) (by omega)).1; omega)
    fun z hz' => by have := (hz z hz' x hxw).1; omega
  have b3 := line_even hy (y := y) (o := x * 8) (by omega)
    fun z hz' => by have := (hz z hz' x hxw).2.1; omega
  have b4 := line_odd hy' (y := y) (x := x) (o := x * 8) (o' := (x - 1) * 8) (by omega)
    (fun e => by have := (hj (x - 1) (by omega)).2.1; omega)
    (fun e => (h3 (by omega)).2) (by rintro rfl; rw [Nat.zero_mul])
    (fun e => by have := (hj (x - 1) (by omega)).2.1; omega)
    fun z hz' => by have := (hz z hz' x hxw).2.1; omega
  have b5 := line_next hu (y := y) (o := x * 4) (by omega)
    fun z hz' => (hz z hz' x hxw).2.2.1
  have b6 := line_next hv (y := y) (o := x * 4) (by omega)
    fun z hz' => (hz z hz' x hxw).2.2.2
  sim_ix; sim_ix; sim_ix; sim_ix; sim_ix; sim_ix
  refine .refl (.wp ?_)
  unfold rgb_to_i420_8x rgb_to_y_and_avg_uv_8x
  simp only [bind_assoc, pure_bind]
  refine K.Wp.bind (load_rgb_8x_wp nofun) fun _ _ => ?_
  refine K.Wp.bind (vst1_u8_wp nofun) fun _ _ => ?_
  refine K.Wp.bind (load_rgb_8x_wp nofun) fun _ h1 => ?_
  refine K.Wp.bind (vst1_u8_wp nofun) fun _ h2 => ?_
  refine K.Wp.bind (K.Wp.store (by omega) nofun) fun _ h3 => ?_
  exact (K.Wp.store (by omega) nofun).mono fun _ h4 => by omega

theorem rgb_to_i444_neon_agrees {t : Target} (s : Sampler) (c : Colorimetry)
    {w h ss ys us vs : Nat} {src : Buf} {yp up vp : Dst} (hB : 256 ≤ 2 ^ t.bits)
    (hs : Close t src.len ss) (hy : Close t yp.len ys)
    (hu : Close t up.len us) (hv : Close t vp.len vs) :
    rgb_to_i444_neon (wg_index t) s s.pf.depth c w h ss src ys us vs yp up vp =
      rgb_to_i444_neon exactIx s s.pf.depth c w h ss src ys us vs yp up vp := by
  obtain ⟨hs, hs'⟩ := hs
  obtain ⟨hy, hy'⟩ := hy
  obtain ⟨hu, hu'⟩ := hu
  obtain ⟨hv, hv'⟩ := hv
  unfold rgb_to_i444_neon
  simp only [K.liftM_eq, RGB_TO_YUV_WAVES, RGB_TO_YUV_WG_SIZE, LANE_COUNT,
    Nat.reduceDiv]
  refine K.Sim.grid (P := fun y x => ss * y + x * (s.pf.depth * 8) ≤ src.len ∧
    ys * y + x * 8 ≤ yp.len ∧ us * y + x * 8 ≤ up.len ∧ vs * y + x * 8 ≤ vp.len)
    fun y hyh hz x hxw hj => ?_
  have hp := fun e : 0 < x => hj (x - 1) (by omega)
  have hd := X86.depth_le s
  have m1 := Sse2.vec_le (s := s) (k := 8) (x := x)
  have m2 := X86.step_pred x (s.pf.depth * 8)
  have b1 := line_next hs (y := y) (o := x * (s.pf.depth * 8)) (by omega)
    fun z hz' => (hz z hz' x hxw).1
  have b2 := line_next hy (y := y) (o := x * 8) (by omega) fun z hz' => (hz z hz' x hxw).2.1
  have b3 := line_next hu (y := y) (o := x * 8) (by omega) fun z hz' => (hz z hz' x hxw).2.2.1
  have b4 := line_next hv (y := y) (o := x * 8) (by omega) fun z hz' => (hz z hz' x hxw).2.2.2
  sim_ix; sim_ix; sim_ix; sim_ix
  refine .refl (.wp ?_)
  unfold rgb_to_i444_8x
  refine K.Wp.bind (load_rgb_8x_wp nofun) fun _ h1 => ?_
  refine K.Wp.bind (vst1_u8_wp nofun) fun _ h2 => ?_
  refine K.Wp.bind (vst1_u8_wp nofun) fun _ h3 => ?_
  exact (vst1_u8_wp nofun).mono fun _ h4 => by omega

/-! ## RGB to RGB -/

theorem bgr_to_rgb_neon_agrees {t : Target} {w h ss ds : Nat} {src : Buf} {d : Dst} (hw : 0 < w)
    (hw16 : w % 16 = 0) (hs : src.len + ss < 2 ^ t.bits) (hd : d.len + ds < 2 ^ t.bits) :
    bgr_to_rgb_neon t.mul w h ss src ds d = bgr_to_rgb_neon exactMul w h ss src ds d := by
  unfold bgr_to_rgb_neon
  refine K.Sim.prefixes fun i hi hr => ?_
  have b : ss * i < 2 ^ t.bits ∧ ds * i < 2 ^ t.bits := by
    rcases i with _ | n
    · have := Nat.two_pow_pos t.bits; omega
    · obtain ⟨⟨_, ws⟩, hr⟩ := hr (by omega)
      have := (bgr_to_rgb_neon_wp (S := False) (X := True) (ss := ss) (ds := ds) (src := src)
        (d := d) hw (h := n + 1) (by omega) hw16 nofun).post hr
      unfold Ext at this
      rw [Nat.add_sub_cancel] at this
      rw [succ_line, succ_line]
      omega
  rw [K.Sim.product b.1, K.Sim.product b.2]

theorem bgra_to_rgb_neon_agrees {t : Target} {w h ss ds : Nat} {src : Buf} {d : Dst} (hw : 0 < w)
    (hw16 : w % 16 = 0) (hs : src.len + ss < 2 ^ t.bits) (hd : d.len + ds < 2 ^ t.bits) :
    bgra_to_rgb_neon t.mul w h ss src ds d = bgra_to_rgb_neon exactMul w h ss src ds d := by
  unfold bgra_to_rgb_neon
  refine K.Sim.prefixes fun i hi hr => ?_
  have b : ss * i < 2 ^ t.bits ∧ ds * i < 2 ^ t.bits := by
    rcases i with _ | n
    · have := Nat.two_pow_pos t.bits; omega
    · obtain ⟨⟨_, ws⟩, hr⟩ := hr (by omega)
      have := (bgra_to_rgb_neon_wp (S := False) (X := True) (ss := ss) (ds := ds) (src := src)
        (d := d) hw (h := n + 1) (by omega) hw16 nofun).post hr
      unfold Ext at this
      rw [Nat.add_sub_cancel] at this
      rw [succ_line, succ_line]
      omega
  rw [K.Sim.product b.1, K.Sim.product b.2]

theorem rgb_to_bgra_neon_agrees {t : Target} {w h ss ds : Nat} {src : Buf} {d : Dst} (hw : 0 < w)
    (hw16 : w % 16 = 0) (hs : src.len + ss < 2 ^ t.bits) (hd : d.len + ds < 2 ^ t.bits) :
    rgb_to_bgra_neon t.mul w h ss src ds d = rgb_to_bgra_neon exactMul w h ss src ds d := by
  unfold rgb_to_bgra_neon
  refine K.Sim.prefixes fun i hi hr => ?_
  have b : ss * i < 2 ^ t.bits ∧ ds * i < 2 ^ t.bits := by
    rcases i with _ | n
    · have := Nat.two_pow_pos t.bits; omega
    · obtain ⟨⟨_, ws⟩, hr⟩ := hr (by omega)
      have := (rgb_to_bgra_neon_wp (S := False) (X := True) (ss := ss) (ds := ds) (src := src)
        (d := d) hw (h := n + 1) (by omega) hw16 nofun).post hr
      unfold Ext at this
      rw [Nat.add_sub_cancel] at this
      rw [succ_line, succ_line]
      omega
  rw [K.Sim.product b.1, K.Sim.product b.2]


/-! ## Wrappers -/

theorem rgb_nv12_agrees {t : Target} (s : Sampler) (c : Colorimetry) {w h ss ys uvs : Nat}
    {src : Buf} {yp uvp : Dst} (hw : w < 2 ^ 32) (hB : 256 ≤ 2 ^ t.bits)
    (hs : Near t src.len ss) (hy : Near t yp.len ys) (hu : Near t uvp.len uvs)
    (h3 : 0 < lower_multiple_of_pot w RGB_TO_YUV_WAVES → 4 ≤ h → 3 * ss < 2 ^ t.bits ∧ 3 * ys < 2 ^ t.bits) :
    rgb_nv12 (wg_index t) s s.pf.depth c w h ss src ys uvs yp uvp =
      rgb_nv12 exactIx s s.pf.depth c w h ss src ys uvs yp uvp := by
  have hv : lower_multiple_of_pot w RGB_TO_YUV_WAVES ≤ w := by
    have : lower_multiple_of_pot w RGB_TO_YUV_WAVES = 8 * (w / 8) := lower_multiple (k := 3) hw (by omega)
    omega
  exact tail_rgb_nv12_agrees (v := lower_multiple_of_pot w RGB_TO_YUV_WAVES) s c hB hs hy hu fun hp =>
    rgb_to_nv12_neon_agrees s c hB hs.close hy.close hu.close (h3 hp)

theorem rgb_i420_agrees {t : Target} (s : Sampler) (c : Colorimetry) {w h ss ys us vs : Nat}
    {src : Buf} {yp up vp : Dst} (hw : w < 2 ^ 32) (hB : 256 ≤ 2 ^ t.bits)
    (hs : Near t src.len ss) (hy : Near t yp.len ys) (hu : Near t up.len us)
    (hv' : Near t vp.len vs)
    (h3 : 0 < lower_multiple_of_pot w RGB_TO_YUV_WAVES → 4 ≤ h → 3 * ss < 2 ^ t.bits ∧ 3 * ys < 2 ^ t.bits) :
    rgb_i420 (wg_index t) s s.pf.depth c w h ss src ys us vs yp up vp =
      rgb_i420 exactIx s s.pf.depth c w h ss src ys us vs yp up vp := by
  have hv : lower_multiple_of_pot w RGB_TO_YUV_WAVES ≤ w := by
    have : lower_multiple_of_pot w RGB_TO_YUV_WAVES = 8 * (w / 8) := lower_multiple (k := 3) hw (by omega)
    omega
  exact tail_rgb_i420_agrees (v := lower_multiple_of_pot w RGB_TO_YUV_WAVES) s c hB hs hy hu hv' fun hp =>
    rgb_to_i420_neon_agrees s c hB hs.close hy.close hu.close hv'.close (h3 hp)

theorem rgb_i444_agrees {t : Target} (s : Sampler) (c : Colorimetry) {w h ss ys us vs : Nat}
    {src : Buf} {yp up vp : Dst} (hw : w < 2 ^ 32) (hB : 256 ≤ 2 ^ t.bits)
    (hs : Near t src.len ss) (hy : Near t yp.len ys) (hu : Near t up.len us)
    (hv' : Near t vp.len vs) :
    rgb_i444 (wg_index t) s s.pf.depth c w h ss src ys us vs yp up vp =
      rgb_i444 exactIx s s.pf.depth c w h ss src ys us vs yp up vp := by
  have hv : lower_multiple_of_pot w RGB_TO_YUV_WAVES ≤ w := by
    have : lower_multiple_of_pot w RGB_TO_YUV_WAVES = 8 * (w / 8) := lower_multiple (k := 3) hw (by omega)
    omega
  exact tail_rgb_i444_agrees (v := lower_multiple_of_pot w RGB_TO_YUV_WAVES) s c hB hs hy hu hv' fun _ =>
    rgb_to_i444_neon_agrees s c hB hs.close hy.close hu.close hv'.close

theorem bgr_rgb_agrees {t : Target} {w h ss ds : Nat} {src : Buf} {d : Dst} (hw : w < 2 ^ 32)
    (hs : src.len + ss < 2 ^ t.bits) (hd : d.len + ds < 2 ^ t.bits) :
    bgr_rgb t.mul w h ss src ds d = bgr_rgb exactMul w h ss src ds d := by
  have hv : lower_multiple_of_pot w LANE_COUNT = 16 * (w / 16) := lower_multiple (k := 4) hw (by omega)
  unfold bgr_rgb
  refine K.Sim.part (fun hp => bgr_to_rgb_neon_agrees hp (by omega) hs hd)
    (K.Sim.rest fun hp => ?_)
  simp only [K.liftM_eq]
  refine (K.Sim.bind (Q := fun _ => True) .bufFrom fun a ha => .bind .dstFrom fun b hb =>
    ⟨?_, .any⟩).1
  exact X86.bgr_to_rgb_agrees hp (by omega) (by omega) (by omega)

theorem bgra_rgb_agrees {t : Target} {w h ss ds : Nat} {src : Buf} {d : Dst} (hw : w < 2 ^ 32)
    (hs : src.len + ss < 2 ^ t.bits) (hd : d.len + ds < 2 ^ t.bits) :
    bgra_rgb t.mul t w h ss src ds d = bgra_rgb exactMul t w h ss src ds d := by
  have hv : lower_multiple_of_pot w LANE_COUNT = 16 * (w / 16) := lower_multiple (k := 4) hw (by omega)
  unfold bgra_rgb
  exact K.Sim.part (fun hp => bgra_to_rgb_neon_agrees hp (by omega) hs hd) rfl

theorem rgb_bgra_agrees {t : Target} {w h ss ds : Nat} {src : Buf} {d : Dst} (hw : w < 2 ^ 32)
    (hs : src.len + ss < 2 ^ t.bits) (hd : d.len + ds < 2 ^ t.bits) :
    rgb_bgra t.mul t w h ss src ds d = rgb_bgra exactMul t w h ss src ds d := by
  have hv : lower_multiple_of_pot w LANE_COUNT = 16 * (w / 16) := lower_multiple (k := 4) hw (by omega)
  unfold rgb_bgra
  exact K.Sim.part (fun hp => rgb_to_bgra_neon_agrees hp (by omega) hs hd) rfl

end Verif.Neon
