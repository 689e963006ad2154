import Verif.Lemmas.SimTail
import Verif.Lemmas.WpSse2
/-! # Kernels of sse2.rs: `usize` offsets are exact, except for very long lines -/

namespace Verif.Sse2

open Verif.Simd

theorem vec_le {s : Sampler} {k x : Nat} : x * (s.pf.depth * k) ≤ x * (4 * k) :=
  Nat.mul_le_mul_left _ (Nat.mul_le_mul_right _ (X86.depth_le s))

theorem vec_pred {d x : Nat} (hx : 0 < x) : x * d = (x - 1) * d + d := by
  obtain ⟨n, rfl⟩ : ∃ n, x = n + 1 := ⟨x - 1, by omega⟩
  rw [Nat.add_sub_cancel, Nat.add_mul, Nat.one_mul]

theorem rgb_to_nv12_sse2_agrees {t : Target} (s : Sampler) (c : Colorimetry) {w h ss ys uvs : Nat}
    {src : Buf} {yp uvp : Dst} (hB : 256 ≤ 2 ^ t.bits)
    (hs : Close t src.len ss)
    (hy : Close t yp.len ys)
    (hu : Close t uvp.len uvs)
    (h3 : 4 ≤ h → 3 * ss < 2 ^ t.bits ∧ 3 * ys < 2 ^ t.bits) :
    rgb_to_nv12_sse2 (wg_index t) s s.pf.depth c w h ss src ys uvs yp uvp =
      rgb_to_nv12_sse2 exactIx s s.pf.depth c w h ss src ys uvs yp uvp := by
  obtain ⟨hs, hs'⟩ := hs
  obtain ⟨hy, hy'⟩ := hy
  obtain ⟨hu, hu'⟩ := hu
  unfold rgb_to_nv12_sse2
  simp only [K.liftM_eq, RGB_TO_YUV_WAVES]
  refine K.Sim.grid (P := fun y x => ss * (2 * y + 1) + x * (s.pf.depth * 4) + 16 ≤ src.len ∧
    ys * (2 * y + 1) + x * 4 + 4 ≤ yp.len ∧ uvs * y + x * 4 ≤ uvp.len)
    fun y hyh hz x hxw hj => ?_
  have hp := fun e : 0 < x => hj (x - 1) (by omega)
  have hd := X86.depth_le s
  have m1 := vec_le (s := s) (k := 4) (x := x)
  have m2 := X86.step_pred x (s.pf.depth * 4)
  have b1 := line_even hs (y := y) (o := x * (s.pf.depth * 4)) (by omega)
    fun z hz' => by have := (hz z hz' x hxw).1; omega
  have b2 := line_odd hs' (y := y) (x := x) (o := x * (s.pf.depth * 4))
    (o' := (x - 1) * (s.pf.depth * 4)) (by omega)
    (fun e => by have := (hj (x - 1) (by omega)).1; have := vec_pred (d := s.pf.depth * 4) e; omega)
    (fun e => (h3 (by omega)).1) (by rintro rfl; rw [Nat.zero_mul])
    (fun e => by have := (hj (x - 1) (by omega)).1; omega)
    fun z hz' => by have := (hz z hz' x hxw).1; omega
  have b3 := line_even hy (y := y) (o := x * 4) (by omega)
    fun z hz' => by have := (hz z hz' x hxw).2.1; omega
  have b4 := line_odd hy' (y := y) (x := x) (o := x * 4) (o' := (x - 1) * 4) (by omega)
    (fun e => by have := (hj (x - 1) (by omega)).2.1; omega)
    (fun e => (h3 (by omega)).2) (by rintro rfl; rw [Nat.zero_mul])
    (fun e => by have := (hj (x - 1) (by omega)).2.1; omega)
    fun z hz' => by have := (hz z hz' x hxw).2.1; omega
  have b5 := line_next hu (y := y) (o := x * 4) (by omega) fun z hz' => (hz z hz' x hxw).2.2
  sim_ix; sim_ix; sim_ix; sim_ix; sim_ix
  refine .refl (.wp ?_)
  unfold rgb_to_yuv_4x
  refine K.Wp.bind (unpack3_wp nofun) fun _ _ => ?_
  refine K.Wp.bind (pack_i32_4x_wp nofun) fun _ _ => ?_
  refine K.Wp.bind (unpack3_wp nofun) fun _ h1 => ?_
  refine K.Wp.bind (pack_i32_4x_wp nofun) fun _ h2 => ?_
  exact (pack_i32_4x_wp nofun).mono fun _ h3 => by omega

theorem rgb_to_i420_sse2_agrees {t : Target} (s : Sampler) (c : Colorimetry)
    {w h ss ys us vs : Nat} {src : Buf} {yp up vp : Dst} (hB : 256 ≤ 2 ^ t.bits)
    (hs : Close t src.len ss)
    (hy : Close t yp.len ys)
    (hu : Close t up.len us) (hv : Close t vp.len vs)
    (h3 : 4 ≤ h → 3 * ss < 2 ^ t.bits ∧ 3 * ys < 2 ^ t.bits) :
    rgb_to_i420_sse2 (wg_index t) s s.pf.depth c w h ss src ys us vs yp up vp =
      rgb_to_i420_sse2 exactIx s s.pf.depth c w h ss src ys us vs yp up vp := by
  obtain ⟨hs, hs'⟩ := hs
  obtain ⟨hy, hy'⟩ := hy
  obtain ⟨hu, hu'⟩ := hu
  obtain ⟨hv, hv'⟩ := hv
  unfold rgb_to_i420_sse2
  simp only [K.liftM_eq, RGB_TO_YUV_WAVES]
  refine K.Sim.grid (P := fun y x => ss * (2 * y + 1) + x * (s.pf.depth * 4) + 16 ≤ src.len ∧
    ys * (2 * y + 1) + x * 4 + 4 ≤ yp.len ∧ us * y + x * (4 / 2) ≤ up.len ∧
    vs * y + x * (4 / 2) ≤ vp.len)
    fun y hyh hz x hxw hj => ?_
  have hp := fun e : 0 < x => hj (x - 1) (by omega)
  have hd := X86.depth_le s
  have m1 := vec_le (s := s) (k := 4) (x := x)
  have m2 := X86.step_pred x (s.pf.depth * 4)
  have b1 := line_even hs (y := y) (o := x * (s.pf.depth * 4)) (by omega)
    fun z hz' => by have := (hz z hz' x hxw).1; omega
  have b2 := line_odd hs' (y := y) (x := x) (o := x * (s.pf.depth * 4))
    (o' := (x - 1) * (s.pf.depth * 4)) (by omega)
    (fun e => by have := (hj (x - 1) (by omega)).1; have := vec_pred (d := s.pf.depth * 4) e; omega)
    (fun e => (h3 (by omega)).1) (by rintro rfl; rw [Nat.zero_mul])
    (fun e => by have := (hj (x - 1) (by omega)).1; omega)
    fun z hz' => by have := (hz z hz' x hxw).1; omega
  have b3 := line_even hy (y := y) (o := x * 4) (by omega)
    fun z hz' => by have := (hz z hz' x hxw).2.1; omega
  have b4 := line_odd hy' (y := y) (x := x) (o := x * 4) (o' := (x - 1) * 4) (by omega)
    (fun e => by have := (hj (x - 1) (by omega)).2.1; omega)
    (fun e => (h3 (by omega)).2) (by rintro rfl; rw [Nat.zero_mul])
    (fun e => by have := (hj (x - 1) (by omega)).2.1; omega)
    fun z hz' => by have := (hz z hz' x hxw).2.1; omega
  have b5 := line_next hu (y := y) (o := x * (4 / 2)) (by omega)
    fun z hz' => (hz z hz' x hxw).2.2.1
  have b6 := line_next hv (y := y) (o := x * (4 / 2)) (by omega)
    fun z hz' => (hz z hz' x hxw).2.2.2
  sim_ix; sim_ix; sim_ix; sim_ix; sim_ix; sim_ix
  refine .refl (.wp ?_)
  unfold rgb_to_i420_4x
  refine K.Wp.bind (unpack3_wp nofun) fun _ _ => ?_
  refine K.Wp.bind (pack_i32_4x_wp nofun) fun _ _ => ?_
  refine K.Wp.bind (unpack3_wp nofun) fun _ h1 => ?_
  refine K.Wp.bind (pack_i32_4x_wp nofun) fun _ h2 => ?_
  refine K.Wp.bind (K.Wp.store (by omega) nofun) fun _ h3 => ?_
  exact (K.Wp.store (by omega) nofun).mono fun _ h4 => by omega

theorem rgb_to_i444_sse2_agrees {t : Target} (s : Sampler) (c : Colorimetry)
    {w h ss ys us vs : Nat} {src : Buf} {yp up vp : Dst} (hB : 256 ≤ 2 ^ t.bits)
    (hs : Close t src.len ss) (hy : Close t yp.len ys)
    (hu : Close t up.len us) (hv : Close t vp.len vs) :
    rgb_to_i444_sse2 (wg_index t) s s.pf.depth c w h ss src ys us vs yp up vp =
      rgb_to_i444_sse2 exactIx s s.pf.depth c w h ss src ys us vs yp up vp := by
  obtain ⟨hs, hs'⟩ := hs
  obtain ⟨hy, hy'⟩ := hy
  obtain ⟨hu, hu'⟩ := hu
  obtain ⟨hv, hv'⟩ := hv
  unfold rgb_to_i444_sse2
  simp only [K.liftM_eq, RGB_TO_YUV_WAVES]
  refine K.Sim.grid (P := fun y x => ss * y + x * (s.pf.depth * 4) ≤ src.len ∧
    ys * y + x * 4 ≤ yp.len ∧ us * y + x * 4 ≤ up.len ∧ vs * y + x * 4 ≤ vp.len)
    fun y hyh hz x hxw hj => ?_
  have hp := fun e : 0 < x => hj (x - 1) (by omega)
  have hd := X86.depth_le s
  have m1 := vec_le (s := s) (k := 4) (x := x)
  have m2 := X86.step_pred x (s.pf.depth * 4)
  have b1 := line_next hs (y := y) (o := x * (s.pf.depth * 4)) (by omega)
    fun z hz' => (hz z hz' x hxw).1
  have b2 := line_next hy (y := y) (o := x * 4) (by omega) fun z hz' => (hz z hz' x hxw).2.1
  have b3 := line_next hu (y := y) (o := x * 4) (by omega) fun z hz' => (hz z hz' x hxw).2.2.1
  have b4 := line_next hv (y := y) (o := x * 4) (by omega) fun z hz' => (hz z hz' x hxw).2.2.2
  sim_ix; sim_ix; sim_ix; sim_ix
  refine .refl (.wp ?_)
  unfold rgb_to_i444_4x
  refine K.Wp.bind (unpack3_wp nofun) fun _ h1 => ?_
  refine K.Wp.bind (pack_i32_4x_wp nofun) fun _ h2 => ?_
  refine K.Wp.bind (pack_i32_4x_wp nofun) fun _ h3 => ?_
  exact (pack_i32_4x_wp nofun).mono fun _ h4 => by omega

/-! ## Decoders -/

theorem nv12_to_bgra_sse2_agrees {t : Target} (c : Colorimetry) (rev : Bool) {w h ys uvs ds : Nat}
    {yb uvb : Buf} {d : Dst} (hB : 256 ≤ 2 ^ t.bits)
    (hy : Close t yb.len ys) (hu : Close t uvb.len uvs)
    (hd : Close t d.len ds) :
    nv12_to_bgra_sse2 (wg_index t) c rev w h ys uvs yb uvb ds d =
      nv12_to_bgra_sse2 exactIx c rev w h ys uvs yb uvb ds d := by
  obtain ⟨hy, hy'⟩ := hy
  obtain ⟨hu, hu'⟩ := hu
  obtain ⟨hd, hd'⟩ := hd
  unfold nv12_to_bgra_sse2 block_16x2
  simp only [K.liftM_eq, YUV_TO_RGB_WAVES]
  refine K.Sim.grid (P := fun y x => (ds * (2 * y + 1) + 2 * x * (2 * 16) ≤ d.len ∧
    ds * (2 * y + 1) + (2 * x + 1) * (2 * 16) ≤ d.len) ∧
    ys * (2 * y + 1) + x * 16 ≤ yb.len ∧ uvs * y + x * 16 ≤ uvb.len)
    fun y hyh hz x hxw hj => ?_
  have hp := fun e : 0 < x => hj (x - 1) (by omega)
  have b1 := line_even hd (y := y) (o := 2 * x * (2 * 16)) (by omega)
    fun z hz' => (hz z hz' x hxw).1.1
  have b2 := line_even hd (y := y) (o := (2 * x + 1) * (2 * 16)) (by omega)
    fun z hz' => (hz z hz' x hxw).1.2
  have b3 := line_even hy (y := y) (o := x * 16) (by omega) fun z hz' => (hz z hz' x hxw).2.1
  have b4 := line_next hu (y := y) (o := x * 16) (by omega) fun z hz' => (hz z hz' x hxw).2.2
  have e1 := succ_line ds (2 * y)
  have e2 := succ_line ys (2 * y)
  unfold unpack_ui8x2_i16be_8x
  simp only [bind_assoc, pure_bind]
  sim_ix; sim_op K.Wp.load nofun
  sim_ix; sim_op K.Wp.load nofun
  sim_ix; sim_op put_8x_wp nofun
  sim_ix; sim_op put_8x_wp nofun
  sim_ix; sim_op K.Wp.load nofun
  sim_ix; sim_op put_8x_wp nofun
  sim_ix
  exact (K.Sim.refl (.wp (put_8x_wp nofun))).mono fun _ _ => by omega

theorem i420_to_bgra_sse2_agrees {t : Target} (c : Colorimetry) (rev : Bool)
    {w h ys us vs ds : Nat} {yb ub vb : Buf} {d : Dst} (hB : 256 ≤ 2 ^ t.bits)
    (hy : Close t yb.len ys) (hu : Close t ub.len us)
    (hv : Close t vb.len vs) (hd : Close t d.len ds) :
    i420_to_bgra_sse2 (wg_index t) c rev w h ys us vs yb ub vb ds d =
      i420_to_bgra_sse2 exactIx c rev w h ys us vs yb ub vb ds d := by
  obtain ⟨hy, hy'⟩ := hy
  obtain ⟨hu, hu'⟩ := hu
  obtain ⟨hv, hv'⟩ := hv
  obtain ⟨hd, hd'⟩ := hd
  unfold i420_to_bgra_sse2 block_16x2
  simp only [K.liftM_eq, YUV_TO_RGB_WAVES]
  refine K.Sim.grid (P := fun y x => (ds * (2 * y + 1) + 2 * x * (2 * 16) ≤ d.len ∧
    ds * (2 * y + 1) + (2 * x + 1) * (2 * 16) ≤ d.len) ∧
    ys * (2 * y + 1) + x * 16 ≤ yb.len ∧ us * y + x * (16 / 2) ≤ ub.len ∧
    vs * y + x * (16 / 2) ≤ vb.len)
    fun y hyh hz x hxw hj => ?_
  have hp := fun e : 0 < x => hj (x - 1) (by omega)
  have b1 := line_even hd (y := y) (o := 2 * x * (2 * 16)) (by omega)
    fun z hz' => (hz z hz' x hxw).1.1
  have b2 := line_even hd (y := y) (o := (2 * x + 1) * (2 * 16)) (by omega)
    fun z hz' => (hz z hz' x hxw).1.2
  have b3 := line_even hy (y := y) (o := x * 16) (by omega) fun z hz' => (hz z hz' x hxw).2.1
  have b4 := line_next hu (y := y) (o := x * (16 / 2)) (by omega)
    fun z hz' => (hz z hz' x hxw).2.2.1
  have b5 := line_next hv (y := y) (o := x * (16 / 2)) (by omega)
    fun z hz' => (hz z hz' x hxw).2.2.2
  have e1 := succ_line ds (2 * y)
  have e2 := succ_line ys (2 * y)
  unfold unpack_ui8_i16be_8x
  simp only [bind_assoc, pure_bind]
  sim_ix; sim_op K.Wp.load nofun
  sim_ix; sim_op K.Wp.load nofun
  sim_ix; sim_op K.Wp.load nofun
  sim_ix; sim_op put_8x_wp nofun
  sim_ix; sim_op put_8x_wp nofun
  sim_ix; sim_op K.Wp.load nofun
  sim_ix; sim_op put_8x_wp nofun
  sim_ix
  exact (K.Sim.refl (.wp (put_8x_wp nofun))).mono fun _ _ => by omega

theorem i444_to_bgra_sse2_agrees {t : Target} (c : Colorimetry) (rev : Bool)
    {w h ys us vs ds : Nat} {yb ub vb : Buf} {d : Dst} (hB : 256 ≤ 2 ^ t.bits)
    (hy : Close t yb.len ys) (hu : Close t ub.len us)
    (hv : Close t vb.len vs) (hd : Close t d.len ds) :
    i444_to_bgra_sse2 (wg_index t) c rev w h ys us vs yb ub vb ds d =
      i444_to_bgra_sse2 exactIx c rev w h ys us vs yb ub vb ds d := by
  obtain ⟨hy, hy'⟩ := hy
  obtain ⟨hu, hu'⟩ := hu
  obtain ⟨hv, hv'⟩ := hv
  obtain ⟨hd, hd'⟩ := hd
  unfold i444_to_bgra_sse2
  simp only [K.liftM_eq, YUV_TO_RGB_WAVES]
  refine K.Sim.grid (P := fun y x => ds * y + x * (2 * 16) ≤ d.len ∧
    ys * y + x * (16 / 2) ≤ yb.len ∧ us * y + x * (16 / 2) ≤ ub.len ∧
    vs * y + x * (16 / 2) ≤ vb.len)
    fun y hyh hz x hxw hj => ?_
  have hp := fun e : 0 < x => hj (x - 1) (by omega)
  have b1 := line_next hd (y := y) (o := x * (2 * 16)) (by omega)
    fun z hz' => (hz z hz' x hxw).1
  have b3 := line_next hy (y := y) (o := x * (16 / 2)) (by omega)
    fun z hz' => (hz z hz' x hxw).2.1
  have b4 := line_next hu (y := y) (o := x * (16 / 2)) (by omega)
    fun z hz' => (hz z hz' x hxw).2.2.1
  have b5 := line_next hv (y := y) (o := x * (16 / 2)) (by omega)
    fun z hz' => (hz z hz' x hxw).2.2.2
  sim_ix; sim_op K.Wp.load nofun
  sim_ix; sim_op K.Wp.load nofun
  sim_ix; sim_op K.Wp.load nofun
  sim_ix
  exact (K.Sim.refl (.wp (put_8x_wp nofun))).mono fun _ _ => by omega

/-! ## Wrappers -/

theorem rgb_nv12_agrees {t : Target} (s : Sampler) (c : Colorimetry) {w h ss ys uvs : Nat}
    {src : Buf} {yp uvp : Dst} (hw : w < 2 ^ 32) (hB : 256 ≤ 2 ^ t.bits)
    (hs : Near t src.len ss) (hy : Near t yp.len ys) (hu : Near t uvp.len uvs)
    (h3 : 0 < encode_part s.pf.depth w → 4 ≤ h → 3 * ss < 2 ^ t.bits ∧ 3 * ys < 2 ^ t.bits) :
    rgb_nv12 (wg_index t) s s.pf.depth c w h ss src ys uvs yp uvp =
      rgb_nv12 exactIx s s.pf.depth c w h ss src ys uvs yp uvp := by
  have hv := (encode_part_le s hw).1
  exact tail_rgb_nv12_agrees (v := encode_part s.pf.depth w) s c hB hs hy hu fun hp =>
    rgb_to_nv12_sse2_agrees s c hB hs.close hy.close hu.close (h3 hp)

theorem rgb_i420_agrees {t : Target} (s : Sampler) (c : Colorimetry) {w h ss ys us vs : Nat}
    {src : Buf} {yp up vp : Dst} (hw : w < 2 ^ 32) (hB : 256 ≤ 2 ^ t.bits)
    (hs : Near t src.len ss) (hy : Near t yp.len ys) (hu : Near t up.len us)
    (hv' : Near t vp.len vs)
    (h3 : 0 < encode_part s.pf.depth w → 4 ≤ h → 3 * ss < 2 ^ t.bits ∧ 3 * ys < 2 ^ t.bits) :
    rgb_i420 (wg_index t) s s.pf.depth c w h ss src ys us vs yp up vp =
      rgb_i420 exactIx s s.pf.depth c w h ss src ys us vs yp up vp := by
  have hv := (encode_part_le s hw).1
  exact tail_rgb_i420_agrees (v := encode_part s.pf.depth w) s c hB hs hy hu hv' fun hp =>
    rgb_to_i420_sse2_agrees s c hB hs.close hy.close hu.close hv'.close (h3 hp)

theorem rgb_i444_agrees {t : Target} (s : Sampler) (c : Colorimetry) {w h ss ys us vs : Nat}
    {src : Buf} {yp up vp : Dst} (hw : w < 2 ^ 32) (hB : 256 ≤ 2 ^ t.bits)
    (hs : Near t src.len ss) (hy : Near t yp.len ys) (hu : Near t up.len us)
    (hv' : Near t vp.len vs) :
    rgb_i444 (wg_index t) s s.pf.depth c w h ss src ys us vs yp up vp =
      rgb_i444 exactIx s s.pf.depth c w h ss src ys us vs yp up vp := by
  have hv := (encode_part_le s hw).1
  exact tail_rgb_i444_agrees (v := encode_part s.pf.depth w) s c hB hs hy hu hv' fun _ =>
    rgb_to_i444_sse2_agrees s c hB hs.close hy.close hu.close hv'.close

theorem i444_rgb_agrees {t : Target} (c : Colorimetry) (n : Nat) (rev : Bool)
    {w h ys us vs ds : Nat} {yb ub vb : Buf} {d : Dst} (hw : w < 2 ^ 32)
    (hB : 256 ≤ 2 ^ t.bits) (hy : Near t yb.len ys) (hu : Near t ub.len us)
    (hv' : Near t vb.len vs) (hd : Near t d.len ds) :
    i444_rgb (wg_index t) c n rev w h ys us vs yb ub vb ds d =
      i444_rgb exactIx c n rev w h ys us vs yb ub vb ds d := by
  have hv : lower_multiple_of_pot w (YUV_TO_RGB_WAVES / 2) = 8 * (w / 8) := lower_multiple (k := 3) hw (by omega)
  exact tail_i444_rgb_agrees (v := lower_multiple_of_pot w (YUV_TO_RGB_WAVES / 2)) c rev hB hy hu hv' hd fun _ =>
    i444_to_bgra_sse2_agrees c rev hB hy.close hu.close hv'.close hd.close

theorem i420_rgb_agrees {t : Target} (c : Colorimetry) (n : Nat) (rev : Bool)
    {w h ys us vs ds : Nat} {yb ub vb : Buf} {d : Dst} (hw : w < 2 ^ 32)
    (hB : 256 ≤ 2 ^ t.bits) (hy : Near t yb.len ys) (hu : Near t ub.len us)
    (hv' : Near t vb.len vs) (hd : Near t d.len ds) :
    i420_rgb (wg_index t) c n rev w h ys us vs yb ub vb ds d =
      i420_rgb exactIx c n rev w h ys us vs yb ub vb ds d := by
  have hv : lower_multiple_of_pot w YUV_TO_RGB_WAVES = 16 * (w / 16) := lower_multiple (k := 4) hw (by omega)
  exact tail_i420_rgb_agrees (v := lower_multiple_of_pot w YUV_TO_RGB_WAVES) c rev hB hy hu hv' hd fun _ =>
    i420_to_bgra_sse2_agrees c rev hB hy.close hu.close hv'.close hd.close

theorem nv12_rgb_agrees {t : Target} (c : Colorimetry) (n : Nat) (rev : Bool)
    {w h ys uvs ds : Nat} {yb uvb : Buf} {d : Dst} (hw : w < 2 ^ 32)
    (hB : 256 ≤ 2 ^ t.bits) (hy : Near t yb.len ys) (hu : Near t uvb.len uvs)
    (hd : Near t d.len ds) :
    nv12_rgb (wg_index t) c n rev w h ys uvs yb uvb ds d =
      nv12_rgb exactIx c n rev w h ys uvs yb uvb ds d := by
  have hv : lower_multiple_of_pot w YUV_TO_RGB_WAVES = 16 * (w / 16) := lower_multiple (k := 4) hw (by omega)
  unfold nv12_rgb
  split
  · exact X86.nv12_to_rgb_agrees c hB hy.close hu.close hd.close
  · exact tail_nv12_bgra_agrees (v := lower_multiple_of_pot w YUV_TO_RGB_WAVES) c rev hB hy hu hd
      fun _ => nv12_to_bgra_sse2_agrees c rev hB hy.close hu.close hd.close

end Verif.Sse2
