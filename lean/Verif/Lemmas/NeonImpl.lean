import Verif.Lemmas.NeonEnc
import Verif.Lemmas.Lines
import Verif.Lemmas.SimdImpl
/-! # The kernels of neon.rs together -/

namespace Verif.Neon

open Spec (byte val PlaneFits)
open Verif.Simd (store_row load_eq lower_multiple part_line)

theorem ld3 {b : Buf} {o : Nat} (h : o + 48 ≤ b.len) {α : Type} (k : Simd.Reg × Simd.Reg × Simd.Reg → K α) :
    (vld3 16 b o >>= k) = k (fun i => if 3 * i < 48 then b.bytes (o + 3 * i) else 0,
      fun i => if 3 * i + 1 < 48 then b.bytes (o + (3 * i + 1)) else 0,
      fun i => if 3 * i + 2 < 48 then b.bytes (o + (3 * i + 2)) else 0) := by
  unfold vld3
  rw [load_eq (n := 3 * 16) h, pure_bind, pure_bind]

theorem ld4 {b : Buf} {o : Nat} (h : o + 64 ≤ b.len) {α : Type}
    (k : Simd.Reg × Simd.Reg × Simd.Reg × Simd.Reg → K α) :
    (vld4 16 b o >>= k) = k (fun i => if 4 * i < 64 then b.bytes (o + 4 * i) else 0,
      fun i => if 4 * i + 1 < 64 then b.bytes (o + (4 * i + 1)) else 0,
      fun i => if 4 * i + 2 < 64 then b.bytes (o + (4 * i + 2)) else 0,
      fun i => if 4 * i + 3 < 64 then b.bytes (o + (4 * i + 3)) else 0) := by
  unfold vld4
  rw [load_eq (n := 4 * 16) h, pure_bind, pure_bind]

theorem bgr_to_rgb_16_emits {src : Buf} {so : Nat} {dst : Dst} {d : Nat}
    (hs : so + 48 ≤ src.len) (hd : d + 48 ≤ dst.len) :
    Emits (bgr_to_rgb_16 src so dst d) () (Row dst d 48 (X86.rev3 src so 3)) := by
  unfold bgr_to_rgb_16
  rw [ld3 hs]
  refine store_row hd fun j hj => ?_
  unfold X86.rev3
  rcases (by omega : j % 3 = 0 ∨ j % 3 = 1 ∨ j % 3 = 2) with e | e | e <;>
    simp only [e, Nat.reduceEqDiff, if_false, if_true, one_ne_zero] <;>
    rw [if_pos (by omega)] <;> congr 1

theorem bgra_to_rgb_16_emits {src : Buf} {so : Nat} {dst : Dst} {d : Nat}
    (hs : so + 64 ≤ src.len) (hd : d + 48 ≤ dst.len) :
    Emits (bgra_to_rgb_16 src so dst d) () (Row dst d 48 (X86.rev3 src so 4)) := by
  unfold bgra_to_rgb_16
  rw [ld4 hs]
  refine store_row hd fun j hj => ?_
  unfold X86.rev3
  rcases (by omega : j % 3 = 0 ∨ j % 3 = 1 ∨ j % 3 = 2) with e | e | e <;>
    simp only [e, Nat.reduceEqDiff, if_false, if_true, one_ne_zero] <;>
    rw [if_pos (by omega)] <;> congr 1

theorem rgb_to_bgra_16_emits {src : Buf} {so : Nat} {dst : Dst} {d : Nat}
    (hs : so + 48 ≤ src.len) (hd : d + 64 ≤ dst.len) :
    Emits (rgb_to_bgra_16 src so dst d) () (Row dst d 64 (X86.rev4 src so)) := by
  unfold rgb_to_bgra_16
  rw [ld3 hs]
  refine store_row hd fun j hj => ?_
  unfold X86.rev4
  rcases (by omega : j % 4 = 0 ∨ j % 4 = 1 ∨ j % 4 = 2 ∨ j % 4 = 3) with e | e | e | e <;>
    simp only [e, Nat.reduceEqDiff, if_false, if_true, one_ne_zero]
  · rw [if_pos (by omega)]; congr 1
  · rw [if_pos (by omega)]; congr 1
  · rw [if_pos (by omega)]; congr 1
  · rfl

theorem bgr_to_rgb_neon_emits {w h ss ds : Nat} {src : Buf} {d : Dst} (hw : w % 16 = 0)
    (hs : ∀ y, y < h → ss * y + 3 * w ≤ src.len)
    (hd : ∀ y, y < h → ds * y + 3 * w ≤ d.len) :
    Emits (bgr_to_rgb_neon exactMul w h ss src ds d) () (X86.GRgb .bgr .rgb src ss w h ds d) := by
  obtain ⟨m, hm⟩ : ∃ m, w = 16 * m := ⟨w / 16, by omega⟩
  unfold bgr_to_rgb_neon
  simp only [exactMul, K.liftM_eq, K.lift_ok, pure_bind]
  rw [show (w + (LANE_COUNT - 1)) / LANE_COUNT = m by unfold LANE_COUNT; omega]
  unfold X86.GRgb
  refine lines_emits (a := 48) (b := 48) (m := m) (g := fun so e => bgr_to_rgb_16 src so d e)
    (by omega) (show 3 * w = 48 * m by omega) fun y hy i hi => ?_
  have h1 := hs y hy
  have h2 := hd y hy
  refine (bgr_to_rgb_16_emits (src := src) (so := ss * y + 48 * i) (dst := d)
    (d := ds * y + 48 * i) (by omega) (by omega)).congr fun p => Row.congr (fun j hj => ?_) p
  rw [← X86.rev3_bgr]
  unfold X86.rev3
  congr 1
  omega

theorem bgra_to_rgb_neon_emits {w h ss ds : Nat} {src : Buf} {d : Dst} (hw : w % 16 = 0)
    (hs : ∀ y, y < h → ss * y + 4 * w ≤ src.len)
    (hd : ∀ y, y < h → ds * y + 3 * w ≤ d.len) :
    Emits (bgra_to_rgb_neon exactMul w h ss src ds d) () (X86.GRgb .bgra .rgb src ss w h ds d) := by
  obtain ⟨m, hm⟩ : ∃ m, w = 16 * m := ⟨w / 16, by omega⟩
  unfold bgra_to_rgb_neon
  simp only [exactMul, K.liftM_eq, K.lift_ok, pure_bind]
  rw [show (w + (LANE_COUNT - 1)) / LANE_COUNT = m by unfold LANE_COUNT; omega]
  unfold X86.GRgb
  refine lines_emits (a := 64) (b := 48) (m := m) (g := fun so e => bgra_to_rgb_16 src so d e)
    (by omega) (show 3 * w = 48 * m by omega) fun y hy i hi => ?_
  have h1 := hs y hy
  have h2 := hd y hy
  refine (bgra_to_rgb_16_emits (src := src) (so := ss * y + 64 * i) (dst := d)
    (d := ds * y + 48 * i) (by omega) (by omega)).congr fun p => Row.congr (fun j hj => ?_) p
  rw [← X86.rev3_bgra]
  unfold X86.rev3
  congr 1
  omega

theorem rgb_to_bgra_neon_emits {w h ss ds : Nat} {src : Buf} {d : Dst} (hw : w % 16 = 0)
    (hs : ∀ y, y < h → ss * y + 3 * w ≤ src.len)
    (hd : ∀ y, y < h → ds * y + 4 * w ≤ d.len) :
    Emits (rgb_to_bgra_neon exactMul w h ss src ds d) () (X86.GRgb .rgb .bgra src ss w h ds d) := by
  obtain ⟨m, hm⟩ : ∃ m, w = 16 * m := ⟨w / 16, by omega⟩
  unfold rgb_to_bgra_neon
  simp only [exactMul, K.liftM_eq, K.lift_ok, pure_bind]
  rw [show (w + (LANE_COUNT - 1)) / LANE_COUNT = m by unfold LANE_COUNT; omega]
  unfold X86.GRgb
  refine lines_emits (a := 48) (b := 64) (m := m) (g := fun so e => rgb_to_bgra_16 src so d e)
    (by omega) (show 4 * w = 64 * m by omega) fun y hy i hi => ?_
  have h1 := hs y hy
  have h2 := hd y hy
  refine (rgb_to_bgra_16_emits (src := src) (so := ss * y + 48 * i) (dst := d)
    (d := ds * y + 64 * i) (by omega) (by omega)).congr fun p => Row.congr (fun j hj => ?_) p
  rw [← X86.rev4_rgb]
  unfold X86.rev4
  rw [show (64 * i + j) % 4 = j % 4 by omega, show (64 * i + j) / 4 = 16 * i + j / 4 by omega]
  split <;> first | rfl | (congr 1; omega)

/-- Arithmetic of neon.rs: chroma ties are rounded up in the vector part of a line. -/
def sem : Sem where
  cb _ w x := if x < 8 * (w / 8) then Spec.cbUp else Spec.cb
  cr _ w x := if x < 8 * (w / 8) then Spec.crUp else Spec.cr
  cbAvg _ w x := if x < 4 * (w / 8) then Spec.cbAvgUp else Spec.cbAvg
  crAvg _ w x := if x < 4 * (w / 8) then Spec.crAvgUp else Spec.crAvg
  blue _ _ _ _ := Spec.blue
  room _ _ _ _ _ := True

theorem part_eq {w : Nat} (hw : w < 2 ^ 32) :
    lower_multiple_of_pot w RGB_TO_YUV_WAVES = 8 * (w / 8) := lower_multiple (k := 3) hw (by omega)

theorem rgb_i444_ok (s : Sampler) (c : Colorimetry) {w h ss ys us vs : Nat} {src : Buf}
    {yp up vp : Dst} (hdim : Dim w h) (hs : PlaneFits src.len ss (s.pf.depth * w) h)
    (hy : PlaneFits yp.len ys w h) (hu : PlaneFits up.len us w h) (hv : PlaneFits vp.len vs w h) :
    Emits (rgb_i444 exactIx s s.pf.depth c w h ss src ys us vs yp up vp) () fun p =>
      Rect yp ys w h (Spec.lumaPlane c.std (srcImg s src ss)) p ∨
      Rect up us w h (sem.cb444 s.pf w c.std (srcImg s src ss)) p ∨
      Rect vp vs w h (sem.cr444 s.pf w c.std (srcImg s src ss)) p := by
  have e := part_eq hdim.w_lt
  refine tail_rgb_i444 s c hdim (v := lower_multiple_of_pot w RGB_TO_YUV_WAVES)
    (by rw [e]; omega) hs hy hu hv (fun x y hx => ?_) (fun x y hx => ?_) fun hpos => ?_
  · rw [e] at hx
    simp only [Sem.cb444, sem, if_neg (Nat.not_lt.2 hx), Spec.cbPlane]
  · rw [e] at hx
    simp only [Sem.cr444, sem, if_neg (Nat.not_lt.2 hx), Spec.crPlane]
  · rw [e]
    have hd : s.pf.depth * (8 * (w / 8)) ≤ s.pf.depth * w := Nat.mul_le_mul_left _ (by omega)
    refine (rgb_to_i444_neon_emits s c (w := 8 * (w / 8)) (by omega) (part_line hs hd)
      (part_line hy (by omega)) (part_line hu (by omega)) (part_line hv (by omega))).congr
      fun p => or_congr Iff.rfl (or_congr (Rect.congr (fun y _ x hx => ?_) p)
        (Rect.congr (fun y _ x hx => ?_) p))
    · simp only [Sem.cb444, sem, if_pos hx, Spec.cbPlaneUp]
    · simp only [Sem.cr444, sem, if_pos hx, Spec.crPlaneUp]

theorem rgb_i420_ok (s : Sampler) (c : Colorimetry) {w h ss ys us vs : Nat} {src : Buf}
    {yp up vp : Dst} (hdim : Dim w h) (hw : w % 2 = 0) (hh : h % 2 = 0)
    (hs : PlaneFits src.len ss (s.pf.depth * w) h) (hy : PlaneFits yp.len ys w h)
    (hu : PlaneFits up.len us (w / 2) (h / 2)) (hv : PlaneFits vp.len vs (w / 2) (h / 2)) :
    Emits (rgb_i420 exactIx s s.pf.depth c w h ss src ys us vs yp up vp) () fun p =>
      Rect yp ys w h (Spec.lumaPlane c.std (srcImg s src ss)) p ∨
      Rect up us (w / 2) (h / 2) (sem.cb420 s.pf w c.std (srcImg s src ss)) p ∨
      Rect vp vs (w / 2) (h / 2) (sem.cr420 s.pf w c.std (srcImg s src ss)) p := by
  have e := part_eq hdim.w_lt
  refine tail_rgb_i420 s c hdim hw hh (v := lower_multiple_of_pot w RGB_TO_YUV_WAVES)
    (by rw [e]; omega) (by rw [e]; omega) hs hy hu hv (fun x y hx => ?_) (fun x y hx => ?_)
    fun hpos => ?_
  · rw [e] at hx
    simp only [Sem.cb420, sem, if_neg (show ¬ x < 4 * (w / 8) by omega), Spec.cbPlane420]
  · rw [e] at hx
    simp only [Sem.cr420, sem, if_neg (show ¬ x < 4 * (w / 8) by omega), Spec.crPlane420]
  · rw [e]
    have hd : s.pf.depth * (8 * (w / 8)) ≤ s.pf.depth * w := Nat.mul_le_mul_left _ (by omega)
    refine (rgb_to_i420_neon_emits s c (w := 8 * (w / 8)) (by omega) hh (part_line hs hd)
      (part_line hy (by omega)) (part_line hu (by omega)) (part_line hv (by omega))).congr
      fun p => or_congr Iff.rfl (or_congr (Rect.congr (fun y _ x hx => ?_) p)
        (Rect.congr (fun y _ x hx => ?_) p))
    · simp only [Sem.cb420, sem, if_pos (show x < 4 * (w / 8) by omega), Spec.cbPlane420Up]
    · simp only [Sem.cr420, sem, if_pos (show x < 4 * (w / 8) by omega), Spec.crPlane420Up]

theorem rgb_nv12_ok (s : Sampler) (c : Colorimetry) {w h ss ys uvs : Nat} {src : Buf}
    {yp uvp : Dst} (hdim : Dim w h) (hw : w % 2 = 0) (hh : h % 2 = 0)
    (hs : PlaneFits src.len ss (s.pf.depth * w) h) (hy : PlaneFits yp.len ys w h)
    (hu : PlaneFits uvp.len uvs w (h / 2)) :
    Emits (rgb_nv12 exactIx s s.pf.depth c w h ss src ys uvs yp uvp) () fun p =>
      Rect yp ys w h (Spec.lumaPlane c.std (srcImg s src ss)) p ∨
      Rect uvp uvs w (h / 2) (Spec.interleave (sem.cb420 s.pf w c.std (srcImg s src ss))
        (sem.cr420 s.pf w c.std (srcImg s src ss))) p := by
  have e := part_eq hdim.w_lt
  refine tail_rgb_nv12 s c hdim hw hh (v := lower_multiple_of_pot w RGB_TO_YUV_WAVES)
    (by rw [e]; omega) (by rw [e]; omega) hs hy hu (fun x y hx => ?_) (fun x y hx => ?_)
    fun hpos => ?_
  · rw [e] at hx
    simp only [Sem.cb420, sem, if_neg (show ¬ x < 4 * (w / 8) by omega), Spec.cbPlane420]
  · rw [e] at hx
    simp only [Sem.cr420, sem, if_neg (show ¬ x < 4 * (w / 8) by omega), Spec.crPlane420]
  · rw [e]
    have hd : s.pf.depth * (8 * (w / 8)) ≤ s.pf.depth * w := Nat.mul_le_mul_left _ (by omega)
    refine (rgb_to_nv12_neon_emits s c (w := 8 * (w / 8)) (by omega) hh (part_line hs hd)
      (part_line hy (by omega)) (part_line hu (by omega))).congr
      fun p => or_congr Iff.rfl (Rect.congr (fun y _ x hx => ?_) p)
    have hx2 : x / 2 < 4 * (w / 8) := by omega
    simp only [Spec.interleave, Sem.cb420, Sem.cr420, sem, if_pos hx2, Spec.cbPlane420Up,
      Spec.crPlane420Up]

theorem rgb_bgra_ok {t : Target} (hb : 1 ≤ t.bits) {w h ss ds : Nat} {src : Buf} {d : Dst}
    (hdim : Dim w h) (hs : PlaneFits src.len ss (3 * w) h) (hd : PlaneFits d.len ds (4 * w) h)
    (hsl : src.len ≤ t.imax) (hdl : d.len ≤ t.imax) :
    Emits (rgb_bgra exactMul t w h ss src ds d) () (X86.GRgb .rgb .bgra src ss w h ds d) := by
  have hi := imax_lt t hb
  have h1 := hs.stride_le
  have h2 := hd.stride_le
  have h3 := hs.row_le
  have h4 := hd.row_le
  have hv0 : lower_multiple_of_pot w LANE_COUNT = 16 * (w / 16) :=
    lower_multiple (k := 4) hdim.w_lt (by omega)
  refine tail_rgb_rgb (spf := .rgb) (dpf := .bgra) (by decide) (v := lower_multiple_of_pot w LANE_COUNT)
    (ks := fun a b => X86.rgb_to_bgra t (w - lower_multiple_of_pot w LANE_COUNT) h ss a ds b)
    hdim (by rw [hv0]; omega) hs hd (fun hpos => ?_) fun hpos src' d' l1 l2 l3 l4 => ?_
  · rw [hv0]
    exact rgb_to_bgra_neon_emits (by omega) (part_line hs (by omega)) (part_line hd (by omega))
  · exact X86.rgb_to_bgra_emits hpos (by omega) (by omega) (by omega) (by omega) l3 l4

theorem bgra_rgb_ok {t : Target} (hb : 1 ≤ t.bits) {w h ss ds : Nat} {src : Buf} {d : Dst}
    (hdim : Dim w h) (hs : PlaneFits src.len ss (4 * w) h) (hd : PlaneFits d.len ds (3 * w) h)
    (hsl : src.len ≤ t.imax) (hdl : d.len ≤ t.imax) :
    Emits (bgra_rgb exactMul t w h ss src ds d) () (X86.GRgb .bgra .rgb src ss w h ds d) := by
  have hi := imax_lt t hb
  have h1 := hs.stride_le
  have h2 := hd.stride_le
  have h3 := hs.row_le
  have h4 := hd.row_le
  have h5 := hdim.w_lt
  have hv0 : lower_multiple_of_pot w LANE_COUNT = 16 * (w / 16) :=
    lower_multiple (k := 4) hdim.w_lt (by omega)
  refine tail_rgb_rgb (spf := .bgra) (dpf := .rgb) (by decide) (v := lower_multiple_of_pot w LANE_COUNT)
    (ks := fun a b => X86.bgra_to_rgb t (w - lower_multiple_of_pot w LANE_COUNT) h ss a ds b)
    hdim (by rw [hv0]; omega) hs hd (fun hpos => ?_) fun hpos src' d' l1 l2 l3 l4 => ?_
  · rw [hv0]
    exact bgra_to_rgb_neon_emits (by omega) (part_line hs (by omega)) (part_line hd (by omega))
  · exact X86.bgra_to_rgb_emits (by omega) (by omega) (by omega) (by omega) (by omega) (by omega)
      (by omega) l3 l4

theorem bgr_rgb_ok (t : Target) {w h ss ds : Nat} {src : Buf} {d : Dst}
    (hdim : Dim w h) (hs : PlaneFits src.len ss (3 * w) h) (hd : PlaneFits d.len ds (3 * w) h) :
    Emits (bgr_rgb exactMul w h ss src ds d) () (X86.GRgb .bgr .rgb src ss w h ds d) := by
  have hv0 : lower_multiple_of_pot w LANE_COUNT = 16 * (w / 16) :=
    lower_multiple (k := 4) hdim.w_lt (by omega)
  have := hdim.w_lt
  refine tail_rgb_rgb (spf := .bgr) (dpf := .rgb) (by decide) (v := lower_multiple_of_pot w LANE_COUNT)
    (ks := fun a b => X86.bgr_to_rgb exactMul (w - lower_multiple_of_pot w LANE_COUNT) h ss a ds b)
    hdim (by rw [hv0]; omega) hs hd (fun hpos => ?_) fun hpos src' d' l1 l2 l3 l4 => ?_
  · rw [hv0]
    exact bgr_to_rgb_neon_emits (by omega) (part_line hs (by omega)) (part_line hd (by omega))
  · exact X86.bgr_to_rgb_emits (by omega) l3 l4

/-- The kernels of neon.rs, with exact offsets. -/
def ideal : Impl := implWith (fun _ => exactIx) (fun _ => exactMul)

/-- The kernels of neon.rs store the images described by `sem`. -/
theorem implOk (t : Target) (hb : 1 ≤ t.bits) : ImplOk t ideal sem where
  rgb_i444 s c _ _ _ _ _ _ _ _ _ _ hdim hs _ hy hu hv _ _ _ _ := rgb_i444_ok s c hdim hs hy hu hv
  rgb_i420 s c _ _ _ _ _ _ _ _ _ _ hdim hw hh hs _ hy hu hv _ _ _ _ :=
    rgb_i420_ok s c hdim hw hh hs hy hu hv
  rgb_nv12 s c _ _ _ _ _ _ _ _ hdim hw hh hs _ hy hu _ _ _ := rgb_nv12_ok s c hdim hw hh hs hy hu
  i444_rgb := (X86.implOk t hb).i444_rgb
  i420_rgb := (X86.implOk t hb).i420_rgb
  nv12_rgb := (X86.implOk t hb).nv12_rgb
  rgb_bgra hdim hs hd hsl hdl := rgb_bgra_ok hb hdim hs hd hsl hdl
  bgra_rgb hdim hs hd hsl hdl := bgra_rgb_ok hb hdim hs hd hsl hdl
  bgr_rgb hdim hs hd _ _ := bgr_rgb_ok t hdim hs hd

end Verif.Neon
