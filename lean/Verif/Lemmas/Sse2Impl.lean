import Verif.Lemmas.Sse2Rgb
import Verif.Lemmas.SimdImpl
/-! # The kernels of sse2.rs together -/

namespace Verif.Sse2

open Spec (byte val PlaneFits)
open Verif.Simd

/-- Columns decoded with 16-bit arithmetic. -/
def vpart (src dst : PixelFormat) (w : Nat) : Nat :=
  match src with
  | .i444 => 8 * (w / 8)
  | _ => if dst = .rgb then 0 else 16 * (w / 16)

/-- The last group of four 3-byte pixels is read as 16 bytes. -/
def room (pf : PixelFormat) (w h stride len : Nat) : Prop :=
  pf = .bgr → 12 ≤ w → stride * (h - 1) + 3 * (12 * (w / 12)) + 4 ≤ len

/-- The arithmetic of sse2.rs. -/
def sem : Sem := vsem vpart room

theorem encode_part_eq (s : Sampler) {w : Nat} (hw : w < 2 ^ 32) :
    encode_part s.pf.depth w = if s = .bgr then 12 * (w / 12) else 4 * (w / 4) := by
  cases s
  · exact lower_multiple (k := 2) hw (by omega)
  · exact lower_multiple (k := 2) hw (by omega)
  · rfl

theorem encode_part_le (s : Sampler) {w : Nat} (hw : w < 2 ^ 32) :
    encode_part s.pf.depth w ≤ w ∧ encode_part s.pf.depth w % 4 = 0 := by
  rw [encode_part_eq s hw]
  split <;> omega

theorem encode_room (s : Sampler) {w h ss len : Nat} (hdim : Dim w h)
    (hs : PlaneFits len ss (s.pf.depth * w) h) (hr : room s.pf w h ss len)
    (hpos : 0 < encode_part s.pf.depth w) :
    ss * (h - 1) + s.pf.depth * encode_part s.pf.depth w + (16 - 4 * s.pf.depth) ≤ len := by
  have h0 := hdim.h_pos
  have := fits_line hs (y := h - 1) (by omega)
  rw [encode_part_eq s hdim.w_lt] at hpos ⊢
  cases s
  · simp only [Sampler.pf, PixelFormat.depth, reduceCtorEq, if_false] at *
    omega
  · simp only [Sampler.pf, PixelFormat.depth, reduceCtorEq, if_false] at *
    omega
  · have := hr rfl
    simp only [Sampler.pf, PixelFormat.depth, if_true] at *
    omega

theorem rgb_i444_ok (s : Sampler) (c : Colorimetry) {w h ss ys us vs : Nat} {src : Buf}
    {yp up vp : Dst} (hdim : Dim w h) (hs : PlaneFits src.len ss (s.pf.depth * w) h)
    (hr : room s.pf w h ss src.len) (hy : PlaneFits yp.len ys w h) (hu : PlaneFits up.len us w h)
    (hv : PlaneFits vp.len vs w h) :
    Emits (rgb_i444 exactIx s s.pf.depth c w h ss src ys us vs yp up vp) ()
      (X86.G444 c.std (srcImg s src ss) w h ys us vs yp up vp) := by
  obtain ⟨hle, h4⟩ := encode_part_le s hdim.w_lt
  exact tail_rgb_i444 s c hdim hle hs hy hu hv (fun _ _ _ => rfl) (fun _ _ _ => rfl) fun hpos =>
    rgb_to_i444_sse2_emits s c h4 (encode_room s hdim hs hr hpos) (part_line hy hle)
      (part_line hu hle) (part_line hv hle)

theorem rgb_i420_ok (s : Sampler) (c : Colorimetry) {w h ss ys us vs : Nat} {src : Buf}
    {yp up vp : Dst} (hdim : Dim w h) (hw : w % 2 = 0) (hh : h % 2 = 0)
    (hs : PlaneFits src.len ss (s.pf.depth * w) h)
    (hr : room s.pf w h ss src.len) (hy : PlaneFits yp.len ys w h)
    (hu : PlaneFits up.len us (w / 2) (h / 2)) (hv : PlaneFits vp.len vs (w / 2) (h / 2)) :
    Emits (rgb_i420 exactIx s s.pf.depth c w h ss src ys us vs yp up vp) ()
      (X86.G420 c.std (srcImg s src ss) w h ys us vs yp up vp) := by
  obtain ⟨hle, h4⟩ := encode_part_le s hdim.w_lt
  exact tail_rgb_i420 s c hdim hw hh hle (by omega) hs hy hu hv (fun _ _ _ => rfl)
    (fun _ _ _ => rfl) fun hpos =>
    rgb_to_i420_sse2_emits s c h4 hh (encode_room s hdim hs hr hpos) (part_line hy hle)
      (part_line hu (by omega)) (part_line hv (by omega))

theorem rgb_nv12_ok (s : Sampler) (c : Colorimetry) {w h ss ys uvs : Nat} {src : Buf}
    {yp uvp : Dst} (hdim : Dim w h) (hw : w % 2 = 0) (hh : h % 2 = 0)
    (hs : PlaneFits src.len ss (s.pf.depth * w) h)
    (hr : room s.pf w h ss src.len) (hy : PlaneFits yp.len ys w h)
    (hu : PlaneFits uvp.len uvs w (h / 2)) :
    Emits (rgb_nv12 exactIx s s.pf.depth c w h ss src ys uvs yp uvp) ()
      (X86.GNv12 c.std (srcImg s src ss) w h ys uvs yp uvp) := by
  obtain ⟨hle, h4⟩ := encode_part_le s hdim.w_lt
  exact tail_rgb_nv12 s c hdim hw hh hle (by omega) hs hy hu (fun _ _ _ => rfl)
    (fun _ _ _ => rfl) fun hpos =>
    rgb_to_nv12_sse2_emits s c h4 hh (encode_room s hdim hs hr hpos) (part_line hy hle)
      (part_line hu hle)

theorem i444_rgb_ok (c : Colorimetry) (o : RgbOut) {w h ys us vs ds : Nat} {yb ub vb : Buf}
    {d : Dst} (ho : o ≠ .rgb) (hdim : Dim w h) (hy : PlaneFits yb.len ys w h)
    (hu : PlaneFits ub.len us w h) (hv : PlaneFits vb.len vs w h)
    (hd : PlaneFits d.len ds (o.pf.depth * w) h) :
    Emits (i444_rgb exactIx c o.pf.depth o.pf.reversed w h ys us vs yb ub vb ds d) ()
      (Rect d ds (o.pf.depth * w) h
        (Spec.rgbRow o.pf (sem.dec .i444 o.pf w c.std (X86.img444 yb ub vb ys us vs)))) := by
  obtain ⟨e1, e2⟩ := reversed_out o ho
  have hv0 : lower_multiple_of_pot w (YUV_TO_RGB_WAVES / 2) = 8 * (w / 8) :=
    lower_multiple (k := 3) hdim.w_lt (by omega)
  have hvp : vpart .i444 o.pf w = 8 * (w / 8) := rfl
  refine tail_i444_rgb c o ho hdim (by rw [hv0]; omega) hy hu hv hd ?_ fun hpos => ?_
  · intro j y hj
    rw [hv0, ← hvp, depth_bpp] at hj
    exact vsem_hi _ _ (bpp_out o) hj
  · rw [hv0]
    have := i444_to_bgra_sse2_emits c o.pf.reversed (w := 8 * (w / 8)) (h := h) (by omega)
      (part_line hy (by omega)) (part_line hu (by omega)) (part_line hv (by omega))
      (part_line (v := 8 * (w / 8) * 4) hd (by rw [e2]; omega))
    rw [e1] at this
    rw [e2]
    refine this.congr fun p => Rect.congr (fun y _ j hj => ?_) p
    exact vsem_lo _ _ (by rw [hvp, ← depth_bpp, e2]; exact hj)

theorem i420_rgb_ok (c : Colorimetry) (o : RgbOut) {w h ys us vs ds : Nat} {yb ub vb : Buf}
    {d : Dst} (ho : o ≠ .rgb) (hdim : Dim w h) (hw : w % 2 = 0) (hh : h % 2 = 0)
    (hy : PlaneFits yb.len ys w h)
    (hu : PlaneFits ub.len us (w / 2) (h / 2)) (hv : PlaneFits vb.len vs (w / 2) (h / 2))
    (hd : PlaneFits d.len ds (o.pf.depth * w) h) :
    Emits (i420_rgb exactIx c o.pf.depth o.pf.reversed w h ys us vs yb ub vb ds d) ()
      (Rect d ds (o.pf.depth * w) h
        (Spec.rgbRow o.pf (sem.dec .i420 o.pf w c.std (X86.img420 yb ub vb ys us vs)))) := by
  obtain ⟨e1, e2⟩ := reversed_out o ho
  have hv0 : lower_multiple_of_pot w YUV_TO_RGB_WAVES = 16 * (w / 16) :=
    lower_multiple (k := 4) hdim.w_lt (by omega)
  have hvp : vpart .i420 o.pf w = 16 * (w / 16) := by cases o <;> first | rfl | exact absurd rfl ho
  refine tail_i420_rgb c o ho hdim hw hh (by rw [hv0]; omega) (by rw [hv0]; omega) hy hu hv hd ?_
    fun hpos => ?_
  · intro j y hj
    rw [hv0, ← hvp, depth_bpp] at hj
    exact vsem_hi _ _ (bpp_out o) hj
  · rw [hv0]
    have := i420_to_bgra_sse2_emits c o.pf.reversed (w := 16 * (w / 16)) (h := h) (by omega) hh
      (part_line hy (by omega)) (part_line hu (by omega)) (part_line hv (by omega))
      (part_line (v := 16 * (w / 16) * 4) hd (by rw [e2]; omega))
    rw [e1] at this
    rw [e2]
    refine this.congr fun p => Rect.congr (fun y _ j hj => ?_) p
    exact vsem_lo _ _ (by rw [hvp, ← depth_bpp, e2]; exact hj)

theorem nv12_rgb_ok (c : Colorimetry) (o : RgbOut) {w h ys uvs ds : Nat} {yb uvb : Buf} {d : Dst}
    (hdim : Dim w h) (hw : w % 2 = 0) (hh : h % 2 = 0) (hy : PlaneFits yb.len ys w h)
    (hu : PlaneFits uvb.len uvs w (h / 2)) (hd : PlaneFits d.len ds (o.pf.depth * w) h) :
    Emits (nv12_rgb exactIx c o.pf.depth o.pf.reversed w h ys uvs yb uvb ds d) ()
      (Rect d ds (o.pf.depth * w) h
        (Spec.rgbRow o.pf (sem.dec .nv12 o.pf w c.std (X86.imgNv12 yb uvb ys uvs)))) := by
  by_cases ho : o = .rgb
  · subst ho
    refine (X86.nv12_ok (t := .x64) c .rgb hw hh hy hu hd).congr fun p => Rect.congr (fun y _ j _ => ?_) p
    exact (vsem_hi (v := vpart) (room := room) (src := .nv12) (w := w) _ _ (bpp_out .rgb)
      (by show 0 * 3 ≤ j; omega)).symm
  · obtain ⟨e1, e2⟩ := reversed_out o ho
    have hv0 : lower_multiple_of_pot w YUV_TO_RGB_WAVES = 16 * (w / 16) :=
      lower_multiple (k := 4) hdim.w_lt (by omega)
    have hvp : vpart .nv12 o.pf w = 16 * (w / 16) := by
      cases o <;> first | rfl | exact absurd rfl ho
    show Emits (if o.pf.depth = 3 then _ else _) () _
    rw [if_neg (by omega)]
    refine tail_nv12_bgra c o ho hdim hw hh (by rw [hv0]; omega) (by rw [hv0]; omega) hy hu hd ?_
      fun hpos => ?_
    · intro j y hj
      rw [hv0, ← hvp, depth_bpp] at hj
      exact vsem_hi _ _ (bpp_out o) hj
    · rw [hv0]
      have := nv12_to_bgra_sse2_emits c o.pf.reversed (w := 16 * (w / 16)) (h := h) (by omega) hh
        (part_line hy (by omega)) (part_line hu (by omega))
        (part_line (v := 16 * (w / 16) * 4) hd (by rw [e2]; omega))
      rw [e1] at this
      rw [e2]
      refine this.congr fun p => Rect.congr (fun y _ j hj => ?_) p
      exact vsem_lo _ _ (by rw [hvp, ← depth_bpp, e2]; exact hj)

theorem rgb_bgra_ok {t : Target} (hb : 1 ≤ t.bits) {w h ss ds : Nat} {src : Buf} {d : Dst}
    (hdim : Dim w h) (hs : PlaneFits src.len ss (3 * w) h) (hd : PlaneFits d.len ds (4 * w) h)
    (hsl : src.len ≤ t.imax) (hdl : d.len ≤ t.imax) :
    Emits (rgb_bgra t w h ss src ds d) () (X86.GRgb .rgb .bgra src ss w h ds d) := by
  have hi := imax_lt t hb
  have h1 := hs.stride_le
  have h2 := hd.stride_le
  have h3 := hs.row_le
  have h4 := hd.row_le
  have hv0 : lower_multiple_of_pot w LANE_COUNT = 16 * (w / 16) :=
    lower_multiple (k := 4) hdim.w_lt (by omega)
  refine tail_rgb_rgb (spf := .rgb) (dpf := .bgra) (by decide) (v := lower_multiple_of_pot w LANE_COUNT)
    (ks := fun a b => X86.rgb_to_bgra t (w - lower_multiple_of_pot w LANE_COUNT) h ss a ds b)
    hdim (by rw [hv0]; omega) hs hd (fun hpos => ?_) fun hpos src' d' l1 l2 l3 l4 => ?_
  · rw [hv0]
    exact rgb_to_bgra_sse2_emits (by omega) (by omega) (by omega) (by omega) (by omega)
      (part_line hs (by omega)) (part_line hd (by omega))
  · exact X86.rgb_to_bgra_emits hpos (by omega) (by omega) (by omega) (by omega) l3 l4

/-- The kernels of sse2.rs, with exact offsets. -/
def ideal : Impl := implWith (fun _ => exactIx) (fun _ => exactMul)

/-- The kernels of sse2.rs store the images described by `sem`. -/
theorem implOk (t : Target) (hb : 1 ≤ t.bits) : ImplOk t ideal sem where
  rgb_i444 s c _ _ _ _ _ _ _ _ _ _ hdim hs hr hy hu hv _ _ _ _ := rgb_i444_ok s c hdim hs hr hy hu hv
  rgb_i420 s c _ _ _ _ _ _ _ _ _ _ hdim hw hh hs hr hy hu hv _ _ _ _ :=
    rgb_i420_ok s c hdim hw hh hs hr hy hu hv
  rgb_nv12 s c _ _ _ _ _ _ _ _ hdim hw hh hs hr hy hu _ _ _ := rgb_nv12_ok s c hdim hw hh hs hr hy hu
  i444_rgb c o _ _ _ _ _ _ _ _ _ _ ho hdim hy hu hv hd _ _ _ _ := i444_rgb_ok c o ho hdim hy hu hv hd
  i420_rgb c o _ _ _ _ _ _ _ _ _ _ ho hdim hw hh hy hu hv hd _ _ _ _ :=
    i420_rgb_ok c o ho hdim hw hh hy hu hv hd
  nv12_rgb c o _ _ _ _ _ _ _ _ hdim hw hh hy hu hd _ _ _ := nv12_rgb_ok c o hdim hw hh hy hu hd
  rgb_bgra hdim hs hd hsl hdl := rgb_bgra_ok hb hdim hs hd hsl hdl
  bgra_rgb := (X86.implOk t hb).bgra_rgb
  bgr_rgb := (X86.implOk t hb).bgr_rgb

end Verif.Sse2
