import Verif.Lemmas.WpSse2
import Verif.Lemmas.WpAvx2
import Verif.Lemmas.WpNeon
import Verif.Lemmas.Master
import Verif.Lemmas.Ideal
import Verif.Spec.Reach
import Verif.Spec.Valid
import Verif.Model.Crate
/-! # Exactly when the kernel chosen by `convert_image` stays in bounds -/

namespace Verif

open Spec (readEnd parts scalarPart)

theorem readEnd_x86 (s : Sampler) (y : YuvFmt) {w : Nat} (hw : 0 < w) :
    readEnd .x86 s.pf y.pf w = s.pf.depth * (w - 1) + s.reads := by
  cases s <;> cases y <;>
    simp only [readEnd, Sampler.pf, YuvFmt.pf, Spec.isRgb, Spec.bpp, PixelFormat.depth, Sampler.reads,
      Bool.false_eq_true, if_false] <;> omega

theorem readEnd_sse2 (s : Sampler) (y : YuvFmt) {w : Nat} (hw : 0 < w) (hw' : w < 2 ^ 32) :
    readEnd .sse2 s.pf y.pf w = encEnd s (Sse2.encode_part s.pf.depth w)
        (s.pf.depth * (Sse2.encode_part s.pf.depth w - 4) + 16) w := by
  rw [Sse2.encode_part_eq s hw', encEnd]
  cases s <;> cases y <;>
    simp only [readEnd, Sampler.pf, YuvFmt.pf, Spec.isRgb, Spec.bpp, PixelFormat.depth, Sampler.reads,
      Bool.false_eq_true, if_false, reduceCtorEq, if_true, Nat.max_def] <;>
    (repeat' split) <;> omega

theorem readEnd_avx2 (s : Sampler) (y : YuvFmt) {w : Nat} (hw : 0 < w) (hw' : w < 2 ^ 32) :
    readEnd .avx2 s.pf y.pf w = encEnd s (Avx2.encode_part s.pf.depth w)
        (s.pf.depth * (Avx2.encode_part s.pf.depth w - 8) + 32) w := by
  rw [Avx2.encode_part_eq s hw', encEnd]
  cases s <;> cases y <;>
    simp only [readEnd, Sampler.pf, YuvFmt.pf, Spec.isRgb, Spec.bpp, PixelFormat.depth, Sampler.reads,
      Bool.false_eq_true, if_false, reduceCtorEq, if_true, Nat.max_def] <;>
    (repeat' split) <;> omega

theorem readEnd_neon (s : Sampler) (y : YuvFmt) {w : Nat} (hw : 0 < w) (hw' : w < 2 ^ 32) :
    readEnd .neon s.pf y.pf w = encEnd s (lower_multiple_of_pot w Neon.RGB_TO_YUV_WAVES)
        (lower_multiple_of_pot w Neon.RGB_TO_YUV_WAVES * s.pf.depth) w := by
  rw [show lower_multiple_of_pot w Neon.RGB_TO_YUV_WAVES = 8 * (w / 8) from
    Simd.lower_multiple (k := 3) hw' (by omega), encEnd]
  cases s <;> cases y <;>
    simp only [readEnd, Sampler.pf, YuvFmt.pf, Spec.isRgb, Spec.bpp, PixelFormat.depth, Sampler.reads,
      Bool.false_eq_true, if_false, Nat.max_def] <;>
    (repeat' split) <;> omega

/-- Every field: the kernel completes exactly if the lines lie inside their buffers. -/
structure ImplSafe (t : Target) (I : Impl) (set : InstructionSet) : Prop where
  rgb_i444 : ∀ {S X : Prop} (s : Sampler) (c : Colorimetry) {w h ss ys us vs : Nat} {src : Buf}
    {yp up vp : Dst}, Dim w h →
    (S → Ext src.len ss (readEnd set s.pf .i444 w) h ∧ Ext yp.len ys w h ∧
      Ext up.len us w h ∧ Ext vp.len vs w h) →
    K.Wp S X (I.rgb_i444 t s s.pf.depth c w h ss src ys us vs yp up vp) (fun _ =>
      Ext src.len ss (readEnd set s.pf .i444 w) h ∧ Ext yp.len ys w h ∧
      Ext up.len us w h ∧ Ext vp.len vs w h)
  rgb_i420 : ∀ {S X : Prop} (s : Sampler) (c : Colorimetry) {w h ss ys us vs : Nat} {src : Buf}
    {yp up vp : Dst}, Dim w h → w % 2 = 0 → h % 2 = 0 →
    (S → Ext src.len ss (readEnd set s.pf .i420 w) h ∧ Ext yp.len ys w h ∧
      Ext up.len us (w / 2) (h / 2) ∧ Ext vp.len vs (w / 2) (h / 2)) →
    K.Wp S X (I.rgb_i420 t s s.pf.depth c w h ss src ys us vs yp up vp) (fun _ =>
      Ext src.len ss (readEnd set s.pf .i420 w) h ∧ Ext yp.len ys w h ∧
      Ext up.len us (w / 2) (h / 2) ∧ Ext vp.len vs (w / 2) (h / 2))
  rgb_nv12 : ∀ {S X : Prop} (s : Sampler) (c : Colorimetry) {w h ss ys uvs : Nat} {src : Buf}
    {yp uvp : Dst}, Dim w h → w % 2 = 0 → h % 2 = 0 →
    (S → Ext src.len ss (readEnd set s.pf .nv12 w) h ∧ Ext yp.len ys w h ∧
      Ext uvp.len uvs w (h / 2)) →
    K.Wp S X (I.rgb_nv12 t s s.pf.depth c w h ss src ys uvs yp uvp) (fun _ =>
      Ext src.len ss (readEnd set s.pf .nv12 w) h ∧ Ext yp.len ys w h ∧
      Ext uvp.len uvs w (h / 2))
  i444_rgb : ∀ {S X : Prop} (c : Colorimetry) (o : RgbOut) {w h ys us vs ds : Nat}
    {yb ub vb : Buf} {d : Dst}, o ≠ .rgb → Dim w h →
    (S → Ext yb.len ys w h ∧ Ext ub.len us w h ∧ Ext vb.len vs w h ∧
      Ext d.len ds (o.pf.depth * w) h) →
    K.Wp S X (I.i444_rgb t c o.pf.depth o.pf.reversed w h ys us vs yb ub vb ds d) (fun _ =>
      Ext yb.len ys w h ∧ Ext ub.len us w h ∧ Ext vb.len vs w h ∧ Ext d.len ds (o.pf.depth * w) h)
  i420_rgb : ∀ {S X : Prop} (c : Colorimetry) (o : RgbOut) {w h ys us vs ds : Nat}
    {yb ub vb : Buf} {d : Dst}, o ≠ .rgb → Dim w h → w % 2 = 0 → h % 2 = 0 →
    (S → Ext yb.len ys w h ∧ Ext ub.len us (w / 2) (h / 2) ∧ Ext vb.len vs (w / 2) (h / 2) ∧
      Ext d.len ds (o.pf.depth * w) h) →
    K.Wp S X (I.i420_rgb t c o.pf.depth o.pf.reversed w h ys us vs yb ub vb ds d) (fun _ =>
      Ext yb.len ys w h ∧ Ext ub.len us (w / 2) (h / 2) ∧ Ext vb.len vs (w / 2) (h / 2) ∧
      Ext d.len ds (o.pf.depth * w) h)
  nv12_rgb : ∀ {S X : Prop} (c : Colorimetry) (o : RgbOut) {w h ys uvs ds : Nat}
    {yb uvb : Buf} {d : Dst}, Dim w h → w % 2 = 0 → h % 2 = 0 →
    (S → Ext yb.len ys w h ∧ Ext uvb.len uvs w (h / 2) ∧ Ext d.len ds (o.pf.depth * w) h) →
    K.Wp S X (I.nv12_rgb t c o.pf.depth o.pf.reversed w h ys uvs yb uvb ds d) (fun _ =>
      Ext yb.len ys w h ∧ Ext uvb.len uvs w (h / 2) ∧ Ext d.len ds (o.pf.depth * w) h)
  rgb_bgra : ∀ {S X : Prop} {w h ss ds : Nat} {src : Buf} {d : Dst}, Dim w h →
    0 < ss →
    (t.checked = true → X86.Stuck (parts set .rgb .bgra w) 3 4 ss ds src.len d.len h → X) →
    src.len + ss < 2 ^ t.bits → d.len + ds < 2 ^ t.bits →
    (S → (Ext src.len ss (readEnd set .rgb .bgra w) h ∧ Ext d.len ds (4 * w) h) ∧
      X86.Peek t ss src.len w (scalarPart set w) h) →
    K.Wp S X (I.rgb_bgra t w h ss src ds d) (fun _ =>
      ((Ext src.len ss (readEnd set .rgb .bgra w) h ∧ Ext d.len ds (4 * w) h) ∧
      X86.Peek t ss src.len w (scalarPart set w) h) ∧
      (t.checked = true → X86.Fit (parts set .rgb .bgra w) 3 4 ss ds))
  rgb_bgra_over : ∀ {w h ss ds : Nat} {src : Buf} {d : Dst}, Dim w h → t.checked = true →
    src.len + ss < 2 ^ t.bits → d.len + ds < 2 ^ t.bits →
    X86.Stuck (parts set .rgb .bgra w) 3 4 ss ds src.len d.len h →
    K.Wp True True (I.rgb_bgra t w h ss src ds d) (fun _ => False)
  bgra_rgb : ∀ {S X : Prop} {w h ss ds : Nat} {src : Buf} {d : Dst}, Dim w h →
    (t.checked = true → X86.Stuck (parts set .bgra .rgb w) 4 3 ss ds src.len d.len h → X) →
    src.len + ss < 2 ^ t.bits → d.len + ds < 2 ^ t.bits →
    (set = .avx2 → Avx2.LateOverflow t w h ss ds → X) →
    (S → Ext src.len ss (readEnd set .bgra .rgb w) h ∧ Ext d.len ds (3 * w) h) →
    K.Wp S X (I.bgra_rgb t w h ss src ds d) (fun _ =>
      (Ext src.len ss (readEnd set .bgra .rgb w) h ∧ Ext d.len ds (3 * w) h) ∧
      (t.checked = true → X86.Fit (parts set .bgra .rgb w) 4 3 ss ds))
  bgra_rgb_over : ∀ {w h ss ds : Nat} {src : Buf} {d : Dst}, Dim w h → t.checked = true →
    src.len + ss < 2 ^ t.bits → d.len + ds < 2 ^ t.bits →
    (X86.Stuck (parts set .bgra .rgb w) 4 3 ss ds src.len d.len h ∨
      (set = .avx2 ∧ Avx2.LateOverflow t w h ss ds)) →
    K.Wp True True (I.bgra_rgb t w h ss src ds d) (fun _ => False)
  bgr_rgb : ∀ {S X : Prop} {w h ss ds : Nat} {src : Buf} {d : Dst}, Dim w h →
    (S → Ext src.len ss (readEnd set .bgr .rgb w) h ∧ Ext d.len ds (3 * w) h) →
    K.Wp S X (I.bgr_rgb t w h ss src ds d) (fun _ =>
      Ext src.len ss (readEnd set .bgr .rgb w) h ∧ Ext d.len ds (3 * w) h)

theorem x86_safe (t : Target) : ImplSafe t X86.ideal .x86 where
  rgb_i444 s c _ _ _ _ _ _ _ _ _ _ hdim o := by
    have e := readEnd_x86 s .i444 hdim.w_pos
    simp only [YuvFmt.pf] at e
    rw [e] at o ⊢
    exact X86.rgb_to_i444_wp s c hdim.w_pos hdim.h_pos o
  rgb_i420 s c _ _ _ _ _ _ _ _ _ _ hdim hw2 hh2 o := by
    have e := readEnd_x86 s .i420 hdim.w_pos
    simp only [YuvFmt.pf] at e
    rw [e] at o ⊢
    exact X86.rgb_to_i420_wp s c hdim.w_pos hdim.h_pos hw2 hh2 o
  rgb_nv12 s c _ _ _ _ _ _ _ _ hdim hw2 hh2 o := by
    have e := readEnd_x86 s .nv12 hdim.w_pos
    simp only [YuvFmt.pf] at e
    rw [e] at o ⊢
    exact X86.rgb_to_nv12_wp s c hdim.w_pos hdim.h_pos hw2 hh2 o
  i444_rgb c o _ _ _ _ _ _ _ _ _ _ ho hdim hS := by
    rw [(reversed_out o ho).2] at hS ⊢
    exact X86.i444_to_bgra_wp c _ hdim.w_pos hdim.h_pos hS
  i420_rgb c o _ _ _ _ _ _ _ _ _ _ ho hdim hw2 hh2 hS := by
    rw [(reversed_out o ho).2] at hS ⊢
    exact X86.i420_to_bgra_wp c _ hdim.w_pos hdim.h_pos hw2 hh2 hS
  nv12_rgb c o _ _ _ _ _ _ _ _ hdim hw2 hh2 hS := by
    cases o with
    | rgb => exact X86.nv12_to_rgb_wp c hdim.w_pos hdim.h_pos hw2 hh2 hS
    | bgra => exact X86.nv12_to_bgra_wp c _ hdim.w_pos hdim.h_pos hw2 hh2 hS
    | rgba => exact X86.nv12_to_bgra_wp c _ hdim.w_pos hdim.h_pos hw2 hh2 hS
  rgb_bgra hdim hss h2 hs hd o := (X86.rgb_to_bgra_any_wp hdim.w_pos hdim.h_pos hss
    (fun hk h => h2 hk (X86.Stuck.one.2 h)) hs hd fun h => and_assoc.1 (o h)).mono
    fun _ h => ⟨and_assoc.2 h.1, fun hk => .one (h.2 hk)⟩
  rgb_bgra_over _ hc _ _ hk := X86.diffs_over hc (X86.Stuck.one.1 hk) trivial
  bgra_rgb hdim h2 hs hd _ o := (X86.bgra_to_rgb_any_wp hdim.w_pos
    (by have := hdim.w_lt; omega) hdim.h_pos
    (fun hk h => h2 hk (X86.Stuck.one.2 h)) hs hd o).mono fun _ h => ⟨h.1, fun hk => .one (h.2 hk)⟩
  bgra_rgb_over _ hc _ _ hk := X86.diffs_over hc
    (X86.Stuck.one.1 (hk.resolve_right fun h => nomatch h.1)) trivial
  bgr_rgb hdim o := X86.bgr_to_rgb_wp hdim.w_pos (by have := hdim.w_lt; omega) hdim.h_pos o

theorem sse2_safe (t : Target) : ImplSafe t Sse2.ideal .sse2 where
  rgb_i444 s c _ _ _ _ _ _ _ _ _ _ hdim o := by
    have e := readEnd_sse2 s .i444 hdim.w_pos hdim.w_lt
    simp only [YuvFmt.pf] at e
    rw [e] at o ⊢
    exact Sse2.rgb_i444_wp s c hdim o
  rgb_i420 s c _ _ _ _ _ _ _ _ _ _ hdim hw2 hh2 o := by
    have e := readEnd_sse2 s .i420 hdim.w_pos hdim.w_lt
    simp only [YuvFmt.pf] at e
    rw [e] at o ⊢
    exact Sse2.rgb_i420_wp s c hdim hw2 hh2 o
  rgb_nv12 s c _ _ _ _ _ _ _ _ hdim hw2 hh2 o := by
    have e := readEnd_sse2 s .nv12 hdim.w_pos hdim.w_lt
    simp only [YuvFmt.pf] at e
    rw [e] at o ⊢
    exact Sse2.rgb_nv12_wp s c hdim hw2 hh2 o
  i444_rgb c o _ _ _ _ _ _ _ _ _ _ ho hdim hS := by
    rw [(reversed_out o ho).2] at hS ⊢
    exact Sse2.i444_rgb_wp c _ hdim hS
  i420_rgb c o _ _ _ _ _ _ _ _ _ _ ho hdim hw2 hh2 hS := by
    rw [(reversed_out o ho).2] at hS ⊢
    exact Sse2.i420_rgb_wp c _ hdim hw2 hh2 hS
  nv12_rgb c o _ _ _ _ _ _ _ _ hdim hw2 hh2 hS := by
    cases o with
    | rgb => exact Sse2.nv12_rgb_wp c false hdim hw2 hh2 hS
    | bgra => exact Sse2.nv12_bgra_wp c _ hdim hw2 hh2 hS
    | rgba => exact Sse2.nv12_bgra_wp c _ hdim hw2 hh2 hS
  rgb_bgra hdim hss h2 hs hd o := Sse2.rgb_bgra_wp hdim hss h2 hs hd o
  rgb_bgra_over hdim hc hs hd hk := Sse2.rgb_bgra_over hdim hc hs hd hk
  bgra_rgb hdim h2 hs hd _ o := (X86.bgra_to_rgb_any_wp hdim.w_pos
    (by have := hdim.w_lt; omega) hdim.h_pos
    (fun hk h => h2 hk (X86.Stuck.one.2 h)) hs hd o).mono fun _ h => ⟨h.1, fun hk => .one (h.2 hk)⟩
  bgra_rgb_over _ hc _ _ hk := X86.diffs_over hc
    (X86.Stuck.one.1 (hk.resolve_right fun h => nomatch h.1)) trivial
  bgr_rgb hdim o := X86.bgr_to_rgb_wp hdim.w_pos (by have := hdim.w_lt; omega) hdim.h_pos o

theorem avx2_safe (t : Target) : ImplSafe t Avx2.ideal .avx2 where
  rgb_i444 s c _ _ _ _ _ _ _ _ _ _ hdim o := by
    have e := readEnd_avx2 s .i444 hdim.w_pos hdim.w_lt
    simp only [YuvFmt.pf] at e
    rw [e] at o ⊢
    exact Avx2.rgb_i444_wp s c hdim o
  rgb_i420 s c _ _ _ _ _ _ _ _ _ _ hdim hw2 hh2 o := by
    have e := readEnd_avx2 s .i420 hdim.w_pos hdim.w_lt
    simp only [YuvFmt.pf] at e
    rw [e] at o ⊢
    exact Avx2.rgb_i420_wp s c hdim hw2 hh2 o
  rgb_nv12 s c _ _ _ _ _ _ _ _ hdim hw2 hh2 o := by
    have e := readEnd_avx2 s .nv12 hdim.w_pos hdim.w_lt
    simp only [YuvFmt.pf] at e
    rw [e] at o ⊢
    exact Avx2.rgb_nv12_wp s c hdim hw2 hh2 o
  i444_rgb c o _ _ _ _ _ _ _ _ _ _ ho hdim hS := by
    rw [(reversed_out o ho).2] at hS ⊢
    exact Avx2.i444_rgb_wp c _ hdim hS
  i420_rgb c o _ _ _ _ _ _ _ _ _ _ ho hdim hw2 hh2 hS := by
    rw [(reversed_out o ho).2] at hS ⊢
    exact Avx2.i420_rgb_wp c _ hdim hw2 hh2 hS
  nv12_rgb c o _ _ _ _ _ _ _ _ hdim hw2 hh2 hS := by
    cases o with
    | rgb => exact Avx2.nv12_rgb_wp c _ hdim hw2 hh2 hS
    | bgra => exact Avx2.nv12_bgra_wp c _ hdim hw2 hh2 hS
    | rgba => exact Avx2.nv12_bgra_wp c _ hdim hw2 hh2 hS
  rgb_bgra hdim hss h2 hs hd o := Avx2.rgb_bgra_wp hdim hss h2 hs hd o
  rgb_bgra_over hdim hc hs hd hk := Avx2.rgb_bgra_over hdim hc hs hd hk
  bgra_rgb hdim h2 h3 h4 hX o := Avx2.bgra_rgb_wp hdim h2 h3 h4 (hX rfl) o
  bgra_rgb_over hdim hc hs hd hk := Avx2.bgra_rgb_over hdim hc hs hd (hk.imp_right And.right)
  bgr_rgb hdim o := Avx2.bgr_rgb_wp (t := t) hdim o

theorem neon_safe (t : Target) : ImplSafe t Neon.ideal .neon where
  rgb_i444 s c _ _ _ _ _ _ _ _ _ _ hdim o := by
    have e := readEnd_neon s .i444 hdim.w_pos hdim.w_lt
    simp only [YuvFmt.pf] at e
    rw [e] at o ⊢
    exact Neon.rgb_i444_wp s c hdim o
  rgb_i420 s c _ _ _ _ _ _ _ _ _ _ hdim hw2 hh2 o := by
    have e := readEnd_neon s .i420 hdim.w_pos hdim.w_lt
    simp only [YuvFmt.pf] at e
    rw [e] at o ⊢
    exact Neon.rgb_i420_wp s c hdim hw2 hh2 o
  rgb_nv12 s c _ _ _ _ _ _ _ _ hdim hw2 hh2 o := by
    have e := readEnd_neon s .nv12 hdim.w_pos hdim.w_lt
    simp only [YuvFmt.pf] at e
    rw [e] at o ⊢
    exact Neon.rgb_nv12_wp s c hdim hw2 hh2 o
  i444_rgb := (x86_safe t).i444_rgb
  i420_rgb := (x86_safe t).i420_rgb
  nv12_rgb := (x86_safe t).nv12_rgb
  rgb_bgra hdim hss h2 hs hd o := Neon.rgb_bgra_wp hdim hss h2 hs hd o
  rgb_bgra_over hdim hc _ _ hk := Neon.rgb_bgra_over hdim hc hk
  bgra_rgb hdim h2 h3 h4 _ o := Neon.bgra_rgb_wp hdim h2 h3 h4 o
  bgra_rgb_over hdim hc _ _ hk := Neon.bgra_rgb_over hdim hc
    (hk.resolve_right fun h => nomatch h.1)
  bgr_rgb hdim o := Neon.bgr_rgb_wp (t := t) hdim o

theorem idealSafe (t : Target) (set : InstructionSet) : ImplSafe t (idealOf set) set := by
  cases set
  · exact x86_safe t
  · exact sse2_safe t
  · exact avx2_safe t
  · exact neon_safe t

/-- The offset of the fourth line of a 4:2:0 encoder overflows. -/
def Far (t : Target) (set : InstructionSet) (pf : PixelFormat) (w h ss ys : Nat) : Prop :=
  t.checked = true ∧ Spec.Vectorised set pf w ∧ 4 ≤ h ∧ (2 ^ t.bits ≤ 3 * ss ∨ 2 ^ t.bits ≤ 3 * ys)

/-- What is known of the kernels of the library, whose offsets may overflow. -/
structure KernelSafe (t : Target) (I : Impl) (set : InstructionSet) : Prop where
  rgb_i444 : ∀ {S X : Prop} (s : Sampler) (c : Colorimetry) {w h ss ys us vs : Nat} {src : Buf}
    {yp up vp : Dst}, Dim w h →
    Near t src.len ss → Near t yp.len ys → Near t up.len us → Near t vp.len vs →
    (S → Ext src.len ss (readEnd set s.pf .i444 w) h ∧ Ext yp.len ys w h ∧
      Ext up.len us w h ∧ Ext vp.len vs w h) →
    K.Wp S X (I.rgb_i444 t s s.pf.depth c w h ss src ys us vs yp up vp) (fun _ =>
      Ext src.len ss (readEnd set s.pf .i444 w) h ∧ Ext yp.len ys w h ∧
      Ext up.len us w h ∧ Ext vp.len vs w h)
  rgb_i420 : ∀ {S X : Prop} (s : Sampler) (c : Colorimetry) {w h ss ys us vs : Nat} {src : Buf}
    {yp up vp : Dst}, Dim w h → w % 2 = 0 → h % 2 = 0 →
    Near t src.len ss → Near t yp.len ys → Near t up.len us → Near t vp.len vs →
    (Far t set s.pf w h ss ys → X) →
    (S → Ext src.len ss (readEnd set s.pf .i420 w) h ∧ Ext yp.len ys w h ∧
      Ext up.len us (w / 2) (h / 2) ∧ Ext vp.len vs (w / 2) (h / 2)) →
    K.Wp S X (I.rgb_i420 t s s.pf.depth c w h ss src ys us vs yp up vp) (fun _ =>
      Ext src.len ss (readEnd set s.pf .i420 w) h ∧ Ext yp.len ys w h ∧
      Ext up.len us (w / 2) (h / 2) ∧ Ext vp.len vs (w / 2) (h / 2))
  rgb_i420_over : ∀ (s : Sampler) (c : Colorimetry) {w h ss ys us vs : Nat} {src : Buf}
    {yp up vp : Dst}, Dim w h →
    Near t src.len ss → Near t yp.len ys → Near t up.len us → Near t vp.len vs →
    Acc src.len ss (s.pf.depth * w) h → Acc yp.len ys w h → Acc up.len us (w / 2) (h / 2) →
    Acc vp.len vs (w / 2) (h / 2) → Far t set s.pf w h ss ys →
    K.Wp True True (I.rgb_i420 t s s.pf.depth c w h ss src ys us vs yp up vp) (fun _ => False)
  rgb_nv12 : ∀ {S X : Prop} (s : Sampler) (c : Colorimetry) {w h ss ys uvs : Nat} {src : Buf}
    {yp uvp : Dst}, Dim w h → w % 2 = 0 → h % 2 = 0 →
    Near t src.len ss → Near t yp.len ys → Near t uvp.len uvs →
    (Far t set s.pf w h ss ys → X) →
    (S → Ext src.len ss (readEnd set s.pf .nv12 w) h ∧ Ext yp.len ys w h ∧
      Ext uvp.len uvs w (h / 2)) →
    K.Wp S X (I.rgb_nv12 t s s.pf.depth c w h ss src ys uvs yp uvp) (fun _ =>
      Ext src.len ss (readEnd set s.pf .nv12 w) h ∧ Ext yp.len ys w h ∧
      Ext uvp.len uvs w (h / 2))
  rgb_nv12_over : ∀ (s : Sampler) (c : Colorimetry) {w h ss ys uvs : Nat} {src : Buf}
    {yp uvp : Dst}, Dim w h →
    Near t src.len ss → Near t yp.len ys → Near t uvp.len uvs →
    Acc src.len ss (s.pf.depth * w) h → Acc yp.len ys w h → Acc uvp.len uvs w (h / 2) →
    Far t set s.pf w h ss ys →
    K.Wp True True (I.rgb_nv12 t s s.pf.depth c w h ss src ys uvs yp uvp) (fun _ => False)
  i444_rgb : ∀ {S X : Prop} (c : Colorimetry) (o : RgbOut) {w h ys us vs ds : Nat}
    {yb ub vb : Buf} {d : Dst}, o ≠ .rgb → Dim w h →
    Near t yb.len ys → Near t ub.len us → Near t vb.len vs → Near t d.len ds →
    (S → Ext yb.len ys w h ∧ Ext ub.len us w h ∧ Ext vb.len vs w h ∧
      Ext d.len ds (o.pf.depth * w) h) →
    K.Wp S X (I.i444_rgb t c o.pf.depth o.pf.reversed w h ys us vs yb ub vb ds d) (fun _ =>
      Ext yb.len ys w h ∧ Ext ub.len us w h ∧ Ext vb.len vs w h ∧ Ext d.len ds (o.pf.depth * w) h)
  i420_rgb : ∀ {S X : Prop} (c : Colorimetry) (o : RgbOut) {w h ys us vs ds : Nat}
    {yb ub vb : Buf} {d : Dst}, o ≠ .rgb → Dim w h → w % 2 = 0 → h % 2 = 0 →
    Near t yb.len ys → Near t ub.len us → Near t vb.len vs → Near t d.len ds →
    (S → Ext yb.len ys w h ∧ Ext ub.len us (w / 2) (h / 2) ∧ Ext vb.len vs (w / 2) (h / 2) ∧
      Ext d.len ds (o.pf.depth * w) h) →
    K.Wp S X (I.i420_rgb t c o.pf.depth o.pf.reversed w h ys us vs yb ub vb ds d) (fun _ =>
      Ext yb.len ys w h ∧ Ext ub.len us (w / 2) (h / 2) ∧ Ext vb.len vs (w / 2) (h / 2) ∧
      Ext d.len ds (o.pf.depth * w) h)
  nv12_rgb : ∀ {S X : Prop} (c : Colorimetry) (o : RgbOut) {w h ys uvs ds : Nat}
    {yb uvb : Buf} {d : Dst}, Dim w h → w % 2 = 0 → h % 2 = 0 →
    Near t yb.len ys → Near t uvb.len uvs → Near t d.len ds →
    (S → Ext yb.len ys w h ∧ Ext uvb.len uvs w (h / 2) ∧ Ext d.len ds (o.pf.depth * w) h) →
    K.Wp S X (I.nv12_rgb t c o.pf.depth o.pf.reversed w h ys uvs yb uvb ds d) (fun _ =>
      Ext yb.len ys w h ∧ Ext uvb.len uvs w (h / 2) ∧ Ext d.len ds (o.pf.depth * w) h)
  rgb_bgra : ∀ {S X : Prop} {w h ss ds : Nat} {src : Buf} {d : Dst}, Dim w h →
    0 < ss →
    (t.checked = true → X86.Stuck (parts set .rgb .bgra w) 3 4 ss ds src.len d.len h → X) →
    Near t src.len ss → Near t d.len ds →
    (S → (Ext src.len ss (readEnd set .rgb .bgra w) h ∧ Ext d.len ds (4 * w) h) ∧
      X86.Peek t ss src.len w (scalarPart set w) h) →
    K.Wp S X (I.rgb_bgra t w h ss src ds d) (fun _ =>
      ((Ext src.len ss (readEnd set .rgb .bgra w) h ∧ Ext d.len ds (4 * w) h) ∧
      X86.Peek t ss src.len w (scalarPart set w) h) ∧
      (t.checked = true → X86.Fit (parts set .rgb .bgra w) 3 4 ss ds))
  rgb_bgra_over : ∀ {w h ss ds : Nat} {src : Buf} {d : Dst}, Dim w h → t.checked = true →
    Near t src.len ss → Near t d.len ds →
    X86.Stuck (parts set .rgb .bgra w) 3 4 ss ds src.len d.len h →
    K.Wp True True (I.rgb_bgra t w h ss src ds d) (fun _ => False)
  bgra_rgb : ∀ {S X : Prop} {w h ss ds : Nat} {src : Buf} {d : Dst}, Dim w h →
    (t.checked = true → X86.Stuck (parts set .bgra .rgb w) 4 3 ss ds src.len d.len h → X) →
    Near t src.len ss → Near t d.len ds →
    (set = .avx2 → Avx2.LateOverflow t w h ss ds → X) →
    (S → Ext src.len ss (readEnd set .bgra .rgb w) h ∧ Ext d.len ds (3 * w) h) →
    K.Wp S X (I.bgra_rgb t w h ss src ds d) (fun _ =>
      (Ext src.len ss (readEnd set .bgra .rgb w) h ∧ Ext d.len ds (3 * w) h) ∧
      (t.checked = true → X86.Fit (parts set .bgra .rgb w) 4 3 ss ds))
  bgra_rgb_over : ∀ {w h ss ds : Nat} {src : Buf} {d : Dst}, Dim w h → t.checked = true →
    Near t src.len ss → Near t d.len ds →
    (X86.Stuck (parts set .bgra .rgb w) 4 3 ss ds src.len d.len h ∨
      (set = .avx2 ∧ Avx2.LateOverflow t w h ss ds)) →
    K.Wp True True (I.bgra_rgb t w h ss src ds d) (fun _ => False)
  bgr_rgb : ∀ {S X : Prop} {w h ss ds : Nat} {src : Buf} {d : Dst}, Dim w h →
    Near t src.len ss → Near t d.len ds →
    (S → Ext src.len ss (readEnd set .bgr .rgb w) h ∧ Ext d.len ds (3 * w) h) →
    K.Wp S X (I.bgr_rgb t w h ss src ds d) (fun _ =>
      Ext src.len ss (readEnd set .bgr .rgb w) h ∧ Ext d.len ds (3 * w) h)

/-- The fourth line begins below `usize` if it lies inside the buffer. -/
theorem Near.third {t : Target} {len stride row h : Nat} (hn : Near t len stride)
    (he : Ext len stride row h) (h4 : 4 ≤ h) : 3 * stride < 2 ^ t.bits := by
  have h1 := hn.twice
  unfold Ext at he
  have h2 : stride * 3 ≤ stride * (h - 1) := Nat.mul_le_mul_left _ (by omega)
  omega

/-- An accepted image of four lines has two lines inside the buffer. -/
theorem Acc.two {len stride row h : Nat} (ha : Acc len stride row h) (h4 : 3 ≤ h) :
    stride + 2 * row ≤ len := by
  unfold Acc at ha
  have h2 : row * 2 ≤ row * (h - 1) := Nat.mul_le_mul_left _ (by omega)
  omega

theorem Acc.line {len stride row h : Nat} (ha : Acc len stride row h) (h4 : 2 ≤ h) :
    row ≤ len := by
  unfold Acc at ha
  have h2 : row * 1 ≤ row * (h - 1) := Nat.mul_le_mul_left _ (by omega)
  omega

theorem vectorised_wide {set : InstructionSet} {pf : PixelFormat} {w : Nat}
    (hv : Spec.Vectorised set pf w) : 4 ≤ w := by
  obtain ⟨n, hn, hw⟩ := hv
  cases set <;> simp only [Spec.groupWidth, reduceCtorEq, Option.some.injEq] at hn <;>
    (try split at hn) <;> omega

theorem first_lines {set : InstructionSet} {s : Sampler} {w h ss ys l l' : Nat}
    (hv : Spec.Vectorised set s.pf w) (h4 : 4 ≤ h) (ha : Acc l ss (s.pf.depth * w) h)
    (hb : Acc l' ys w h) : ss + s.pf.depth * w + 8 ≤ l ∧ ys + w ≤ l' := by
  have h1 := ha.two (by omega)
  have h2 := hb.two (by omega)
  have h3 : 3 * w ≤ s.pf.depth * w := Nat.mul_le_mul_right _ (by cases s <;> decide)
  have h4 := vectorised_wide hv
  omega

theorem crate_safe (t : Target) (hB : 256 ≤ 2 ^ t.bits) (set : InstructionSet) : KernelSafe t (crate set) set where
  rgb_i444 s c _ _ _ _ _ _ _ _ _ _ hdim hs hy hu hv o := by
    rw [agree_rgb_i444 set s c hdim.w_lt hB hs hy hu hv]
    exact (idealSafe t set).rgb_i444 s c hdim o
  rgb_i420 {S X} s c w h ss ys us vs src yp up vp hdim hw2 hh2 hs hy hu hv hX o := by
    by_cases hf : Spec.Vectorised set s.pf w ∧ 4 ≤ h ∧
        (2 ^ t.bits ≤ 3 * ss ∨ 2 ^ t.bits ≤ 3 * ys)
    · refine (far_rgb_i420 set s c hdim.w_lt hf.1 hf.2.1 hB hs hy hu hv hf.2.2
        (fun hc => hX ⟨hc, hf⟩) fun h => ?_).mono fun _ h => h.elim
      exfalso
      have h1 := hs.third (o h).1 hf.2.1
      have h2 := hy.third (o h).2.1 hf.2.1
      omega
    · rw [agree_rgb_i420 set s c hdim.w_lt hB hs hy hu hv fun a b => by
        constructor <;> refine Nat.lt_of_not_le fun h => hf ⟨a, b, ?_⟩
        · exact .inl h
        · exact .inr h]
      exact (idealSafe t set).rgb_i420 s c hdim hw2 hh2 o
  rgb_i420_over s c w h ss ys us vs src yp up vp hdim hs hy hu hv as ay au av hf := by
    obtain ⟨hc, hv', hh4, h3⟩ := hf
    obtain ⟨g1, g2⟩ := first_lines hv' hh4 as ay
    exact far_rgb_i420 set s c hdim.w_lt hv' hh4 hB hs hy hu hv h3 (fun _ => trivial)
      fun _ => ⟨hc, g1, g2, au.line (by omega), av.line (by omega)⟩
  rgb_nv12 {S X} s c w h ss ys uvs src yp uvp hdim hw2 hh2 hs hy hu hX o := by
    by_cases hf : Spec.Vectorised set s.pf w ∧ 4 ≤ h ∧
        (2 ^ t.bits ≤ 3 * ss ∨ 2 ^ t.bits ≤ 3 * ys)
    · refine (far_rgb_nv12 set s c hdim.w_lt hf.1 hf.2.1 hB hs hy hu hf.2.2
        (fun hc => hX ⟨hc, hf⟩) fun h => ?_).mono fun _ h => h.elim
      exfalso
      have h1 := hs.third (o h).1 hf.2.1
      have h2 := hy.third (o h).2.1 hf.2.1
      omega
    · rw [agree_rgb_nv12 set s c hdim.w_lt hB hs hy hu fun a b => by
        constructor <;> refine Nat.lt_of_not_le fun h => hf ⟨a, b, ?_⟩
        · exact .inl h
        · exact .inr h]
      exact (idealSafe t set).rgb_nv12 s c hdim hw2 hh2 o
  rgb_nv12_over s c w h ss ys uvs src yp uvp hdim hs hy hu as ay au hf := by
    obtain ⟨hc, hv', hh4, h3⟩ := hf
    obtain ⟨g1, g2⟩ := first_lines hv' hh4 as ay
    exact far_rgb_nv12 set s c hdim.w_lt hv' hh4 hB hs hy hu h3 (fun _ => trivial)
      fun _ => ⟨hc, g1, g2, au.line (by omega)⟩
  i444_rgb c o _ _ _ _ _ _ _ _ _ _ ho hdim hy hu hv hd hS := by
    rw [agree_i444_rgb set c _ _ hdim.w_lt hB hy hu hv hd]
    exact (idealSafe t set).i444_rgb c o ho hdim hS
  i420_rgb c o _ _ _ _ _ _ _ _ _ _ ho hdim hw2 hh2 hy hu hv hd hS := by
    rw [agree_i420_rgb set c _ _ hdim.w_lt hB hy hu hv hd]
    exact (idealSafe t set).i420_rgb c o ho hdim hw2 hh2 hS
  nv12_rgb c o _ _ _ _ _ _ _ _ hdim hw2 hh2 hy hu hd hS := by
    rw [agree_nv12_rgb set c _ _ hdim.w_lt hB hy hu hd]
    exact (idealSafe t set).nv12_rgb c o hdim hw2 hh2 hS
  rgb_bgra hdim hss h2 h3 h4 o := by
    rw [agree_rgb_bgra set hdim h3.sum h4.sum]
    exact (idealSafe t set).rgb_bgra hdim hss h2 h3.sum h4.sum o
  rgb_bgra_over hdim hc h3 h4 hk := by
    rw [agree_rgb_bgra set hdim h3.sum h4.sum]
    exact (idealSafe t set).rgb_bgra_over hdim hc h3.sum h4.sum hk
  bgra_rgb hdim h2 h3 h4 hX o := by
    rw [agree_bgra_rgb set hdim h3.sum h4.sum]
    exact (idealSafe t set).bgra_rgb hdim h2 h3.sum h4.sum hX o
  bgra_rgb_over hdim hc h3 h4 hk := by
    rw [agree_bgra_rgb set hdim h3.sum h4.sum]
    exact (idealSafe t set).bgra_rgb_over hdim hc h3.sum h4.sum hk
  bgr_rgb hdim h3 h4 o := by
    rw [agree_bgr_rgb set hdim h3.sum h4.sum]
    exact (idealSafe t set).bgr_rgb hdim o

/-- The lines accessed in one image end inside their buffers; `e`: bytes accessed in a line of an RGB
image. -/
def Touch (e : Nat) (pf : PixelFormat) (n w h : Nat) (strides : Option (List Nat))
    (bufs : List Buf) : Prop :=
  match pf with
  | .nv12 =>
    if n = 1 then
      Ext (Spec.strideOf strides 0 w * h) (Spec.strideOf strides 0 w) w h ∧
      Ext ((bufAt bufs 0).len - Spec.strideOf strides 0 w * h) (Spec.strideOf strides 0 w) w (h / 2)
    else Ext (bufAt bufs 0).len (Spec.strideOf strides 0 w) w h ∧
      Ext (bufAt bufs 1).len (Spec.strideOf strides 1 w) w (h / 2)
  | .i420 => Ext (bufAt bufs 0).len (Spec.strideOf strides 0 w) w h ∧
      Ext (bufAt bufs 1).len (Spec.strideOf strides 1 (w / 2)) (w / 2) (h / 2) ∧
      Ext (bufAt bufs 2).len (Spec.strideOf strides 2 (w / 2)) (w / 2) (h / 2)
  | .i422 => True
  | .i444 => Ext (bufAt bufs 0).len (Spec.strideOf strides 0 w) w h ∧
      Ext (bufAt bufs 1).len (Spec.strideOf strides 1 w) w h ∧
      Ext (bufAt bufs 2).len (Spec.strideOf strides 2 w) w h
  | pf => Ext (bufAt bufs 0).len (Spec.strideOf strides 0 (Spec.bpp pf * w)) e h

theorem touch_rgb {e w h n : Nat} {pf : PixelFormat} {strides : Option (List Nat)} {bufs : List Buf}
    (hpf : Spec.isRgb pf = true) : Touch e pf n w h strides bufs =
      Ext (bufAt bufs 0).len (Spec.strideOf strides 0 (pf.depth * w)) e h := by
  rw [depth_bpp]
  cases pf <;> first | rfl | cases hpf

theorem K.Wp.and_const {α : Type} {S X P : Prop} {k : K α} {Q : α → Prop} (h : K.Wp S X k Q)
    (hp : P) : K.Wp S X k fun a => Q a ∧ P :=
  h.mono fun _ hq => ⟨hq, hp⟩

theorem buf_real {t : Target} {bufs : List Buf} (hr : Spec.Real t bufs) (i : Nat) :
    (bufAt bufs i).len ≤ t.imax := by
  by_cases h : i < bufs.length
  · exact hr _ (buf_mem h)
  · have : bufAt bufs i = ⟨0, fun _ => 0⟩ := by
      unfold bufAt
      rw [List.getD_eq_getElem?_getD, List.getElem?_eq_none (by omega)]
      rfl
    rw [this]
    exact Nat.zero_le _

theorem Near.of_acc {t : Target} {len stride row h : Nat} (hb : 1 ≤ t.bits)
    (ha : Acc len stride row h) (hl : len ≤ t.imax) : Near t len stride := by
  have := imax_lt t hb
  unfold Acc at ha
  exact ⟨by omega, by omega⟩

theorem acc_rgb {px : Bool} {pf : PixelFormat} {n w h : Nat} {strides : Option (List Nat)}
    {bufs : List Buf} (hpf : Spec.isRgb pf = true) (ha : AccImage px pf n w h strides bufs) :
    Acc (bufAt bufs 0).len (Spec.strideOf strides 0 (pf.depth * w))
      (if px then w else pf.depth * w) h := by
  rw [depth_bpp]
  cases pf <;> first | exact ha | cases hpf

theorem stride_pos {strides : Option (List Nat)} {i row : Nat} (h : 0 < row) :
    0 < Spec.strideOf strides i row := by
  unfold Spec.strideOf
  split
  · exact h
  · split <;> omega

theorem kcall_wp {t : Target} (hb : 1 ≤ t.bits) {I : Impl} {set : InstructionSet}
    (hI : KernelSafe t I set) {r : Routine}
    {w h : UInt32} {sf df : ImageFormat} {ss ds : Option (List Nat)} {sb db : List Buf} {S X : Prop}
    (hkey : r.key = ((sf.pixel_format, sf.color_space), (df.pixel_format, df.color_space)))
    (hr : r ∈ registered)
    (hl : Spec.Legal sf w h) (hl' : Spec.Legal df w h) (hw : w ≠ 0) (hh : h ≠ 0)
    (hsr : Spec.Real t sb) (hdr : Spec.Real t db)
    (has : AccImage (pxPair sf.pixel_format df.pixel_format) sf.pixel_format sf.num_planes.toNat
      w.toNat h.toNat ss sb)
    (had : AccImage (pxPair sf.pixel_format df.pixel_format) df.pixel_format df.num_planes.toNat
      w.toNat h.toNat ds db)
    (hF : t.checked = true → X86.Stuck (parts set sf.pixel_format df.pixel_format w.toNat)
      (Spec.bpp sf.pixel_format) (Spec.bpp df.pixel_format)
      (Spec.strideOf ss 0 (Spec.bpp sf.pixel_format * w.toNat))
      (Spec.strideOf ds 0 (Spec.bpp df.pixel_format * w.toNat)) (bufAt sb 0).len (bufAt db 0).len
      h.toNat → X)
    (hX : set = .avx2 → sf.pixel_format = .bgra → df.pixel_format = .rgb →
      Avx2.LateOverflow t w.toNat h.toNat (Spec.strideOf ss 0 (4 * w.toNat))
        (Spec.strideOf ds 0 (3 * w.toNat)) → X)
    (hfar : Spec.isRgb sf.pixel_format = true → df.pixel_format = .nv12 ∨ df.pixel_format = .i420 →
      Far t set sf.pixel_format w.toNat h.toNat
        (Spec.strideOf ss 0 (Spec.bpp sf.pixel_format * w.toNat)) (Spec.strideOf ds 0 w.toNat) → X)
    (o : S → (Touch (readEnd set sf.pixel_format df.pixel_format w.toNat) sf.pixel_format
        sf.num_planes.toNat w.toNat h.toNat ss sb ∧
      Touch (Spec.bpp df.pixel_format * w.toNat) df.pixel_format df.num_planes.toNat w.toNat h.toNat
        ds db) ∧
      (sf.pixel_format = .rgb → df.pixel_format = .bgra →
      X86.Peek t (Spec.strideOf ss 0 (3 * w.toNat)) (bufAt sb 0).len w.toNat
        (scalarPart set w.toNat) h.toNat)) :
    K.Wp S X (kcall t I w.toNat h.toNat sf.num_planes.toNat ss sb df.num_planes.toNat ds db r)
      (fun _ => ((Touch (readEnd set sf.pixel_format df.pixel_format w.toNat) sf.pixel_format
        sf.num_planes.toNat w.toNat h.toNat ss sb ∧
      Touch (Spec.bpp df.pixel_format * w.toNat) df.pixel_format df.num_planes.toNat w.toNat h.toNat
        ds db) ∧
      (sf.pixel_format = .rgb → df.pixel_format = .bgra →
      X86.Peek t (Spec.strideOf ss 0 (3 * w.toNat)) (bufAt sb 0).len w.toNat
        (scalarPart set w.toNat) h.toNat)) ∧
      (t.checked = true → X86.Fit (parts set sf.pixel_format df.pixel_format w.toNat) (Spec.bpp sf.pixel_format)
        (Spec.bpp df.pixel_format) (Spec.strideOf ss 0 (Spec.bpp sf.pixel_format * w.toNat))
        (Spec.strideOf ds 0 (Spec.bpp df.pixel_format * w.toNat)))) := by
  have hdim := dim_of hw hh
  have hpl := hl.planes
  have hpl' := hl'.planes
  have hsz := hl.size
  have hsz' := hl'.size
  have ls := buf_real hsr
  have ld := buf_real hdr
  rcases sf with ⟨spf, scs, sn⟩
  rcases df with ⟨dpf, dcs, dn⟩
  clear hl hl'
  simp only at *
  cases r with
  | rgbYuv s y c =>
    simp only [Routine.key, Prod.mk.injEq] at hkey
    obtain ⟨⟨rfl, rfl⟩, rfl, rfl⟩ := hkey
    refine K.Wp.and_const ?_ fun _ p hp => by cases s <;> cases y <;> cases hp
    refine K.Wp.and_const ?_ fun _ hp => by cases y <;> cases hp
    replace o := fun h => (o h).1
    have hs : Spec.isRgb s.pf = true := by cases s <;> rfl
    have ns := Near.of_acc hb (acc_rgb hs has) (ls 0)
    rw [touch_rgb (pf := s.pf) hs] at o ⊢
    rw [← depth_bpp] at hfar
    cases y with
    | i420 =>
      obtain ⟨a1, a2, a3⟩ := had
      exact hI.rgb_i420 s c hdim hsz'.1 hsz'.2 ns (.of_acc hb a1 (ld 0)) (.of_acc hb a2 (ld 1))
        (.of_acc hb a3 (ld 2)) (hfar hs (.inr rfl)) o
    | i444 =>
      obtain ⟨a1, a2, a3⟩ := had
      exact hI.rgb_i444 s c hdim ns (.of_acc hb a1 (ld 0)) (.of_acc hb a2 (ld 1))
        (.of_acc hb a3 (ld 2)) o
    | nv12 =>
      simp only [Touch, YuvFmt.pf, kcall] at o ⊢
      simp only [AccImage, YuvFmt.pf] at had
      split
      · rename_i e1
        simp only [e1, if_true] at o had
        obtain ⟨a1, a2, a3⟩ := had
        exact hI.rgb_nv12 s c hdim hsz'.1 hsz'.2 ns (.of_acc hb a2 (Nat.le_trans a1 (ld 0)))
          (.of_acc hb a3 (Nat.le_trans (Nat.sub_le ..) (ld 0))) (hfar hs (.inl rfl)) o
      · rename_i e1
        simp only [e1, if_false] at o had
        exact hI.rgb_nv12 s c hdim hsz'.1 hsz'.2 ns (.of_acc hb had.1 (ld 0))
          (.of_acc hb had.2 (ld 1)) (hfar hs (.inl rfl)) o
  | yuvRgb y c q =>
    simp only [Routine.key, Prod.mk.injEq] at hkey
    obtain ⟨⟨rfl, rfl⟩, rfl, rfl⟩ := hkey
    refine K.Wp.and_const ?_ fun _ p hp => by cases q <;> cases y <;> cases hp
    refine K.Wp.and_const ?_ fun hp => by cases y <;> cases hp
    replace o := fun h => (o h).1
    have hs : Spec.isRgb q.pf = true := by cases q <;> rfl
    have nd := Near.of_acc hb (acc_rgb hs had) (ld 0)
    rw [touch_rgb (pf := q.pf) hs, ← depth_bpp] at o ⊢
    cases y with
    | i420 =>
      have hq : q ≠ .rgb := by
        rintro rfl
        exact (not_registered_rgb c).2 hr
      simp only [Touch, YuvFmt.pf, and_assoc] at o ⊢
      obtain ⟨a1, a2, a3⟩ := has
      exact hI.i420_rgb c q hq hdim hsz.1 hsz.2 (.of_acc hb a1 (ls 0)) (.of_acc hb a2 (ls 1))
        (.of_acc hb a3 (ls 2)) nd o
    | i444 =>
      have hq : q ≠ .rgb := by
        rintro rfl
        exact (not_registered_rgb c).1 hr
      simp only [Touch, YuvFmt.pf, and_assoc] at o ⊢
      obtain ⟨a1, a2, a3⟩ := has
      exact hI.i444_rgb c q hq hdim (.of_acc hb a1 (ls 0)) (.of_acc hb a2 (ls 1))
        (.of_acc hb a3 (ls 2)) nd o
    | nv12 =>
      simp only [Touch, YuvFmt.pf, kcall] at o ⊢
      simp only [AccImage, YuvFmt.pf] at has
      split
      · rename_i e1
        simp only [e1, if_true, and_assoc] at o has ⊢
        obtain ⟨a1, a2, a3⟩ := has
        exact hI.nv12_rgb c q hdim hsz.1 hsz.2 (.of_acc hb a2 (Nat.le_trans a1 (ls 0)))
          (.of_acc hb a3 (Nat.le_trans (Nat.sub_le ..) (ls 0))) nd o
      · rename_i e1
        simp only [e1, if_false, and_assoc] at o has ⊢
        exact hI.nv12_rgb c q hdim hsz.1 hsz.2 (.of_acc hb has.1 (ls 0))
          (.of_acc hb has.2 (ls 1)) nd o
  | rgbRgb q =>
    simp only [Routine.key] at hkey
    cases q with
    | bgrRgb =>
      obtain ⟨⟨rfl, rfl⟩, rfl, rfl⟩ := hkey
      exact K.Wp.and_const (K.Wp.and_const (hI.bgr_rgb hdim (.of_acc hb (acc_rgb rfl has) (ls 0))
        (.of_acc hb (acc_rgb rfl had) (ld 0)) fun h => (o h).1) fun h => nomatch h)
        fun _ p hp => nomatch hp
    | bgraRgb =>
      obtain ⟨⟨rfl, rfl⟩, rfl, rfl⟩ := hkey
      exact K.Wp.mono (hI.bgra_rgb hdim hF (.of_acc hb (acc_rgb rfl has) (ls 0))
        (.of_acc hb (acc_rgb rfl had) (ld 0)) (fun e => hX e rfl rfl) fun h => (o h).1)
        fun _ h => ⟨⟨h.1, fun h => nomatch h⟩, h.2⟩
    | rgbBgra =>
      obtain ⟨⟨rfl, rfl⟩, rfl, rfl⟩ := hkey
      exact K.Wp.mono (hI.rgb_bgra hdim (stride_pos (by have := hdim.w_pos; omega)) hF
        (.of_acc hb (acc_rgb rfl has) (ls 0)) (.of_acc hb (acc_rgb rfl had) (ld 0))
        fun h => ⟨(o h).1, (o h).2 rfl rfl⟩) fun _ h => ⟨⟨h.1.1, fun _ _ => h.1.2⟩, h.2⟩

/-- With overflow checks the kernel does overflow if a part of a line does not fit or the offset of a
line exceeds `usize`. -/
theorem kcall_over {t : Target} (hb : 1 ≤ t.bits) {I : Impl} {set : InstructionSet}
    (hI : KernelSafe t I set) {r : Routine}
    {w h : UInt32} {sf df : ImageFormat} {ss ds : Option (List Nat)} {sb db : List Buf}
    (hkey : r.key = ((sf.pixel_format, sf.color_space), (df.pixel_format, df.color_space)))
    (hw : w ≠ 0) (hh : h ≠ 0) (hc : t.checked = true)
    (hsr : Spec.Real t sb) (hdr : Spec.Real t db)
    (has : AccImage (pxPair sf.pixel_format df.pixel_format) sf.pixel_format sf.num_planes.toNat
      w.toNat h.toNat ss sb)
    (had : AccImage (pxPair sf.pixel_format df.pixel_format) df.pixel_format df.num_planes.toNat
      w.toNat h.toNat ds db)
    (ho : X86.Stuck (parts set sf.pixel_format df.pixel_format w.toNat)
      (Spec.bpp sf.pixel_format) (Spec.bpp df.pixel_format)
      (Spec.strideOf ss 0 (Spec.bpp sf.pixel_format * w.toNat))
      (Spec.strideOf ds 0 (Spec.bpp df.pixel_format * w.toNat)) (bufAt sb 0).len (bufAt db 0).len
      h.toNat ∨
      (set = .avx2 ∧ sf.pixel_format = .bgra ∧ df.pixel_format = .rgb ∧
        Avx2.LateOverflow t w.toNat h.toNat (Spec.strideOf ss 0 (4 * w.toNat))
          (Spec.strideOf ds 0 (3 * w.toNat))) ∨
      (Spec.isRgb sf.pixel_format = true ∧ (df.pixel_format = .nv12 ∨ df.pixel_format = .i420) ∧
        Far t set sf.pixel_format w.toNat h.toNat
          (Spec.strideOf ss 0 (Spec.bpp sf.pixel_format * w.toNat))
          (Spec.strideOf ds 0 w.toNat))) :
    K.Wp True True (kcall t I w.toNat h.toNat sf.num_planes.toNat ss sb df.num_planes.toNat ds db r)
      (fun _ => False) := by
  have hdim := dim_of hw hh
  have ls := buf_real hsr
  have ld := buf_real hdr
  rcases sf with ⟨spf, scs, sn⟩
  rcases df with ⟨dpf, dcs, dn⟩
  simp only at *
  cases r with
  | rgbYuv s y c =>
    simp only [Routine.key, Prod.mk.injEq] at hkey
    obtain ⟨⟨rfl, rfl⟩, rfl, rfl⟩ := hkey
    obtain ⟨-, hy, hf⟩ := (ho.resolve_left fun ⟨p, hp, _⟩ => by cases s <;> cases y <;> cases hp)
      |>.resolve_left fun h => by cases y <;> cases h.2.2.1
    have hs : Spec.isRgb s.pf = true := by cases s <;> rfl
    have as := acc_rgb hs has
    rw [show pxPair s.pf y.pf = false by cases s <;> cases y <;> rfl] at as
    have ns := Near.of_acc hb as (ls 0)
    rw [← depth_bpp] at hf
    cases y with
    | i420 =>
      obtain ⟨a1, a2, a3⟩ := had
      exact hI.rgb_i420_over s c hdim ns (.of_acc hb a1 (ld 0)) (.of_acc hb a2 (ld 1))
        (.of_acc hb a3 (ld 2)) as a1 a2 a3 hf
    | i444 => rcases hy with h | h <;> cases h
    | nv12 =>
      simp only [AccImage, YuvFmt.pf] at had
      simp only [kcall]
      split
      · rename_i e1
        simp only [e1, if_true] at had
        obtain ⟨a1, a2, a3⟩ := had
        exact hI.rgb_nv12_over s c hdim ns (.of_acc hb a2 (Nat.le_trans a1 (ld 0)))
          (.of_acc hb a3 (Nat.le_trans (Nat.sub_le ..) (ld 0))) as a2 a3 hf
      · rename_i e1
        simp only [e1, if_false] at had
        exact hI.rgb_nv12_over s c hdim ns (.of_acc hb had.1 (ld 0))
          (.of_acc hb had.2 (ld 1)) as had.1 had.2 hf
  | yuvRgb y c q =>
    exfalso
    simp only [Routine.key, Prod.mk.injEq] at hkey
    obtain ⟨⟨rfl, rfl⟩, rfl, rfl⟩ := hkey
    rcases ho with ⟨p, hp, -⟩ | ⟨-, h, -, -⟩ | ⟨h, -⟩
    · cases q <;> cases y <;> cases hp
    · cases y <;> cases h
    · cases y <;> cases h
  | rgbRgb q =>
    simp only [Routine.key] at hkey
    cases q with
    | bgrRgb =>
      exfalso
      obtain ⟨⟨rfl, rfl⟩, rfl, rfl⟩ := hkey
      rcases ho with ⟨p, hp, -⟩ | ⟨-, h, -, -⟩ | ⟨-, h | h, -⟩
      · cases hp
      · cases h
      · cases h
      · cases h
    | bgraRgb =>
      obtain ⟨⟨rfl, rfl⟩, rfl, rfl⟩ := hkey
      refine hI.bgra_rgb_over hdim hc (.of_acc hb (acc_rgb rfl has) (ls 0))
        (.of_acc hb (acc_rgb rfl had) (ld 0)) ?_
      rcases ho with h | h | ⟨-, h | h, -⟩
      · exact .inl h
      · exact .inr ⟨h.1, h.2.2.2⟩
      · cases h
      · cases h
    | rgbBgra =>
      obtain ⟨⟨rfl, rfl⟩, rfl, rfl⟩ := hkey
      refine hI.rgb_bgra_over hdim hc (.of_acc hb (acc_rgb rfl has) (ls 0))
        (.of_acc hb (acc_rgb rfl had) (ld 0)) (ho.resolve_right ?_)
      rintro (h | ⟨-, h | h, -⟩)
      · cases h.2.1
      · cases h
      · cases h

end Verif
