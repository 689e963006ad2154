import Verif.Lemmas.Checks
import Verif.Lemmas.SimFar
/-!
# Kernels that store before they could panic

Handed a destination of length 0, the vectorised 4:2:0 encoders and the NEON code for Rgb <-> Bgra fail
with an access out of bounds at their first group of pixels.
-/

namespace Verif

variable {t : Target}

theorem K.Wp.grid_first {S X : Prop} {n m : Nat} {f : Nat → Nat → K Unit} (hn : 0 < n) (hm : 0 < m)
    (h : K.Wp S X (f 0 0) (fun _ => False)) :
    K.Wp S X (Verif.forK n fun y => Verif.forK m fun x => f y x) (fun _ => False) := by
  refine (K.Wp.forK' (P := fun _ => False) fun y _ hy => ?_).mono fun _ h => h 0 hn
  rcases Nat.eq_zero_or_pos y with rfl | hp
  · refine (K.Wp.forK' (P := fun _ => False) fun x _ hx => ?_).mono fun _ h => h 0 hm
    rcases Nat.eq_zero_or_pos x with rfl | hp
    · exact h
    · exact (hx 0 hp).elim
  · exact (hy 0 hp).elim

theorem wg_first {s d y : Nat} (h : s * y < 2 ^ t.bits) : wg_index t 0 y d s = .ok (s * y) := by
  unfold wg_index
  rw [X86.mul_ok h, X86.mul_ok (by rw [Nat.zero_mul]; exact Nat.two_pow_pos _)]
  simp only [Nat.zero_mul]
  change t.add (s * y) 0 = _
  rw [X86.add_ok (by omega), Nat.add_zero]

namespace Sse2

theorem rgb_nv12_shut (s : Sampler) (c : Colorimetry) {w h ss ys uvs : Nat} {src : Buf}
    {yp uvp : Dst} (hw : w < 2 ^ 32) (hv : 0 < encode_part s.pf.depth w) (hh : 2 ≤ h)
    (hs : ss < 2 ^ t.bits) (hy : ys < 2 ^ t.bits) (h0 : yp.len = 0) :
    K.Wp False False (rgb_nv12 (wg_index t) s s.pf.depth c w h ss src ys uvs yp uvp)
      (fun _ => False) := by
  have h8 : encode_part s.pf.depth w % 4 = 0 := (encode_part_le s hw).2
  refine K.Wp.stuck (c := encode_part s.pf.depth w > 0) hv ?_
  unfold rgb_to_nv12_sse2
  simp only [K.liftM_eq]
  have hb := Nat.two_pow_pos t.bits
  refine K.Wp.grid_first (by omega) (Nat.div_pos (Nat.le_of_dvd hv (Nat.dvd_of_mod_eq_zero h8)) (by decide)) ?_
  simp only [Nat.mul_zero, Nat.zero_add]
  rw [wg_first (s := ss) (y := 0) (by omega), wg_first (s := ss) (y := 1) (by omega),
    wg_first (s := ys) (y := 0) (by omega), wg_first (s := ys) (y := 1) (by omega)]
  rw [wg_first (s := uvs) (y := 0) (by omega)]
  simp only [K.lift_ok, pure_bind]
  unfold rgb_to_yuv_4x
  refine K.Wp.bind (unpack3_wp fun h => h.elim) fun _ _ => ?_
  exact K.Wp.bind (pack_i32_4x_wp fun h => h.elim) fun _ h => by omega

theorem rgb_i420_shut (s : Sampler) (c : Colorimetry) {w h ss ys us vs : Nat} {src : Buf}
    {yp up vp : Dst} (hw : w < 2 ^ 32) (hv : 0 < encode_part s.pf.depth w) (hh : 2 ≤ h)
    (hs : ss < 2 ^ t.bits) (hy : ys < 2 ^ t.bits) (h0 : yp.len = 0) :
    K.Wp False False (rgb_i420 (wg_index t) s s.pf.depth c w h ss src ys us vs yp up vp)
      (fun _ => False) := by
  have h8 : encode_part s.pf.depth w % 4 = 0 := (encode_part_le s hw).2
  refine K.Wp.stuck (c := encode_part s.pf.depth w > 0) hv ?_
  unfold rgb_to_i420_sse2
  simp only [K.liftM_eq]
  have hb := Nat.two_pow_pos t.bits
  refine K.Wp.grid_first (by omega) (Nat.div_pos (Nat.le_of_dvd hv (Nat.dvd_of_mod_eq_zero h8)) (by decide)) ?_
  simp only [Nat.mul_zero, Nat.zero_add]
  rw [wg_first (s := ss) (y := 0) (by omega), wg_first (s := ss) (y := 1) (by omega),
    wg_first (s := ys) (y := 0) (by omega), wg_first (s := ys) (y := 1) (by omega)]
  rw [wg_first (s := us) (y := 0) (by omega)]
  rw [wg_first (s := vs) (y := 0) (by omega)]
  simp only [K.lift_ok, pure_bind]
  unfold rgb_to_i420_4x
  refine K.Wp.bind (unpack3_wp fun h => h.elim) fun _ _ => ?_
  exact K.Wp.bind (pack_i32_4x_wp fun h => h.elim) fun _ h => by omega

end Sse2

namespace Avx2

theorem rgb_nv12_shut (s : Sampler) (c : Colorimetry) {w h ss ys uvs : Nat} {src : Buf}
    {yp uvp : Dst} (hw : w < 2 ^ 32) (hv : 0 < encode_part s.pf.depth w) (hh : 2 ≤ h)
    (hs : ss < 2 ^ t.bits) (hy : ys < 2 ^ t.bits) (h0 : yp.len = 0) :
    K.Wp False False (rgb_nv12 (wg_index t) s s.pf.depth c w h ss src ys uvs yp uvp)
      (fun _ => False) := by
  have h8 : encode_part s.pf.depth w % 8 = 0 := (encode_part_le s hw).2
  refine K.Wp.stuck (c := encode_part s.pf.depth w > 0) hv ?_
  unfold rgb_to_nv12_avx2
  simp only [K.liftM_eq]
  have hb := Nat.two_pow_pos t.bits
  refine K.Wp.grid_first (by omega) (Nat.div_pos (Nat.le_of_dvd hv (Nat.dvd_of_mod_eq_zero h8)) (by decide)) ?_
  simp only [Nat.mul_zero, Nat.zero_add]
  rw [wg_first (s := ss) (y := 0) (by omega), wg_first (s := ss) (y := 1) (by omega),
    wg_first (s := ys) (y := 0) (by omega), wg_first (s := ys) (y := 1) (by omega)]
  rw [wg_first (s := uvs) (y := 0) (by omega)]
  simp only [K.lift_ok, pure_bind]
  unfold rgb_to_yuv_8x
  refine K.Wp.bind (unpack3_wp fun h => h.elim) fun _ _ => ?_
  exact K.Wp.bind (pack_i32_8x_wp fun h => h.elim) fun _ h => by omega

theorem rgb_i420_shut (s : Sampler) (c : Colorimetry) {w h ss ys us vs : Nat} {src : Buf}
    {yp up vp : Dst} (hw : w < 2 ^ 32) (hv : 0 < encode_part s.pf.depth w) (hh : 2 ≤ h)
    (hs : ss < 2 ^ t.bits) (hy : ys < 2 ^ t.bits) (h0 : yp.len = 0) :
    K.Wp False False (rgb_i420 (wg_index t) s s.pf.depth c w h ss src ys us vs yp up vp)
      (fun _ => False) := by
  have h8 : encode_part s.pf.depth w % 8 = 0 := (encode_part_le s hw).2
  refine K.Wp.stuck (c := encode_part s.pf.depth w > 0) hv ?_
  unfold rgb_to_i420_avx2
  simp only [K.liftM_eq]
  have hb := Nat.two_pow_pos t.bits
  refine K.Wp.grid_first (by omega) (Nat.div_pos (Nat.le_of_dvd hv (Nat.dvd_of_mod_eq_zero h8)) (by decide)) ?_
  simp only [Nat.mul_zero, Nat.zero_add]
  rw [wg_first (s := ss) (y := 0) (by omega), wg_first (s := ss) (y := 1) (by omega),
    wg_first (s := ys) (y := 0) (by omega), wg_first (s := ys) (y := 1) (by omega)]
  rw [wg_first (s := us) (y := 0) (by omega)]
  rw [wg_first (s := vs) (y := 0) (by omega)]
  simp only [K.lift_ok, pure_bind]
  unfold rgb_to_i420_8x
  refine K.Wp.bind (unpack3_wp fun h => h.elim) fun _ _ => ?_
  exact K.Wp.bind (pack_i32_8x_wp fun h => h.elim) fun _ h => by omega

end Avx2

namespace Neon

theorem rgb_nv12_shut (s : Sampler) (c : Colorimetry) {w h ss ys uvs : Nat} {src : Buf}
    {yp uvp : Dst} (hw : w < 2 ^ 32) (hv : 0 < lower_multiple_of_pot w RGB_TO_YUV_WAVES) (hh : 2 ≤ h)
    (hs : ss < 2 ^ t.bits) (hy : ys < 2 ^ t.bits) (h0 : yp.len = 0) :
    K.Wp False False (rgb_nv12 (wg_index t) s s.pf.depth c w h ss src ys uvs yp uvp)
      (fun _ => False) := by
  have h8 : lower_multiple_of_pot w RGB_TO_YUV_WAVES % 8 = 0 := by
    have e : lower_multiple_of_pot w RGB_TO_YUV_WAVES = 8 * (w / 8) := Simd.lower_multiple (k := 3) hw (by omega)
    omega
  refine K.Wp.stuck (c := lower_multiple_of_pot w RGB_TO_YUV_WAVES > 0) hv ?_
  unfold rgb_to_nv12_neon
  simp only [K.liftM_eq]
  have hb := Nat.two_pow_pos t.bits
  refine K.Wp.grid_first (by omega) (Nat.div_pos (Nat.le_of_dvd hv (Nat.dvd_of_mod_eq_zero h8)) (by decide)) ?_
  simp only [Nat.mul_zero, Nat.zero_add]
  rw [wg_first (s := ss) (y := 0) (by omega), wg_first (s := ss) (y := 1) (by omega),
    wg_first (s := ys) (y := 0) (by omega), wg_first (s := ys) (y := 1) (by omega)]
  rw [wg_first (s := uvs) (y := 0) (by omega)]
  simp only [K.lift_ok, pure_bind]
  unfold rgb_to_nv12_8x rgb_to_y_and_avg_uv_8x
  simp only [bind_assoc]
  refine K.Wp.bind (load_rgb_8x_wp fun h => h.elim) fun _ _ => ?_
  exact K.Wp.bind (vst1_u8_wp fun h => h.elim) fun _ h => by omega

theorem rgb_i420_shut (s : Sampler) (c : Colorimetry) {w h ss ys us vs : Nat} {src : Buf}
    {yp up vp : Dst} (hw : w < 2 ^ 32) (hv : 0 < lower_multiple_of_pot w RGB_TO_YUV_WAVES) (hh : 2 ≤ h)
    (hs : ss < 2 ^ t.bits) (hy : ys < 2 ^ t.bits) (h0 : yp.len = 0) :
    K.Wp False False (rgb_i420 (wg_index t) s s.pf.depth c w h ss src ys us vs yp up vp)
      (fun _ => False) := by
  have h8 : lower_multiple_of_pot w RGB_TO_YUV_WAVES % 8 = 0 := by
    have e : lower_multiple_of_pot w RGB_TO_YUV_WAVES = 8 * (w / 8) := Simd.lower_multiple (k := 3) hw (by omega)
    omega
  refine K.Wp.stuck (c := lower_multiple_of_pot w RGB_TO_YUV_WAVES > 0) hv ?_
  unfold rgb_to_i420_neon
  simp only [K.liftM_eq]
  have hb := Nat.two_pow_pos t.bits
  refine K.Wp.grid_first (by omega) (Nat.div_pos (Nat.le_of_dvd hv (Nat.dvd_of_mod_eq_zero h8)) (by decide)) ?_
  simp only [Nat.mul_zero, Nat.zero_add]
  rw [wg_first (s := ss) (y := 0) (by omega), wg_first (s := ss) (y := 1) (by omega),
    wg_first (s := ys) (y := 0) (by omega), wg_first (s := ys) (y := 1) (by omega)]
  rw [wg_first (s := us) (y := 0) (by omega)]
  rw [wg_first (s := vs) (y := 0) (by omega)]
  simp only [K.lift_ok, pure_bind]
  unfold rgb_to_i420_8x rgb_to_y_and_avg_uv_8x
  simp only [bind_assoc]
  refine K.Wp.bind (load_rgb_8x_wp fun h => h.elim) fun _ _ => ?_
  exact K.Wp.bind (vst1_u8_wp fun h => h.elim) fun _ h => by omega

theorem rgb_bgra_shut {w h ss ds : Nat} {src : Buf} {d : Dst} (hw : w < 2 ^ 32) (h16 : 16 ≤ w)
    (hh : 0 < h) (h0 : d.len = 0) :
    K.Wp False False (rgb_bgra t.mul t w h ss src ds d) (fun _ => False) := by
  have hv : lower_multiple_of_pot w LANE_COUNT = 16 * (w / 16) :=
    Simd.lower_multiple (k := 4) hw (by omega)
  refine K.Wp.stuck (c := lower_multiple_of_pot w LANE_COUNT > 0) (by rw [hv]; omega) ?_
  unfold rgb_to_bgra_neon
  rw [hv]
  have hb := Nat.two_pow_pos t.bits
  refine (K.Wp.forK' (P := fun _ => False) fun y _ hy => ?_).mono fun _ h => h 0 hh
  rcases Nat.eq_zero_or_pos y with rfl | hp
  · simp only [K.liftM_eq]
    rw [X86.mul_ok (t := t) (show ss * 0 < 2 ^ t.bits by omega),
      X86.mul_ok (t := t) (show ds * 0 < 2 ^ t.bits by omega)]
    simp only [K.lift_ok, pure_bind]
    obtain ⟨m, hm⟩ : ∃ m, (16 * (w / 16) + (LANE_COUNT - 1)) / LANE_COUNT = m + 1 :=
      ⟨w / 16 - 1, by simp only [LANE_COUNT]; omega⟩
    rw [hm, iterK]
    simp only [bind_assoc]
    refine K.Wp.bind (P := fun _ => False) ?_ fun _ h => h.elim
    unfold rgb_to_bgra_16 vld3 vst4q_u8
    simp only [bind_assoc, pure_bind]
    refine K.Wp.bind (K.Wp.load fun h => h.elim) fun _ _ => ?_
    exact (K.Wp.store (by omega) fun h => h.elim).mono fun _ h => by omega
  · exact (hy 0 hp).elim

theorem bgra_rgb_shut {w h ss ds : Nat} {src : Buf} {d : Dst} (hw : w < 2 ^ 32) (h16 : 16 ≤ w)
    (hh : 0 < h) (h0 : d.len = 0) :
    K.Wp False False (bgra_rgb t.mul t w h ss src ds d) (fun _ => False) := by
  have hv : lower_multiple_of_pot w LANE_COUNT = 16 * (w / 16) :=
    Simd.lower_multiple (k := 4) hw (by omega)
  refine K.Wp.stuck (c := lower_multiple_of_pot w LANE_COUNT > 0) (by rw [hv]; omega) ?_
  unfold bgra_to_rgb_neon
  rw [hv]
  have hb := Nat.two_pow_pos t.bits
  refine (K.Wp.forK' (P := fun _ => False) fun y _ hy => ?_).mono fun _ h => h 0 hh
  rcases Nat.eq_zero_or_pos y with rfl | hp
  · simp only [K.liftM_eq]
    rw [X86.mul_ok (t := t) (show ss * 0 < 2 ^ t.bits by omega),
      X86.mul_ok (t := t) (show ds * 0 < 2 ^ t.bits by omega)]
    simp only [K.lift_ok, pure_bind]
    obtain ⟨m, hm⟩ : ∃ m, (16 * (w / 16) + (LANE_COUNT - 1)) / LANE_COUNT = m + 1 :=
      ⟨w / 16 - 1, by simp only [LANE_COUNT]; omega⟩
    rw [hm, iterK]
    simp only [bind_assoc]
    refine K.Wp.bind (P := fun _ => False) ?_ fun _ h => h.elim
    unfold bgra_to_rgb_16 vld4 vst3q_u8
    simp only [bind_assoc, pure_bind]
    refine K.Wp.bind (K.Wp.load fun h => h.elim) fun _ _ => ?_
    exact (K.Wp.store (by omega) fun h => h.elim).mono fun _ h => by omega
  · exact (hy 0 hp).elim

end Neon

/-- A kernel that does not get past its first store. -/
theorem blind_stores {set : InstructionSet} {w h : UInt32} {sf df : ImageFormat}
    {ss ds : Option (List Nat)} {sb db : List Buf} {r : Routine} (hb : 1 ≤ t.bits)
    (hkey : r.key = ((sf.pixel_format, sf.color_space), (df.pixel_format, df.color_space)))
    (hw : w ≠ 0) (hh : h ≠ 0) (hsr : Spec.Real t sb) (hdr : Spec.Real t db)
    (has : AccImage (pxPair sf.pixel_format df.pixel_format) sf.pixel_format sf.num_planes.toNat
      w.toNat h.toNat ss sb)
    (had : AccImage (pxPair sf.pixel_format df.pixel_format) df.pixel_format df.num_planes.toNat
      w.toNat h.toNat ds db)
    (ho : (set = .neon ∧ 16 ≤ w.toNat ∧
        (Spec.parts .neon sf.pixel_format df.pixel_format w.toNat) ≠ []) ∨
      ((df.pixel_format = .nv12 ∨ df.pixel_format = .i420) ∧ Spec.isRgb sf.pixel_format = true ∧
        Spec.Vectorised set sf.pixel_format w.toNat ∧ 4 ≤ h.toNat)) :
    K.Wp False False (kcall t (Spec.blind (crate set)) w.toNat h.toNat sf.num_planes.toNat ss sb
      df.num_planes.toNat ds db r) (fun _ => False) := by
  have hdim := dim_of hw hh
  have ls := buf_real hsr 0
  have ld := buf_real hdr 0
  rcases sf with ⟨spf, scs, sn⟩
  rcases df with ⟨dpf, dcs, dn⟩
  simp only at *
  cases r with
  | rgbYuv s y c =>
    simp only [Routine.key, Prod.mk.injEq] at hkey
    obtain ⟨⟨rfl, rfl⟩, rfl, rfl⟩ := hkey
    obtain ⟨hy, -, hv, h4⟩ := ho.resolve_left fun h => h.2.2 (by cases s <;> cases y <;> rfl)
    have hs : Spec.isRgb s.pf = true := by cases s <;> rfl
    have as := acc_rgb hs has
    have ns := (Near.of_acc hb as ls).sum
    have key : ∀ {ys uvs : Nat} {yp uvp : Dst}, ys < 2 ^ t.bits → yp.len = 0 →
        K.Wp False False ((crate set).rgb_nv12 t s s.pf.depth c w.toNat h.toNat
          (Spec.strideOf ss 0 (s.pf.depth * w.toNat)) (bufAt sb 0) ys uvs yp uvp) fun _ => False := by
      intro ys uvs yp uvp h1 h0
      cases set with
      | x86 => obtain ⟨n, hn, -⟩ := hv; cases hn
      | sse2 =>
        exact Sse2.rgb_nv12_shut s c hdim.w_lt ((vectorised_sse2 s hdim.w_lt).2 hv) (by omega)
          (by omega) h1 h0
      | avx2 =>
        exact Avx2.rgb_nv12_shut s c hdim.w_lt ((vectorised_avx2 s hdim.w_lt).2 hv) (by omega)
          (by omega) h1 h0
      | neon =>
        exact Neon.rgb_nv12_shut s c hdim.w_lt ((vectorised_neon s hdim.w_lt).2 hv) (by omega)
          (by omega) h1 h0
    cases y with
    | i420 =>
      obtain ⟨a1, -, -⟩ := had
      have n1 := (Near.of_acc hb a1 ld).sum
      simp only [kcall, Spec.blind]
      cases set with
      | x86 => obtain ⟨n, hn, -⟩ := hv; cases hn
      | sse2 =>
        exact Sse2.rgb_i420_shut s c hdim.w_lt ((vectorised_sse2 s hdim.w_lt).2 hv) (by omega)
          (by omega) (by omega) rfl
      | avx2 =>
        exact Avx2.rgb_i420_shut s c hdim.w_lt ((vectorised_avx2 s hdim.w_lt).2 hv) (by omega)
          (by omega) (by omega) rfl
      | neon =>
        exact Neon.rgb_i420_shut s c hdim.w_lt ((vectorised_neon s hdim.w_lt).2 hv) (by omega)
          (by omega) (by omega) rfl
    | i444 => rcases hy with h | h <;> cases h
    | nv12 =>
      simp only [AccImage, YuvFmt.pf] at had
      simp only [kcall, Spec.blind]
      split
      · rename_i e1
        simp only [e1, if_true] at had
        obtain ⟨a1, a2, -⟩ := had
        have := (Near.of_acc hb a2 (Nat.le_trans a1 ld)).sum
        exact key (by omega) rfl
      · rename_i e1
        simp only [e1, if_false] at had
        have := (Near.of_acc hb had.1 ld).sum
        exact key (by omega) rfl
  | yuvRgb y c q =>
    exfalso
    simp only [Routine.key, Prod.mk.injEq] at hkey
    obtain ⟨⟨rfl, rfl⟩, rfl, rfl⟩ := hkey
    rcases ho with ⟨-, -, h⟩ | ⟨-, h, -⟩
    · exact h (by cases y <;> cases q <;> rfl)
    · cases y <;> cases h
  | rgbRgb q =>
    simp only [Routine.key] at hkey
    cases q with
    | bgrRgb =>
      exfalso
      obtain ⟨⟨rfl, rfl⟩, rfl, rfl⟩ := hkey
      rcases ho with ⟨-, -, h⟩ | ⟨h | h, -⟩
      · exact h rfl
      · cases h
      · cases h
    | bgraRgb =>
      obtain ⟨⟨rfl, rfl⟩, rfl, rfl⟩ := hkey
      obtain ⟨rfl, h16, -⟩ := ho.resolve_right fun h => by rcases h.1 with h | h <;> cases h
      exact Neon.bgra_rgb_shut hdim.w_lt h16 hdim.h_pos rfl
    | rgbBgra =>
      obtain ⟨⟨rfl, rfl⟩, rfl, rfl⟩ := hkey
      obtain ⟨rfl, h16, -⟩ := ho.resolve_right fun h => by rcases h.1 with h | h <;> cases h
      exact Neon.rgb_bgra_shut hdim.w_lt h16 hdim.h_pos rfl

end Verif
