import Verif.Lemmas.WpCall
import Verif.Lemmas.Run
/-!
# Images whose sizes exceed the address space

The sizes are the length of a packed line of an RGB image and the size of the luma part of a
single-plane Nv12 image. With overflow checks they overflow before anything else happens; without them
the wrapped sizes are used, and the conversion either rejects the buffers or leaves them: it leaves
them exactly if they pass the test of the wrapped sizes (`WrapImage`).
-/

namespace Verif

theorem Target.mul_wrap {t : Target} (hc : t.checked = false) (a b : Nat) :
    t.mul a b = .ok (a * b % 2 ^ t.bits) := by
  unfold Target.mul
  split
  · rename_i h
    rw [Nat.mod_eq_of_lt h]
  · rw [if_neg (by simp [hc])]

theorem Target.mul_halt {t : Target} (hc : t.checked = true) {a b : Nat} (h : 2 ^ t.bits ≤ a * b) :
    t.mul a b = .error .overflow := by
  unfold Target.mul
  rw [if_neg (by omega), if_pos hc]

namespace Wrap

variable {t : Target} {w h : UInt32} {ss ds : List Nat} {sb : List Buf} {db : List Dst}

/-- The wrapped size of the luma part is too small for its lines. -/
theorem over_ext {t : Target} (hb : 1 ≤ t.bits) {n S w h len : Nat} (hn : 2 ^ t.bits ≤ S * h)
    (h2 : 2 ≤ h) (hle : n ≤ len) (hl : len ≤ t.imax) : ¬ Ext n S w h := by
  unfold Ext
  have hi := imax_lt t hb
  have e : S * h ≤ 2 * (S * (h - 1)) := by
    obtain ⟨m, rfl⟩ : ∃ m, h = m + 2 := ⟨h - 2, by omega⟩
    rw [show m + 2 - 1 = m + 1 by omega, Nat.mul_add, Nat.mul_add]
    omega
  omega

theorem rgb_i444_halt {k : RgbPlanarKernel} {dp : Nat} (hw : w ≠ 0) (hh : h ≠ 0)
    (hl : ¬ (ss.length = 0 ∨ sb.length = 0 ∨ ds.length < 3 ∨ db.length < 3)) (hm : t.mul dp w.toNat = .error .overflow) :
    rgb_i444 t dp k w h ss sb ds db = K.throw .overflow := by
  rw [rgb_i444, if_neg (not_empty hw hh), if_neg hl]
  simp only [hm, K.liftM_eq, K.lift_error, K.throw_bind]

theorem rgb_i420_halt {k : RgbPlanarKernel} {dp : Nat} (hw : w ≠ 0) (hh : h ≠ 0)
    (hl : ¬ (ss.length = 0 ∨ sb.length = 0 ∨ ds.length < 3 ∨ db.length < 3)) (hm : t.mul dp w.toNat = .error .overflow) :
    rgb_i420 t dp k w h ss sb ds db = K.throw .overflow := by
  rw [rgb_i420, if_neg (not_empty hw hh), if_neg hl]
  simp only [hm, K.liftM_eq, K.lift_error, K.throw_bind]

theorem i444_rgb_halt {k : PlanarRgbKernel} {dp : Nat} (hw : w ≠ 0) (hh : h ≠ 0)
    (hl : ¬ (ss.length < 3 ∨ sb.length < 3 ∨ ds.length = 0 ∨ db.length = 0)) (hm : t.mul dp w.toNat = .error .overflow) :
    i444_rgb t dp k w h ss sb ds db = K.throw .overflow := by
  rw [i444_rgb, if_neg (not_empty hw hh), if_neg hl]
  simp only [hm, K.liftM_eq, K.lift_error, K.throw_bind]

theorem i420_rgb_halt {k : PlanarRgbKernel} {dp : Nat} (hw : w ≠ 0) (hh : h ≠ 0)
    (hl : ¬ (ss.length < 3 ∨ sb.length < 3 ∨ ds.length = 0 ∨ db.length = 0)) (hm : t.mul dp w.toNat = .error .overflow) :
    i420_rgb t dp k w h ss sb ds db = K.throw .overflow := by
  rw [i420_rgb, if_neg (not_empty hw hh), if_neg hl]
  simp only [hm, K.liftM_eq, K.lift_error, K.throw_bind]

theorem nv12_rgb_halt {k : Nv12RgbKernel} {dp : Nat} {l : Nat} (hw : w ≠ 0) (hh : h ≠ 0)
    (hl : ¬ (l ≥ ss.length ∨ l ≥ sb.length ∨ ds.length = 0 ∨ db.length = 0)) (hm : t.mul dp w.toNat = .error .overflow) :
    nv12_rgb t dp k w h l ss sb ds db = K.throw .overflow := by
  rw [nv12_rgb, if_neg (not_empty hw hh), if_neg hl]
  simp only [hm, K.liftM_eq, K.lift_error, K.throw_bind]

theorem rgb_nv12_halt {k : RgbNv12Kernel} {dp : Nat} {l : Nat} (hw : w ≠ 0) (hh : h ≠ 0)
    (hl : ¬ (ss.length = 0 ∨ sb.length = 0 ∨ l ≥ ds.length ∨ l ≥ db.length)) (hm : t.mul dp w.toNat = .error .overflow) :
    rgb_nv12 t dp k w h ss sb l ds db = K.throw .overflow := by
  rw [rgb_nv12, if_neg (not_empty hw hh), if_neg hl]
  simp only [hm, K.liftM_eq, K.lift_error, K.throw_bind]

theorem nv12_rgb_halt0 {k : Nv12RgbKernel} {dp : Nat} (hw : w ≠ 0) (hh : h ≠ 0)
    {s0 d0 : Nat} {b : Buf} {dst : Dst} (h1 : ss[0]? = some s0) (h2 : sb[0]? = some b)
    (h3 : ds[0]? = some d0) (h4 : db[0]? = some dst) {R : Nat} (hm : t.mul dp w.toNat = .ok R)
    (hn : t.mul (compute_stride s0 w.toNat) h.toNat = .error .overflow) :
    nv12_rgb t dp k w h 0 ss sb ds db = K.throw .overflow := by
  have l1 := length_pos_of h1
  have l2 := length_pos_of h2
  have l3 := length_pos_of h3
  have l4 := length_pos_of h4
  rw [nv12_rgb, if_neg (not_empty hw hh), if_neg (by omega)]
  simp only [hm, hn, idx_ok h1, idx_ok h2, idx_ok h3, K.liftM_eq, K.lift_ok, pure_bind, if_true,
    K.lift_error, K.throw_bind]

theorem rgb_nv12_halt0 {k : RgbNv12Kernel} {dp : Nat} (hw : w ≠ 0) (hh : h ≠ 0)
    {s0 d0 : Nat} {b : Buf} {dst : Dst} (h1 : ss[0]? = some s0) (h2 : sb[0]? = some b)
    (h3 : ds[0]? = some d0) (h4 : db[0]? = some dst) {R : Nat} (hm : t.mul dp w.toNat = .ok R)
    (hn : t.mul (compute_stride d0 w.toNat) h.toNat = .error .overflow) :
    rgb_nv12 t dp k w h ss sb 0 ds db = K.throw .overflow := by
  have l1 := length_pos_of h1
  have l2 := length_pos_of h2
  have l3 := length_pos_of h3
  have l4 := length_pos_of h4
  rw [rgb_nv12, if_neg (not_empty hw hh), if_neg (by omega)]
  simp only [hm, hn, idx_ok h1, idx_ok h2, idx_ok h3, idx_ok h4, K.liftM_eq, K.lift_ok, pure_bind,
    if_true, K.lift_error, K.throw_bind]

theorem rgb_rgb_halt {k : RgbRgbKernel} {sd dd : Nat} (hw : w ≠ 0) (hh : h ≠ 0)
    {s0 d0 : Nat} {b : Buf} {dst : Dst} (h1 : ss[0]? = some s0) (h2 : sb[0]? = some b)
    (h3 : ds[0]? = some d0) (h4 : db[0]? = some dst) (hc : t.checked = true)
    (hm : 2 ^ t.bits ≤ sd * w.toNat ∨ 2 ^ t.bits ≤ dd * w.toNat) :
    rgb_rgb t sd dd k w h ss sb ds db = K.throw .overflow := by
  have l1 := length_pos_of h1
  have l2 := length_pos_of h2
  have l3 := length_pos_of h3
  have l4 := length_pos_of h4
  rw [rgb_rgb, if_neg (not_empty hw hh), if_neg (by omega)]
  by_cases he : 2 ^ t.bits ≤ sd * w.toNat
  · simp only [Target.mul_halt hc he, idx_ok h1, K.liftM_eq, K.lift_ok, pure_bind, K.lift_error,
      K.throw_bind]
  · simp only [X86.mul_ok (Nat.lt_of_not_le he), Target.mul_halt hc (hm.resolve_left he), idx_ok h1,
      idx_ok h3, K.liftM_eq, K.lift_ok, pure_bind, K.lift_error, K.throw_bind]

/-- The two parts of a buffer of `len` bytes, split at the wrapped size of the luma part, pass the test
of the sizes. -/
def SplitAcc (t : Target) (len S w h : Nat) : Prop :=
  S * h % 2 ^ t.bits ≤ len ∧ Acc (S * h % 2 ^ t.bits) S w h ∧
  Acc (len - S * h % 2 ^ t.bits) S w (h / 2)

end Wrap

theorem guard_wp {c W : Prop} [Decidable c] {k : K Unit} (hW : W ↔ c)
    (h : c → K.Wp False False k fun _ => False) :
    K.Wp (¬ W) False (if c then k >>= fun _ => pure true else pure false)
      fun b => b = false ∧ ¬ W := by
  split
  · rename_i hc
    exact (K.Wp.bind (h hc) fun _ h => h.elim).weaken (fun h => h (hW.2 hc)) id
  · rename_i hc
    exact ⟨rfl, fun h => hc (hW.1 h)⟩

/-- The size test of one image with wrapped sizes; `px`: an RGB to RGB conversion. -/
def WrapImage (t : Target) (px : Bool) (f : ImageFormat) (w h : Nat) (strides : Option (List Nat))
    (bufs : List Buf) : Prop :=
  if f.pixel_format = .nv12 ∧ f.num_planes.toNat = 1 then
    Wrap.SplitAcc t (bufAt bufs 0).len (Spec.strideOf strides 0 w) w h
  else if Spec.isRgb f.pixel_format = true then
    Acc (bufAt bufs 0).len (Spec.strideOf strides 0 (Spec.bpp f.pixel_format * w % 2 ^ t.bits))
      (if px then w else Spec.bpp f.pixel_format * w % 2 ^ t.bits) h
  else AccImage px f.pixel_format f.num_planes.toNat w h strides bufs

/-- A line that is not representable does not lie in a buffer. -/
theorem row_ext {t : Target} (hB : 256 ≤ 2 ^ t.bits) (hb : 1 ≤ t.bits) {len stride e n h : Nat}
    (hn : 2 ^ t.bits ≤ n) (he : n ≤ e + 1) (hl : len ≤ t.imax) : ¬ Ext len stride e h := by
  unfold Ext
  have := imax_lt t hb
  omega

theorem readEnd_ge (set : InstructionSet) (s d : PixelFormat) (w : Nat) :
    Spec.bpp s * w ≤ Spec.readEnd set s d w + 1 := by
  unfold Spec.readEnd
  cases s <;> simp only [Spec.bpp] <;> (repeat' split) <;> omega

theorem dec_le {t : Target} (hb : 1 ≤ t.bits) {bufs : List Buf} (hr : Spec.Real t bufs) (i : Nat) :
    (bufAt bufs i).len ≤ t.umax := Nat.le_trans (buf_real hr i) (imax_le_umax t hb)

theorem mod_le_umax {t : Target} (n : Nat) : n % 2 ^ t.bits ≤ t.umax := by
  have := Nat.mod_lt n (Nat.two_pow_pos t.bits)
  unfold Target.umax
  omega

section
variable {t : Target} {I : Impl} {set : InstructionSet} {w h : UInt32} {sf df : ImageFormat}
  {ss ds : Option (List Nat)} {sb db : List Buf}

/-- With overflow checks an image whose sizes are not representable makes its routine panic. -/
theorem exec_halt (hc : t.checked = true) (r : Routine)
    (hkey : r.key = ((sf.pixel_format, sf.color_space), (df.pixel_format, df.color_space)))
    (hl : Spec.Legal sf w h) (hl' : Spec.Legal df w h) (hw : w ≠ 0) (hh : h ≠ 0)
    (hp : Present sf ss sb) (hp' : Present df ds db)
    (ho : ¬ (Spec.SizesFit t sf w h ss ∧ Spec.SizesFit t df w h ds)) :
    r.exec t I w h (sf.num_planes - 1) (ss.getD PixFmt.DEFAULT_STRIDES) sb (df.num_planes - 1)
      (ds.getD PixFmt.DEFAULT_STRIDES) (dstSlices db) = K.throw .overflow := by
  rcases sf with ⟨spf, scs, sn⟩
  rcases df with ⟨dpf, dcs, dn⟩
  have hpl := hl.planes
  have hpl' := hl'.planes
  obtain ⟨hpS, hpB⟩ := hp
  obtain ⟨hpS', hpB'⟩ := hp'
  have fit : ∀ {f : ImageFormat} {st : Option (List Nat)},
      (Spec.isRgb f.pixel_format = true → Spec.bpp f.pixel_format * w.toNat < 2 ^ t.bits) →
      (f.pixel_format = .nv12 → f.num_planes.toNat = 1 →
        Spec.strideOf st 0 w.toNat * h.toNat < 2 ^ t.bits) → Spec.SizesFit t f w h st :=
    fun a b => ⟨a, b⟩
  have dlen : (dstSlices db).length = db.length := by simp [dstSlices]
  simp only at *
  cases r with
  | rgbYuv s y c =>
    simp only [Routine.key, Prod.mk.injEq] at hkey
    obtain ⟨⟨rfl, -⟩, rfl, -⟩ := hkey
    have hsn : sn.toNat = 1 := by cases s <;> exact hpl
    rw [hsn] at hpS hpB
    obtain ⟨s0, a1, a2⟩ := stride_at hpS (i := 0) (by omega) (by omega)
    have b1 := buf_at (bufs := sb) (i := 0) (by omega)
    have l1 := Wrap.length_pos_of a1
    by_cases hrow : 2 ^ t.bits ≤ s.pf.depth * w.toNat
    · have hm := Target.mul_halt hc hrow
      cases y with
      | i420 =>
        have hdn : dn.toNat = 3 := hpl'
        rw [hdn] at hpS' hpB'
        obtain ⟨d2, c3, -⟩ := stride_at hpS' (i := 2) (by omega) (by omega)
        have l2 := Wrap.length_pos_of c3
        exact Wrap.rgb_i420_halt hw hh (by omega) hm
      | i444 =>
        have hdn : dn.toNat = 3 := hpl'
        rw [hdn] at hpS' hpB'
        obtain ⟨d2, c3, -⟩ := stride_at hpS' (i := 2) (by omega) (by omega)
        have l2 := Wrap.length_pos_of c3
        exact Wrap.rgb_i444_halt hw hh (by omega) hm
      | nv12 =>
        obtain ⟨n, hn, hz⟩ : ∃ n, dn.toNat = n + 1 ∧ n < 3 := by
          rcases hpl' with e | e
          · exact ⟨0, e, by omega⟩
          · exact ⟨1, e, by omega⟩
        rw [hn] at hpS' hpB'
        obtain ⟨d, c3, -⟩ := stride_at hpS' (i := n) (by omega) (by omega)
        have l2 := Wrap.length_pos_of c3
        simp only [Routine.exec, u32_pred_toNat hn]
        exact Wrap.rgb_nv12_halt hw hh (by omega) hm
    · have ho : ¬ (y.pf = .nv12 → dn.toNat = 1 →
          Spec.strideOf ds 0 w.toNat * h.toNat < 2 ^ t.bits) := fun h => ho ⟨fit (fun _ => by
            rw [← depth_bpp]; simp only; omega) (fun e => by cases s <;> cases e),
          fit (fun e => by cases y <;> cases e) h⟩
      cases y with
      | i420 => exact absurd (fun e => nomatch e) ho
      | i444 => exact absurd (fun e => nomatch e) ho
      | nv12 =>
        simp only [YuvFmt.pf, forall_const, Classical.not_imp, Nat.not_lt] at ho
        obtain ⟨hdn, ho⟩ := ho
        rw [hdn] at hpS' hpB'
        obtain ⟨d0, c1, e1⟩ := stride_at hpS' (i := 0) (by omega) (by omega)
        have hz : (dn - 1).toNat = 0 := u32_pred_toNat hdn
        simp only [Routine.exec, hz]
        exact Wrap.rgb_nv12_halt0 hw hh a1 b1 c1 (slice_at (by omega))
          (X86.mul_ok (by omega)) (Target.mul_halt hc (by rwa [e1]))
  | yuvRgb y c d =>
    simp only [Routine.key, Prod.mk.injEq] at hkey
    obtain ⟨⟨rfl, -⟩, rfl, -⟩ := hkey
    have hdn : dn.toNat = 1 := by cases d <;> exact hpl'
    rw [hdn] at hpS' hpB'
    obtain ⟨d0, a1, a2⟩ := stride_at hpS' (i := 0) (by omega) (by omega)
    have b1 := slice_at (bufs := db) (i := 0) (by omega)
    have l1 := Wrap.length_pos_of a1
    by_cases hrow : 2 ^ t.bits ≤ d.pf.depth * w.toNat
    · have hm := Target.mul_halt hc hrow
      cases y with
      | i420 =>
        have hsn : sn.toNat = 3 := hpl
        rw [hsn] at hpS hpB
        obtain ⟨s2, c3, -⟩ := stride_at hpS (i := 2) (by omega) (by omega)
        have l2 := Wrap.length_pos_of c3
        exact Wrap.i420_rgb_halt hw hh (by omega) hm
      | i444 =>
        have hsn : sn.toNat = 3 := hpl
        rw [hsn] at hpS hpB
        obtain ⟨s2, c3, -⟩ := stride_at hpS (i := 2) (by omega) (by omega)
        have l2 := Wrap.length_pos_of c3
        exact Wrap.i444_rgb_halt hw hh (by omega) hm
      | nv12 =>
        obtain ⟨n, hn, hz⟩ : ∃ n, sn.toNat = n + 1 ∧ n < 3 := by
          rcases hpl with e | e
          · exact ⟨0, e, by omega⟩
          · exact ⟨1, e, by omega⟩
        rw [hn] at hpS hpB
        obtain ⟨s, c3, -⟩ := stride_at hpS (i := n) (by omega) (by omega)
        have l2 := Wrap.length_pos_of c3
        simp only [Routine.exec, u32_pred_toNat hn]
        exact Wrap.nv12_rgb_halt hw hh (by omega) hm
    · have ho : ¬ (y.pf = .nv12 → sn.toNat = 1 →
          Spec.strideOf ss 0 w.toNat * h.toNat < 2 ^ t.bits) := fun h => ho
          ⟨fit (fun e => by cases y <;> cases e) h, fit (fun _ => by
            rw [← depth_bpp]; simp only; omega) (fun e => by cases d <;> cases e)⟩
      cases y with
      | i420 => exact absurd (fun e => nomatch e) ho
      | i444 => exact absurd (fun e => nomatch e) ho
      | nv12 =>
        simp only [YuvFmt.pf, forall_const, Classical.not_imp, Nat.not_lt] at ho
        obtain ⟨hsn, ho⟩ := ho
        rw [hsn] at hpS hpB
        obtain ⟨s0, c1, e1⟩ := stride_at hpS (i := 0) (by omega) (by omega)
        have hz : (sn - 1).toNat = 0 := u32_pred_toNat hsn
        simp only [Routine.exec, hz]
        exact Wrap.nv12_rgb_halt0 hw hh c1 (buf_at (by omega)) a1 b1
          (X86.mul_ok (by omega)) (Target.mul_halt hc (by rwa [e1]))
  | rgbRgb q =>
    have hsn : sn.toNat = 1 := by
      cases q <;> simp only [Routine.key, Prod.mk.injEq] at hkey <;>
      obtain ⟨⟨rfl, -⟩, rfl, -⟩ := hkey <;> exact hpl
    have hdn : dn.toNat = 1 := by
      cases q <;> simp only [Routine.key, Prod.mk.injEq] at hkey <;>
      obtain ⟨⟨rfl, -⟩, rfl, -⟩ := hkey <;> exact hpl'
    rw [hsn] at hpS hpB
    rw [hdn] at hpS' hpB'
    obtain ⟨s0, a1, -⟩ := stride_at hpS (i := 0) (by omega) (by omega)
    obtain ⟨d0, c1, -⟩ := stride_at hpS' (i := 0) (by omega) (by omega)
    have b1 := buf_at (bufs := sb) (i := 0) (by omega)
    have b2 := slice_at (bufs := db) (i := 0) (by omega)
    cases q <;> simp only [Routine.key, Prod.mk.injEq] at hkey <;>
      obtain ⟨⟨rfl, -⟩, rfl, -⟩ := hkey <;>
      refine Wrap.rgb_rgb_halt hw hh a1 b1 c1 b2 hc ?_ <;>
      by_contra hn <;>
      exact ho ⟨fit (fun _ => by simp only [Spec.bpp]; omega) (fun e => nomatch e),
        fit (fun _ => by simp only [Spec.bpp]; omega) (fun e => nomatch e)⟩

/-- Three bytes per pixel never wrap to nothing. -/
theorem row_mod_pos {t : Target} (h32 : 32 ≤ t.bits) {w : Nat} (hw : 0 < w) (hw' : w < 2 ^ 32) :
    0 < 3 * w % 2 ^ t.bits := by
  rcases Nat.eq_zero_or_pos (3 * w % 2 ^ t.bits) with h | h
  · have hd := Nat.dvd_of_mod_eq_zero h
    have hc : Nat.Coprime (2 ^ t.bits) 3 := Nat.Coprime.pow_left _ (by decide)
    have := Nat.le_of_dvd hw (hc.dvd_of_dvd_mul_left hd)
    have := word_fits h32
    omega
  · exact h

/-- Without overflow checks the wrapped sizes are tested; if they pass the conversion leaves its
buffers. -/
theorem exec_wrap (hc : t.checked = false) (h32 : 32 ≤ t.bits) (hI : KernelSafe t I set) (r : Routine)
    (hkey : r.key = ((sf.pixel_format, sf.color_space), (df.pixel_format, df.color_space)))
    (hreg : r ∈ registered)
    (hl : Spec.Legal sf w h) (hl' : Spec.Legal df w h) (hw : w ≠ 0) (hh : h ≠ 0)
    (hp : Present sf ss sb) (hp' : Present df ds db) (hr : Spec.Real t sb) (hr' : Spec.Real t db)
    (ho : ¬ (Spec.SizesFit t sf w h ss ∧ Spec.SizesFit t df w h ds)) :
    K.Wp (¬ (WrapImage t (pxPair sf.pixel_format df.pixel_format) sf w.toNat h.toNat ss sb ∧
        WrapImage t (pxPair sf.pixel_format df.pixel_format) df w.toNat h.toNat ds db)) False
      (r.exec t I w h (sf.num_planes - 1) (ss.getD PixFmt.DEFAULT_STRIDES) sb (df.num_planes - 1)
        (ds.getD PixFmt.DEFAULT_STRIDES) (dstSlices db)) fun b => b = false ∧
        ¬ (WrapImage t (pxPair sf.pixel_format df.pixel_format) sf w.toNat h.toNat ss sb ∧
          WrapImage t (pxPair sf.pixel_format df.pixel_format) df w.toNat h.toNat ds db) := by
  have hb : 1 ≤ t.bits := by omega
  have hB := byte_fits h32
  have hdim := dim_of hw hh
  have ls := buf_real hr
  have ld := buf_real hr'
  have us := dec_le hb hr
  have ud := dec_le hb hr'
  have nofar : ∀ {a b c d e f} , Far t a b c d e f → False := fun h => by
    have := h.1
    rw [hc] at this
    cases this
  rcases sf with ⟨spf, scs, sn⟩
  rcases df with ⟨dpf, dcs, dn⟩
  obtain ⟨-, hsz, hpl⟩ := hl
  obtain ⟨-, hsz', hpl'⟩ := hl'
  obtain ⟨hpS, hpB⟩ := hp
  obtain ⟨hpS', hpB'⟩ := hp'
  have fit : ∀ {f : ImageFormat} {st : Option (List Nat)},
      (Spec.isRgb f.pixel_format = true → Spec.bpp f.pixel_format * w.toNat < 2 ^ t.bits) →
      (f.pixel_format = .nv12 → f.num_planes.toNat = 1 →
        Spec.strideOf st 0 w.toNat * h.toNat < 2 ^ t.bits) → Spec.SizesFit t f w h st :=
    fun a b => ⟨a, b⟩
  have wrap1 : ∀ {px cs n st bf} {pf : PixelFormat}, Spec.isRgb pf = true →
      (WrapImage t px ⟨pf, cs, n⟩ w.toNat h.toNat st bf ↔
        Acc (bufAt bf 0).len (Spec.strideOf st 0 (pf.depth * w.toNat % 2 ^ t.bits))
          (if px then w.toNat else pf.depth * w.toNat % 2 ^ t.bits) h.toNat) := by
    intro px cs n st bf pf hpf
    rw [WrapImage, if_neg (fun h => by cases h.1; cases hpf), if_pos hpf, depth_bpp]
  have wrap3 : ∀ {px cs n st bf} {pf : PixelFormat}, Spec.isRgb pf = false →
      ¬ (pf = .nv12 ∧ n.toNat = 1) →
      (WrapImage t px ⟨pf, cs, n⟩ w.toNat h.toNat st bf ↔
        AccImage px pf n.toNat w.toNat h.toNat st bf) := by
    intro px cs n st bf pf hpf hn
    rw [WrapImage, if_neg hn, if_neg (by simp [hpf])]
  have wrapN : ∀ {px cs} {n : UInt32} {st bf}, n.toNat = 1 →
      (WrapImage t px ⟨.nv12, cs, n⟩ w.toNat h.toNat st bf ↔
        Wrap.SplitAcc t (bufAt bf 0).len (Spec.strideOf st 0 w.toNat) w.toNat h.toNat) := by
    intro px cs n st bf hn
    rw [WrapImage, if_pos ⟨rfl, hn⟩]
  simp only at *
  cases r with
  | rgbYuv s y c =>
    simp only [Routine.key, Prod.mk.injEq] at hkey
    obtain ⟨⟨rfl, -⟩, rfl, -⟩ := hkey
    have hsn : sn.toNat = 1 := by cases s <;> exact hpl
    rw [hsn] at hpS hpB
    obtain ⟨s0, a1, a2⟩ := stride_at hpS (i := 0) (by omega) (by omega)
    have b1 := buf_at (bufs := sb) (i := 0) (by omega)
    have hpx : pxPair s.pf y.pf = false := by cases s <;> cases y <;> rfl
    have hs : Spec.isRgb s.pf = true := by cases s <;> rfl
    have no : ∀ {stride : Nat}, 2 ^ t.bits ≤ s.pf.depth * w.toNat →
        ¬ Ext (bufAt sb 0).len stride (Spec.readEnd set s.pf y.pf w.toNat) h.toNat := fun hn =>
      row_ext hB hb hn (by rw [depth_bpp]; exact readEnd_ge ..) (ls 0)
    have ho : 2 ^ t.bits ≤ s.pf.depth * w.toNat ∨ (y.pf = .nv12 ∧ dn.toNat = 1 ∧
        2 ^ t.bits ≤ Spec.strideOf ds 0 w.toNat * h.toNat) := by
      by_contra hn
      rw [not_or, depth_bpp] at hn
      exact ho ⟨fit (fun _ => by simp only; omega) (fun e => by cases s <;> cases e),
        fit (fun e => by cases y <;> cases e) fun e e' =>
          Nat.lt_of_not_le fun h => hn.2 ⟨e, e', h⟩⟩
    rw [hpx, wrap1 hs, if_neg (by decide)]
    have hm := Target.mul_wrap hc s.pf.depth w.toNat
    cases y with
    | i420 =>
      have ho := ho.resolve_right fun h => nomatch h.1
      have hdn : dn.toNat = 3 := hpl'
      rw [hdn] at hpS' hpB'
      obtain ⟨d0, c1, e1⟩ := stride_at hpS' (i := 0) (by omega) (by omega)
      obtain ⟨d1, c2, e2⟩ := stride_at hpS' (i := 1) (by omega) (by omega)
      obtain ⟨d2, c3, e3⟩ := stride_at hpS' (i := 2) (by omega) (by omega)
      rw [wrap3 (pf := YuvFmt.pf .i420) rfl (fun h => nomatch h.1)]
      simp only [Routine.exec]
      rw [Wrap.rgb_i420_run hw hh hsz'.2 a1 b1 c1 c2 c3 (slice_at (by omega)) (slice_at (by omega))
        (slice_at (by omega)) hm (us 0) (ud 0) (ud 1) (ud 2)]
      refine guard_wp (by simp only [AccImage, YuvFmt.pf, a2, e1, e2, e3]; exact Iff.rfl) fun ⟨k0, k1, k2, k3⟩ => ?_
      exact (hI.rgb_i420 s c hdim hsz'.1 hsz'.2 (.of_acc hb k0 (ls 0)) (.of_acc hb k1 (ld 0))
        (.of_acc hb k2 (ld 1)) (.of_acc hb k3 (ld 2)) nofar fun h => h.elim).mono
          fun _ h => no ho h.1
    | i444 =>
      have ho := ho.resolve_right fun h => nomatch h.1
      have hdn : dn.toNat = 3 := hpl'
      rw [hdn] at hpS' hpB'
      obtain ⟨d0, c1, e1⟩ := stride_at hpS' (i := 0) (by omega) (by omega)
      obtain ⟨d1, c2, e2⟩ := stride_at hpS' (i := 1) (by omega) (by omega)
      obtain ⟨d2, c3, e3⟩ := stride_at hpS' (i := 2) (by omega) (by omega)
      rw [wrap3 (pf := YuvFmt.pf .i444) rfl (fun h => nomatch h.1)]
      simp only [Routine.exec]
      rw [Wrap.rgb_i444_run hw hh a1 b1 c1 c2 c3 (slice_at (by omega)) (slice_at (by omega))
        (slice_at (by omega)) hm (us 0) (ud 0) (ud 1) (ud 2)]
      refine guard_wp (by simp only [AccImage, YuvFmt.pf, a2, e1, e2, e3]; exact Iff.rfl) fun ⟨k0, k1, k2, k3⟩ => ?_
      exact (hI.rgb_i444 s c hdim (.of_acc hb k0 (ls 0)) (.of_acc hb k1 (ld 0))
        (.of_acc hb k2 (ld 1)) (.of_acc hb k3 (ld 2)) fun h => h.elim).mono
          fun _ h => no ho h.1
    | nv12 =>
      rcases hpl' with hdn | hdn
      · rw [hdn] at hpS' hpB'
        obtain ⟨d0, c1, e1⟩ := stride_at hpS' (i := 0) (by omega) (by omega)
        have hz : (dn - 1).toNat = 0 := u32_pred_toNat hdn
        simp only [YuvFmt.pf]
        rw [wrapN hdn]
        simp only [Routine.exec, hz]
        rw [Wrap.rgb_nv12_run1 hw hh hsz'.2 a1 b1 c1 (slice_at (by omega)) hm
          (Target.mul_wrap hc ..) (mod_le_umax _) (us 0) (ud 0)]
        refine guard_wp (by simp only [Wrap.SplitAcc, a2, e1]; tauto) fun ⟨k0, k1, k2, k3⟩ => ?_
        refine (hI.rgb_nv12 s c hdim hsz'.1 hsz'.2 (.of_acc hb k1 (ls 0))
          (.of_acc hb k2 (Nat.le_trans k0 (ld 0)))
          (.of_acc hb k3 (Nat.le_trans (Nat.sub_le ..) (ld 0))) nofar fun h => h.elim).mono
          fun _ h => ?_
        rcases ho with ho | ⟨-, -, ho⟩
        · exact no ho h.1
        · exact Wrap.over_ext hb (by rwa [e1]) (by have := hsz'.2; have := hdim.h_pos; omega)
            k0 (ld 0) h.2.1
      · have ho := ho.resolve_right fun h => by omega
        rw [hdn] at hpS' hpB'
        obtain ⟨d0, c1, e1⟩ := stride_at hpS' (i := 0) (by omega) (by omega)
        obtain ⟨d1, c2, e2⟩ := stride_at hpS' (i := 1) (by omega) (by omega)
        have hz : (dn - 1).toNat = 1 := u32_pred_toNat hdn
        rw [wrap3 (pf := YuvFmt.pf .nv12) rfl (fun h => by omega)]
        simp only [Routine.exec, hz]
        rw [Wrap.rgb_nv12_run2 hw hh hsz'.2 a1 b1 c1 c2 (slice_at (by omega)) (slice_at (by omega))
          hm (us 0) (ud 0) (ud 1)]
        refine guard_wp (by simp only [AccImage, YuvFmt.pf, a2, e1, e2, hdn]; exact Iff.rfl) fun ⟨k0, k1, k2⟩ => ?_
        exact (hI.rgb_nv12 s c hdim hsz'.1 hsz'.2 (.of_acc hb k0 (ls 0)) (.of_acc hb k1 (ld 0))
          (.of_acc hb k2 (ld 1)) nofar fun h => h.elim).mono fun _ h => no ho h.1
  | yuvRgb y c d =>
    simp only [Routine.key, Prod.mk.injEq] at hkey
    obtain ⟨⟨rfl, -⟩, rfl, -⟩ := hkey
    have hdn : dn.toNat = 1 := by cases d <;> exact hpl'
    rw [hdn] at hpS' hpB'
    obtain ⟨d0, a1, a2⟩ := stride_at hpS' (i := 0) (by omega) (by omega)
    have b1 := slice_at (bufs := db) (i := 0) (by omega)
    have hpx : pxPair y.pf d.pf = false := by cases d <;> cases y <;> rfl
    have hs : Spec.isRgb d.pf = true := by cases d <;> rfl
    have no : ∀ {stride : Nat}, 2 ^ t.bits ≤ d.pf.depth * w.toNat →
        ¬ Ext (bufAt db 0).len stride (d.pf.depth * w.toNat) h.toNat := fun hn =>
      row_ext hB hb hn (Nat.le_succ _) (ld 0)
    have ho : 2 ^ t.bits ≤ d.pf.depth * w.toNat ∨ (y.pf = .nv12 ∧ sn.toNat = 1 ∧
        2 ^ t.bits ≤ Spec.strideOf ss 0 w.toNat * h.toNat) := by
      by_contra hn
      rw [not_or, depth_bpp] at hn
      exact ho ⟨fit (fun e => by cases y <;> cases e) fun e e' =>
          Nat.lt_of_not_le fun h => hn.2 ⟨e, e', h⟩,
        fit (fun _ => by simp only; omega) (fun e => by cases d <;> cases e)⟩
    rw [hpx, wrap1 hs, if_neg (by decide)]
    have hm := Target.mul_wrap hc d.pf.depth w.toNat
    cases y with
    | i420 =>
      have hq : d ≠ .rgb := by
        rintro rfl
        exact (not_registered_rgb c).2 hreg
      have ho := ho.resolve_right fun h => nomatch h.1
      have hsn : sn.toNat = 3 := hpl
      rw [hsn] at hpS hpB
      obtain ⟨s0, c1, e1⟩ := stride_at hpS (i := 0) (by omega) (by omega)
      obtain ⟨s1, c2, e2⟩ := stride_at hpS (i := 1) (by omega) (by omega)
      obtain ⟨s2, c3, e3⟩ := stride_at hpS (i := 2) (by omega) (by omega)
      rw [wrap3 (pf := YuvFmt.pf .i420) rfl (fun h => nomatch h.1)]
      simp only [Routine.exec]
      rw [Wrap.i420_rgb_run hw hh hsz.2 c1 c2 c3 (buf_at (by omega)) (buf_at (by omega))
        (buf_at (by omega)) a1 b1 hm (us 0) (us 1) (us 2) (ud 0)]
      refine guard_wp (by simp only [AccImage, YuvFmt.pf, a2, e1, e2, e3, and_assoc]; exact Iff.rfl)
        fun ⟨k0, k1, k2, k3⟩ => ?_
      exact (hI.i420_rgb c d hq hdim hsz.1 hsz.2 (.of_acc hb k0 (ls 0)) (.of_acc hb k1 (ls 1))
        (.of_acc hb k2 (ls 2)) (.of_acc hb k3 (ld 0)) fun h => h.elim).mono
          fun _ h => no ho h.2.2.2
    | i444 =>
      have hq : d ≠ .rgb := by
        rintro rfl
        exact (not_registered_rgb c).1 hreg
      have ho := ho.resolve_right fun h => nomatch h.1
      have hsn : sn.toNat = 3 := hpl
      rw [hsn] at hpS hpB
      obtain ⟨s0, c1, e1⟩ := stride_at hpS (i := 0) (by omega) (by omega)
      obtain ⟨s1, c2, e2⟩ := stride_at hpS (i := 1) (by omega) (by omega)
      obtain ⟨s2, c3, e3⟩ := stride_at hpS (i := 2) (by omega) (by omega)
      rw [wrap3 (pf := YuvFmt.pf .i444) rfl (fun h => nomatch h.1)]
      simp only [Routine.exec]
      rw [Wrap.i444_rgb_run hw hh c1 c2 c3 (buf_at (by omega)) (buf_at (by omega))
        (buf_at (by omega)) a1 b1 hm (us 0) (us 1) (us 2) (ud 0)]
      refine guard_wp (by simp only [AccImage, YuvFmt.pf, a2, e1, e2, e3, and_assoc]; exact Iff.rfl)
        fun ⟨k0, k1, k2, k3⟩ => ?_
      exact (hI.i444_rgb c d hq hdim (.of_acc hb k0 (ls 0)) (.of_acc hb k1 (ls 1))
        (.of_acc hb k2 (ls 2)) (.of_acc hb k3 (ld 0)) fun h => h.elim).mono
          fun _ h => no ho h.2.2.2
    | nv12 =>
      rcases hpl with hsn | hsn
      · rw [hsn] at hpS hpB
        obtain ⟨s0, c1, e1⟩ := stride_at hpS (i := 0) (by omega) (by omega)
        have hz : (sn - 1).toNat = 0 := u32_pred_toNat hsn
        simp only [YuvFmt.pf]
        rw [wrapN hsn]
        simp only [Routine.exec, hz]
        rw [Wrap.nv12_rgb_run1 hw hh hsz.2 c1 (buf_at (by omega)) a1 b1 hm
          (Target.mul_wrap hc ..) (mod_le_umax _) (us 0) (ud 0)]
        refine guard_wp (by simp only [Wrap.SplitAcc, a2, e1]; tauto) fun ⟨k0, k1, k2, k3⟩ => ?_
        refine (hI.nv12_rgb c d hdim hsz.1 hsz.2 (.of_acc hb k1 (Nat.le_trans k0 (ls 0)))
          (.of_acc hb k2 (Nat.le_trans (Nat.sub_le ..) (ls 0))) (.of_acc hb k3 (ld 0))
          fun h => h.elim).mono fun _ h => ?_
        rcases ho with ho | ⟨-, -, ho⟩
        · exact no ho h.2.2
        · exact Wrap.over_ext hb (by rwa [e1]) (by have := hsz.2; have := hdim.h_pos; omega)
            k0 (ls 0) h.1
      · have ho := ho.resolve_right fun h => by omega
        rw [hsn] at hpS hpB
        obtain ⟨s0, c1, e1⟩ := stride_at hpS (i := 0) (by omega) (by omega)
        obtain ⟨s1, c2, e2⟩ := stride_at hpS (i := 1) (by omega) (by omega)
        have hz : (sn - 1).toNat = 1 := u32_pred_toNat hsn
        rw [wrap3 (pf := YuvFmt.pf .nv12) rfl (fun h => by omega)]
        simp only [Routine.exec, hz]
        rw [Wrap.nv12_rgb_run2 hw hh hsz.2 c1 c2 (buf_at (by omega)) (buf_at (by omega)) a1 b1
          hm (us 0) (us 1) (ud 0)]
        refine guard_wp (by
          simp only [AccImage, YuvFmt.pf, a2, e1, e2, hsn, Nat.reduceEqDiff, if_false, and_assoc]
          exact Iff.rfl)
          fun ⟨k0, k1, k2⟩ => ?_
        exact (hI.nv12_rgb c d hdim hsz.1 hsz.2 (.of_acc hb k0 (ls 0)) (.of_acc hb k1 (ls 1))
          (.of_acc hb k2 (ld 0)) fun h => h.elim).mono fun _ h => no ho h.2.2
  | rgbRgb q =>
    have hsn : sn.toNat = 1 := by
      cases q <;> simp only [Routine.key, Prod.mk.injEq] at hkey <;>
      obtain ⟨⟨rfl, -⟩, rfl, -⟩ := hkey <;> exact hpl
    have hdn : dn.toNat = 1 := by
      cases q <;> simp only [Routine.key, Prod.mk.injEq] at hkey <;>
      obtain ⟨⟨rfl, -⟩, rfl, -⟩ := hkey <;> exact hpl'
    rw [hsn] at hpS hpB
    rw [hdn] at hpS' hpB'
    obtain ⟨s0, a1, a2⟩ := stride_at hpS (i := 0) (by omega) (by omega)
    obtain ⟨d0, c1, c2⟩ := stride_at hpS' (i := 0) (by omega) (by omega)
    have b1 := buf_at (bufs := sb) (i := 0) (by omega)
    have b2 := slice_at (bufs := db) (i := 0) (by omega)
    have no : ∀ {s d : PixelFormat} {S S' : Nat}, s = spf → d = dpf → Spec.isRgb s = true →
        Spec.isRgb d = true →
        Ext (bufAt sb 0).len S (Spec.readEnd set s d w.toNat) h.toNat →
        Ext (bufAt db 0).len S' (Spec.bpp d * w.toNat) h.toNat → False := by
      rintro s d S S' rfl rfl hs hd x y
      refine ho ⟨fit (fun _ => ?_) (fun e => ?_), fit (fun _ => ?_) (fun e => ?_)⟩
      · exact Nat.lt_of_not_le fun hn => row_ext hB hb hn (readEnd_ge ..) (ls 0) x
      · simp only at e; rw [e] at hs; cases hs
      · exact Nat.lt_of_not_le fun hn => row_ext hB hb hn (Nat.le_succ _) (ld 0) y
      · simp only at e; rw [e] at hd; cases hd
    cases q with
    | bgrRgb =>
      simp only [Routine.key, Prod.mk.injEq] at hkey
      obtain ⟨⟨rfl, -⟩, rfl, -⟩ := hkey
      rw [wrap1 rfl, wrap1 rfl]
      simp only [Routine.exec]
      rw [Wrap.rgb_rgb_run hw hh a1 b1 c1 b2 (Target.mul_wrap hc ..) (Target.mul_wrap hc ..) (us 0)
        (ud 0)]
      refine guard_wp (by rw [a2, c2]; exact Iff.rfl) fun ⟨k0, k1⟩ => ?_
      exact (hI.bgr_rgb hdim (.of_acc hb k0 (ls 0)) (.of_acc hb k1 (ld 0)) fun h => h.elim).mono
        fun _ h => no rfl rfl rfl rfl h.1 h.2
    | bgraRgb =>
      simp only [Routine.key, Prod.mk.injEq] at hkey
      obtain ⟨⟨rfl, -⟩, rfl, -⟩ := hkey
      rw [wrap1 rfl, wrap1 rfl]
      simp only [Routine.exec]
      rw [Wrap.rgb_rgb_run hw hh a1 b1 c1 b2 (Target.mul_wrap hc ..) (Target.mul_wrap hc ..) (us 0)
        (ud 0)]
      refine guard_wp (by rw [a2, c2]; exact Iff.rfl) fun ⟨k0, k1⟩ => ?_
      exact (hI.bgra_rgb hdim (fun h => by rw [hc] at h; cases h) (.of_acc hb k0 (ls 0))
        (.of_acc hb k1 (ld 0)) (fun _ h => by have := h.1; rw [hc] at this; cases this)
        fun h => h.elim).mono
        fun _ h => no rfl rfl rfl rfl h.1.1 h.1.2
    | rgbBgra =>
      simp only [Routine.key, Prod.mk.injEq] at hkey
      obtain ⟨⟨rfl, -⟩, rfl, -⟩ := hkey
      rw [wrap1 rfl, wrap1 rfl]
      simp only [Routine.exec]
      rw [Wrap.rgb_rgb_run hw hh a1 b1 c1 b2 (Target.mul_wrap hc ..) (Target.mul_wrap hc ..) (us 0)
        (ud 0)]
      refine guard_wp (by rw [a2, c2]; exact Iff.rfl) fun ⟨k0, k1⟩ => ?_
      exact (hI.rgb_bgra hdim (by
          rw [a2]
          exact stride_pos (row_mod_pos h32 hdim.w_pos w.toNat_lt)) (fun h => by rw [hc] at h; cases h)
        (.of_acc hb k0 (ls 0)) (.of_acc hb k1 (ld 0)) fun h => h.elim).mono
        fun _ h => no rfl rfl rfl rfl h.1.1.1 h.1.1.2

/-- A routine whose images have sizes that are not representable. -/
theorem exec_over (h32 : 32 ≤ t.bits) (hI : KernelSafe t I set) (r : Routine)
    (hkey : r.key = ((sf.pixel_format, sf.color_space), (df.pixel_format, df.color_space)))
    (hreg : r ∈ registered)
    (hl : Spec.Legal sf w h) (hl' : Spec.Legal df w h) (hw : w ≠ 0) (hh : h ≠ 0)
    (hp : Present sf ss sb) (hp' : Present df ds db) (hr : Spec.Real t sb) (hr' : Spec.Real t db)
    (ho : ¬ (Spec.SizesFit t sf w h ss ∧ Spec.SizesFit t df w h ds)) :
    K.Wp (t.checked = true ∨
        ¬ (WrapImage t (pxPair sf.pixel_format df.pixel_format) sf w.toNat h.toNat ss sb ∧
        WrapImage t (pxPair sf.pixel_format df.pixel_format) df w.toNat h.toNat ds db))
      (t.checked = true)
      (r.exec t I w h (sf.num_planes - 1) (ss.getD PixFmt.DEFAULT_STRIDES) sb (df.num_planes - 1)
        (ds.getD PixFmt.DEFAULT_STRIDES) (dstSlices db)) fun b => b = false ∧ t.checked = false ∧
        ¬ (WrapImage t (pxPair sf.pixel_format df.pixel_format) sf w.toNat h.toNat ss sb ∧
          WrapImage t (pxPair sf.pixel_format df.pixel_format) df w.toNat h.toNat ds db) := by
  cases hc : t.checked
  · exact ((exec_wrap hc h32 hI r hkey hreg hl hl' hw hh hp hp' hr hr' ho).mono
      fun _ h => ⟨h.1, rfl, h.2⟩).weaken (fun h => h.resolve_left nofun) (fun h => nomatch h)
  · rw [exec_halt hc r hkey hl hl' hw hh hp hp' ho]
    exact .inr ⟨rfl, rfl⟩

end

end Verif
