import Verif.Lemmas.ImplOk
/-! # `convert_image` stores the converted image -/

namespace Verif

open Spec (PlaneFits)

theorem not_registered_rgb (c : Colorimetry) :
    Routine.yuvRgb .i444 c .rgb ∉ registered ∧ Routine.yuvRgb .i420 c .rgb ∉ registered := by
  cases c <;> decide +kernel

theorem std_cs (c : Colorimetry) : Spec.std c.cs = c.std := by cases c <;> rfl

theorem dim_of {w h : UInt32} (hw : w ≠ 0) (hh : h ≠ 0) : Dim w.toNat h.toNat :=
  ⟨u32_pos hw, u32_pos hh, w.toNat_lt⟩

theorem u32_eq_one {n : UInt32} (h : n.toNat = 1) : n = 1 := UInt32.toNat_inj.1 h

theorem kcall_emits {t : Target} {I : Impl} {S : Sem} (hI : ImplOk t I S) {r : Routine}
    {w h : UInt32} {sf df : ImageFormat} {ss ds : Option (List Nat)} {sb db : List Buf}
    (hkey : r.key = ((sf.pixel_format, sf.color_space), (df.pixel_format, df.color_space)))
    (hr : r ∈ registered)
    (hl : Spec.Legal sf w h) (hl' : Spec.Legal df w h) (hw : w ≠ 0) (hh : h ≠ 0)
    (hf : Spec.Fits sf w h ss sb) (hf' : Spec.Fits df w h ds db)
    (hlen : ∀ b, b ∈ sb → b.len ≤ t.imax) (hlen' : ∀ b, b ∈ db → b.len ≤ t.imax)
    (hroom : Spec.isRgb df.pixel_format = false → S.room sf.pixel_format w.toNat h.toNat
      (Spec.strideOf ss 0 (Spec.bpp sf.pixel_format * w.toNat)) (bufAt sb 0).len) :
    Emits (kcall t I w.toNat h.toNat sf.num_planes.toNat ss sb df.num_planes.toNat ds db r) ()
      (PlaneWrites (Spec.dims df.pixel_format df.num_planes.toNat w.toNat h.toNat)
        (Spec.strideOf ds) (S.resultPlanes w h sf ss sb df)) := by
  have hdim := dim_of hw hh
  have hpl := hl.planes
  have hpl' := hl'.planes
  have hsz := hl.size
  have hsz' := hl'.size
  have key := fun i rc => plane0 hf i (rc := rc)
  have key' := fun i rc => plane0 hf' i (rc := rc)
  have parts := fun a b c => nv12_parts hf a b c hdim.h_pos
  have parts' := fun a b c => nv12_parts hf' a b c hdim.h_pos
  have m0 : ∀ i, i < sf.num_planes.toNat → (bufAt sb i).len ≤ t.imax := fun i hi =>
    hlen _ (buf_mem (by have := hf.bufs_len; omega))
  have m0' : ∀ i, i < df.num_planes.toNat → (bufAt db i).len ≤ t.imax := fun i hi =>
    hlen' _ (buf_mem (by have := hf'.bufs_len; omega))
  rcases sf with ⟨spf, scs, sn⟩
  rcases df with ⟨dpf, dcs, dn⟩
  clear hl hl' hf hf' hlen hlen'
  simp only at *
  cases r with
  | rgbYuv s y c =>
    simp only [Routine.key, Prod.mk.injEq] at hkey
    obtain ⟨⟨rfl, rfl⟩, rfl, rfl⟩ := hkey
    have hsn : sn.toNat = 1 := by cases s <;> exact hpl
    have hsrc : PlaneFits (bufAt sb 0).len (Spec.strideOf ss 0 (s.pf.depth * w.toNat))
        (s.pf.depth * w.toNat) h.toNat := by
      rw [depth_bpp]
      exact key 0 (Spec.bpp s.pf * w.toNat, h.toNat) (by omega) (by cases s <;> rfl)
    have hy : Spec.isRgb y.pf = false := by cases y <;> rfl
    have hs : Spec.isRgb s.pf = true := by cases s <;> rfl
    have hroom' := hroom hy
    rw [← depth_bpp] at hroom'
    have him : Spec.readRgb ⟨s.pf, .rgb, sn⟩ w ss sb =
        srcImg s (bufAt sb 0) (Spec.strideOf ss 0 (s.pf.depth * w.toNat)) := by
      rw [Spec.readRgb, bytesAt_eq, depth_bpp]
    simp only [Sem.resultPlanes, hs, hy, Bool.false_eq_true, if_true, if_false, him,
      Sem.encodedPlanes, std_cs]
    cases y with
    | i420 =>
      have hdn : dn.toNat = 3 := hpl'
      refine (hI.rgb_i420 s c hdim hsz'.1 hsz'.2 hsrc hroom'
        (key' 0 (w.toNat, h.toNat) (by omega) rfl)
        (key' 1 (w.toNat / 2, h.toNat / 2) (by omega) rfl)
        (key' 2 (w.toNat / 2, h.toNat / 2) (by omega) rfl)
        (m0 0 (by omega)) (m0' 0 (by omega)) (m0' 1 (by omega))
        (m0' 2 (by omega))).congr fun p => ?_
      exact planeWrites_three (rc0 := (w.toNat, h.toNat)) (rc1 := (w.toNat / 2, h.toNat / 2))
        (rc2 := (w.toNat / 2, h.toNat / 2)) (st := Spec.strideOf ds) p
    | i444 =>
      have hdn : dn.toNat = 3 := hpl'
      refine (hI.rgb_i444 s c hdim hsrc hroom'
        (key' 0 (w.toNat, h.toNat) (by omega) rfl)
        (key' 1 (w.toNat, h.toNat) (by omega) rfl)
        (key' 2 (w.toNat, h.toNat) (by omega) rfl)
        (m0 0 (by omega)) (m0' 0 (by omega)) (m0' 1 (by omega))
        (m0' 2 (by omega))).congr fun p => ?_
      exact planeWrites_three (rc0 := (w.toNat, h.toNat)) (rc1 := (w.toNat, h.toNat))
        (rc2 := (w.toNat, h.toNat)) (st := Spec.strideOf ds) p
    | nv12 =>
      rcases hpl' with hdn | hdn
      · obtain ⟨p1, p2, p3⟩ := parts' rfl hdn hsz'.2
        have e1 : dn = 1 := u32_eq_one hdn
        simp only [kcall, if_true, YuvFmt.pf, e1, Spec.dims]
        refine (hI.rgb_nv12 s c hdim hsz'.1 hsz'.2 hsrc hroom' (yp := ⟨0, 0, _⟩)
          (uvp := ⟨0, _, _⟩) p2 p3 (m0 0 (by omega)) (Nat.le_trans p1 (m0' 0 (by omega)))
          (Nat.le_trans (Nat.sub_le _ _) (m0' 0 (by omega)))).congr fun p => ?_
        rw [rect_stack (l := 0)]
        exact planeWrites_one (rc := (w.toNat, h.toNat + h.toNat / 2)) (st := Spec.strideOf ds) p
      · have e1 : dn ≠ 1 := by rintro rfl; exact absurd hdn (by decide)
        rw [hdn] at key'
        simp only [kcall, hdn, Nat.reduceEqDiff, if_false, YuvFmt.pf, e1, Spec.dims]
        refine (hI.rgb_nv12 s c hdim hsz'.1 hsz'.2 hsrc hroom'
          (key' 0 (w.toNat, h.toNat) (by omega) rfl)
          (key' 1 (w.toNat, h.toNat / 2) (by omega) rfl)
          (m0 0 (by omega)) (m0' 0 (by omega)) (m0' 1 (by omega))).congr fun p => ?_
        exact planeWrites_two (rc0 := (w.toNat, h.toNat)) (rc1 := (w.toNat, h.toNat / 2))
          (st := Spec.strideOf ds) p
  | yuvRgb y c o =>
    simp only [Routine.key, Prod.mk.injEq] at hkey
    obtain ⟨⟨rfl, rfl⟩, rfl, rfl⟩ := hkey
    have hdn : dn.toNat = 1 := by cases o <;> exact hpl'
    have hdst : PlaneFits (bufAt db 0).len (Spec.strideOf ds 0 (o.pf.depth * w.toNat))
        (o.pf.depth * w.toNat) h.toNat := by
      rw [depth_bpp]
      exact key' 0 (Spec.bpp o.pf * w.toNat, h.toNat) (by omega) (by cases o <;> rfl)
    have hs : Spec.isRgb y.pf = false := by cases y <;> rfl
    have hdims : Spec.dims o.pf dn.toNat w.toNat h.toNat = [(o.pf.depth * w.toNat, h.toNat)] := by
      cases o <;> rfl
    simp only [Sem.resultPlanes, hs, Bool.false_eq_true, if_false, std_cs, hdims]
    have fin : ∀ im, (∀ p, Rect (sliceAt db 0) (Spec.strideOf ds 0 (o.pf.depth * w.toNat))
        (o.pf.depth * w.toNat) h.toNat (Spec.rgbRow o.pf im) p ↔
        PlaneWrites [(o.pf.depth * w.toNat, h.toNat)] (Spec.strideOf ds)
          [Spec.rgbRow o.pf im] p) := fun im p =>
      planeWrites_one (rc := (o.pf.depth * w.toNat, h.toNat)) (st := Spec.strideOf ds) p
    cases y with
    | i420 =>
      have ho : o ≠ .rgb := by
        rintro rfl
        exact (not_registered_rgb c).2 hr
      have hsn : sn.toNat = 3 := hpl
      refine (hI.i420_rgb c o ho hdim hsz.1 hsz.2
        (key 0 (w.toNat, h.toNat) (by omega) rfl)
        (key 1 (w.toNat / 2, h.toNat / 2) (by omega) rfl)
        (key 2 (w.toNat / 2, h.toNat / 2) (by omega) rfl) hdst (m0 0 (by omega)) (m0 1 (by omega))
        (m0 2 (by omega)) (m0' 0 (by omega))).congr fun p => ?_
      rw [← fin]
      simp only [Spec.readYuv, Spec.planeAt, YuvFmt.pf, bytesAt_eq]
      rfl
    | i444 =>
      have ho : o ≠ .rgb := by
        rintro rfl
        exact (not_registered_rgb c).1 hr
      have hsn : sn.toNat = 3 := hpl
      refine (hI.i444_rgb c o ho hdim
        (key 0 (w.toNat, h.toNat) (by omega) rfl)
        (key 1 (w.toNat, h.toNat) (by omega) rfl)
        (key 2 (w.toNat, h.toNat) (by omega) rfl) hdst (m0 0 (by omega)) (m0 1 (by omega))
        (m0 2 (by omega)) (m0' 0 (by omega))).congr fun p => ?_
      rw [← fin]
      simp only [Spec.readYuv, Spec.planeAt, YuvFmt.pf, bytesAt_eq]
      rfl
    | nv12 =>
      rcases hpl with hsn | hsn
      · obtain ⟨p1, p2, p3⟩ := parts rfl hsn hsz.2
        have e1 : sn = 1 := u32_eq_one hsn
        simp only [kcall, hsn, if_true]
        refine (hI.nv12_rgb c o hdim hsz.1 hsz.2 (yb := lumaPart _ _) (uvb := chromaPart _ _)
          p2 p3 hdst (Nat.le_trans p1 (m0 0 (by omega)))
          (Nat.le_trans (Nat.sub_le _ _) (m0 0 (by omega))) (m0' 0 (by omega))).congr fun p => ?_
        rw [← fin]
        subst e1
        have : X86.imgNv12 (lumaPart (bufAt sb 0) (Spec.strideOf ss 0 w.toNat * h.toNat))
            (chromaPart (bufAt sb 0) (Spec.strideOf ss 0 w.toNat * h.toNat))
            (Spec.strideOf ss 0 w.toNat) (Spec.strideOf ss 0 w.toNat) =
            Spec.readYuv ⟨.nv12, c.cs, 1⟩ w h ss sb := by
          simp only [Spec.readYuv, if_true, Spec.planeAt, bytesAt_eq, Spec.dims,
            show (1 : UInt32).toNat = 1 from rfl, List.getD_cons_zero]
          unfold X86.imgNv12 Spec.nv12Image Spec.plane lumaPart chromaPart
          simp only [Spec.YuvImage.mk.injEq, true_and]
          constructor <;> funext i j <;> congr 1 <;> rw [Nat.mul_add, Nat.add_assoc]
        rw [this]
        rfl
      · have e1 : sn ≠ 1 := by rintro rfl; exact absurd hsn (by decide)
        rw [hsn] at key
        simp only [kcall, hsn, Nat.reduceEqDiff, if_false]
        refine (hI.nv12_rgb c o hdim hsz.1 hsz.2
          (key 0 (w.toNat, h.toNat) (by omega) rfl)
          (key 1 (w.toNat, h.toNat / 2) (by omega) rfl) hdst
          (m0 0 (by omega)) (m0 1 (by omega)) (m0' 0 (by omega))).congr fun p => ?_
        rw [← fin]
        simp only [Spec.readYuv, Spec.planeAt, YuvFmt.pf, bytesAt_eq, e1, if_false, Spec.dims, hsn,
          Nat.reduceEqDiff]
        rfl
  | rgbRgb q =>
    have hsn : sn.toNat = 1 := by
      cases q <;> simp only [Routine.key, Prod.mk.injEq] at hkey <;>
      obtain ⟨⟨rfl, -⟩, rfl, -⟩ := hkey <;> exact hpl
    have hdn : dn.toNat = 1 := by
      cases q <;> simp only [Routine.key, Prod.mk.injEq] at hkey <;>
      obtain ⟨⟨rfl, -⟩, rfl, -⟩ := hkey <;> exact hpl'
    have l1 := m0 0 (by omega)
    have l2 := m0' 0 (by omega)
    cases q with
    | bgrRgb =>
      simp only [Routine.key, Prod.mk.injEq] at hkey
      obtain ⟨⟨rfl, rfl⟩, rfl, rfl⟩ := hkey
      refine (hI.bgr_rgb hdim (key 0 (3 * w.toNat, h.toNat) (by omega) rfl)
        (key' 0 (3 * w.toNat, h.toNat) (by omega) rfl) l1 l2).congr fun p => ?_
      rw [X86.GRgb, ← bytesAt_eq]
      exact planeWrites_one (rc := (3 * w.toNat, h.toNat)) (st := Spec.strideOf ds) p
    | bgraRgb =>
      simp only [Routine.key, Prod.mk.injEq] at hkey
      obtain ⟨⟨rfl, rfl⟩, rfl, rfl⟩ := hkey
      refine (hI.bgra_rgb hdim (key 0 (4 * w.toNat, h.toNat) (by omega) rfl)
        (key' 0 (3 * w.toNat, h.toNat) (by omega) rfl) l1 l2).congr fun p => ?_
      rw [X86.GRgb, ← bytesAt_eq]
      exact planeWrites_one (rc := (3 * w.toNat, h.toNat)) (st := Spec.strideOf ds) p
    | rgbBgra =>
      simp only [Routine.key, Prod.mk.injEq] at hkey
      obtain ⟨⟨rfl, rfl⟩, rfl, rfl⟩ := hkey
      refine (hI.rgb_bgra hdim (key 0 (3 * w.toNat, h.toNat) (by omega) rfl)
        (key' 0 (4 * w.toNat, h.toNat) (by omega) rfl) l1 l2).congr fun p => ?_
      rw [X86.GRgb, ← bytesAt_eq]
      exact planeWrites_one (rc := (4 * w.toNat, h.toNat)) (st := Spec.strideOf ds) p

/-- Every plane of the destination has room for its lines. -/
theorem row_le_stride {f : ImageFormat} {w h : UInt32} {strides : Option (List Nat)}
    {bufs : List Buf} (hf : Spec.Fits f w h strides bufs) :
    ∀ i b rc, bufs[i]? = some b →
      (Spec.dims f.pixel_format f.num_planes.toNat w.toNat h.toNat)[i]? = some rc →
      rc.1 ≤ Spec.strideOf strides i rc.1 :=
  fun i b rc h1 h2 => (hf.plane i b rc h1 h2).row_le

theorem master {t : Target} (hb : 1 ≤ t.bits) {impls : InstructionSet → Impl}
    {set : InstructionSet} {tb : DispatchTable} (hT : TableFor set tb) {S : Sem}
    (hI : ImplOk t (impls set) S)
    {w h : UInt32} {sf df : ImageFormat} {ss ds : Option (List Nat)} {sb db : List Buf}
    (hl : Spec.Legal sf w h) (hl' : Spec.Legal df w h)
    (hs : Spec.Supported sf.pixel_format df.pixel_format) (hw : w ≠ 0) (hh : h ≠ 0)
    (hf : Spec.Fits sf w h ss sb) (hf' : Spec.Fits df w h ds db)
    (hlen : ∀ b, b ∈ sb → b.len ≤ t.imax) (hlen' : ∀ b, b ∈ db → b.len ≤ t.imax)
    (hroom : Spec.isRgb df.pixel_format = false → S.room sf.pixel_format w.toNat h.toNat
      (Spec.strideOf ss 0 (Spec.bpp sf.pixel_format * w.toNat)) (bufAt sb 0).len) :
    convert_image t impls tb w h sf ss sb df ds db =
      .ok (.ok (), Spec.painted df w h ds (S.resultPlanes w h sf ss sb df) db) := by
  have h0 := u32_pos hh
  obtain ⟨r, hk, hr, e⟩ := convert_checked (impls := impls) hT hl hl' hs hw hh
    (present_of_fits hf) (present_of_fits hf') (small_of_fits hb hl h0 hf hlen)
    (small_of_fits hb hl' h0 hf' hlen')
  rw [if_pos ⟨acc_image_of_fits hl h0 hf _, acc_image_of_fits hl' h0 hf' _⟩] at e
  exact convert_of_emits e (row_le_stride hf')
    (kcall_emits hI hk hr hl hl' hw hh hf hf' hlen hlen' hroom)

end Verif
