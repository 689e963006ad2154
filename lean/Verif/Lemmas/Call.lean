import Verif.Lemmas.Paint
/-!
# `convert_image` as one kernel call

Under the documented preconditions the validation code collapses to a single condition and a
single kernel call.
-/

namespace Verif

/-- Buffer `i` (empty if absent). -/
def bufAt (l : List Buf) (i : Nat) : Buf := l.getD i ⟨0, fun _ => 0⟩

/-- The whole of destination buffer `i`. -/
def sliceAt (l : List Buf) (i : Nat) : Dst := ⟨i, 0, (bufAt l i).len⟩

/-- Luma part of a single-plane Nv12 source. -/
def lumaPart (b : Buf) (n : Nat) : Buf := ⟨n, b.bytes⟩
/-- Chroma part of a single-plane Nv12 source. -/
def chromaPart (b : Buf) (n : Nat) : Buf := ⟨b.len - n, fun i => b.bytes (n + i)⟩

/-- The kernel invocation a routine ends in. -/
def kcall (t : Target) (I : Impl) (w h : Nat) (sn : Nat) (ss : Option (List Nat)) (sb : List Buf)
    (dn : Nat) (ds : Option (List Nat)) (db : List Buf) : Routine → K Unit
  | .rgbYuv s .i420 c => I.rgb_i420 t s s.pf.depth c w h (Spec.strideOf ss 0 (s.pf.depth * w))
      (bufAt sb 0) (Spec.strideOf ds 0 w) (Spec.strideOf ds 1 (w / 2)) (Spec.strideOf ds 2 (w / 2))
      (sliceAt db 0) (sliceAt db 1) (sliceAt db 2)
  | .rgbYuv s .i444 c => I.rgb_i444 t s s.pf.depth c w h (Spec.strideOf ss 0 (s.pf.depth * w))
      (bufAt sb 0) (Spec.strideOf ds 0 w) (Spec.strideOf ds 1 w) (Spec.strideOf ds 2 w)
      (sliceAt db 0) (sliceAt db 1) (sliceAt db 2)
  | .rgbYuv s .nv12 c =>
      if dn = 1 then
        let n := Spec.strideOf ds 0 w * h
        I.rgb_nv12 t s s.pf.depth c w h (Spec.strideOf ss 0 (s.pf.depth * w)) (bufAt sb 0)
          (Spec.strideOf ds 0 w) (Spec.strideOf ds 0 w) ⟨0, 0, n⟩ ⟨0, 0 + n, (bufAt db 0).len - n⟩
      else I.rgb_nv12 t s s.pf.depth c w h (Spec.strideOf ss 0 (s.pf.depth * w)) (bufAt sb 0)
          (Spec.strideOf ds 0 w) (Spec.strideOf ds 1 w) (sliceAt db 0) (sliceAt db 1)
  | .yuvRgb .i420 c d => I.i420_rgb t c d.pf.depth d.pf.reversed w h (Spec.strideOf ss 0 w)
      (Spec.strideOf ss 1 (w / 2)) (Spec.strideOf ss 2 (w / 2)) (bufAt sb 0) (bufAt sb 1)
      (bufAt sb 2) (Spec.strideOf ds 0 (d.pf.depth * w)) (sliceAt db 0)
  | .yuvRgb .i444 c d => I.i444_rgb t c d.pf.depth d.pf.reversed w h (Spec.strideOf ss 0 w)
      (Spec.strideOf ss 1 w) (Spec.strideOf ss 2 w) (bufAt sb 0) (bufAt sb 1)
      (bufAt sb 2) (Spec.strideOf ds 0 (d.pf.depth * w)) (sliceAt db 0)
  | .yuvRgb .nv12 c d =>
      if sn = 1 then
        let n := Spec.strideOf ss 0 w * h
        I.nv12_rgb t c d.pf.depth d.pf.reversed w h (Spec.strideOf ss 0 w) (Spec.strideOf ss 0 w)
          (lumaPart (bufAt sb 0) n) (chromaPart (bufAt sb 0) n)
          (Spec.strideOf ds 0 (d.pf.depth * w)) (sliceAt db 0)
      else I.nv12_rgb t c d.pf.depth d.pf.reversed w h (Spec.strideOf ss 0 w) (Spec.strideOf ss 1 w)
          (bufAt sb 0) (bufAt sb 1) (Spec.strideOf ds 0 (d.pf.depth * w)) (sliceAt db 0)
  | .rgbRgb .rgbBgra => I.rgb_bgra t w h (Spec.strideOf ss 0 (3 * w)) (bufAt sb 0)
      (Spec.strideOf ds 0 (4 * w)) (sliceAt db 0)
  | .rgbRgb .bgraRgb => I.bgra_rgb t w h (Spec.strideOf ss 0 (4 * w)) (bufAt sb 0)
      (Spec.strideOf ds 0 (3 * w)) (sliceAt db 0)
  | .rgbRgb .bgrRgb => I.bgr_rgb t w h (Spec.strideOf ss 0 (3 * w)) (bufAt sb 0)
      (Spec.strideOf ds 0 (3 * w)) (sliceAt db 0)

/-- What the bounds checks accept for one image; `px`: an RGB to RGB conversion, where lines are
counted in pixels instead of bytes. -/
def AccImage (px : Bool) (pf : PixelFormat) (n w h : Nat) (strides : Option (List Nat))
    (bufs : List Buf) : Prop :=
  match pf with
  | .nv12 =>
    if n = 1 then
      Spec.strideOf strides 0 w * h ≤ (bufAt bufs 0).len ∧
      Acc (Spec.strideOf strides 0 w * h) (Spec.strideOf strides 0 w) w h ∧
      Acc ((bufAt bufs 0).len - Spec.strideOf strides 0 w * h) (Spec.strideOf strides 0 w) w (h / 2)
    else Acc (bufAt bufs 0).len (Spec.strideOf strides 0 w) w h ∧
      Acc (bufAt bufs 1).len (Spec.strideOf strides 1 w) w (h / 2)
  | .i420 => Acc (bufAt bufs 0).len (Spec.strideOf strides 0 w) w h ∧
      Acc (bufAt bufs 1).len (Spec.strideOf strides 1 (w / 2)) (w / 2) (h / 2) ∧
      Acc (bufAt bufs 2).len (Spec.strideOf strides 2 (w / 2)) (w / 2) (h / 2)
  | .i422 => True
  | .i444 => Acc (bufAt bufs 0).len (Spec.strideOf strides 0 w) w h ∧
      Acc (bufAt bufs 1).len (Spec.strideOf strides 1 w) w h ∧
      Acc (bufAt bufs 2).len (Spec.strideOf strides 2 w) w h
  | pf => Acc (bufAt bufs 0).len (Spec.strideOf strides 0 (Spec.bpp pf * w))
      (if px then w else Spec.bpp pf * w) h

instance (px pf n w h st bufs) : Decidable (AccImage px pf n w h st bufs) := by
  unfold AccImage
  split <;> infer_instance

/-- Strides and buffers are present for every plane. -/
structure Present (f : ImageFormat) (strides : Option (List Nat)) (bufs : List Buf) : Prop where
  strides_len : ∀ l, strides = some l → f.num_planes.toNat ≤ l.length
  bufs_len : f.num_planes.toNat ≤ bufs.length

/-- Products computed by the argument checks fit `usize`. -/
structure Small (t : Target) (f : ImageFormat) (w h : UInt32) (strides : Option (List Nat))
    (bufs : List Buf) : Prop where
  row : Spec.bpp f.pixel_format * w.toNat < 2 ^ t.bits
  len : ∀ b, b ∈ bufs → b.len ≤ t.umax
  split : f.pixel_format = .nv12 → f.num_planes.toNat = 1 →
    Spec.strideOf strides 0 w.toNat * h.toNat < 2 ^ t.bits

theorem stride_at {strides : Option (List Nat)} {i n : Nat}
    (h : ∀ l, strides = some l → n ≤ l.length) (hi : i < n) (hn : n ≤ 4) :
    ∃ s, (strides.getD PixFmt.DEFAULT_STRIDES)[i]? = some s ∧
      ∀ row, compute_stride s row = Spec.strideOf strides i row := by
  cases strides with
  | none =>
    refine ⟨0, ?_, fun row => rfl⟩
    show [0, 0, 0, 0][i]? = some 0
    have : i < 4 := by omega
    rcases (by omega : i = 0 ∨ i = 1 ∨ i = 2 ∨ i = 3) with e | e | e | e <;> subst e <;> rfl
  | some l =>
    have hl := h l rfl
    refine ⟨l.getD i 0, ?_, ?_⟩
    · show l[i]? = _
      rw [List.getD_eq_getElem?_getD, List.getElem?_eq_getElem (by omega)]
      rfl
    · intro row
      simp only [compute_stride, Spec.strideOf]

theorem buf_at {bufs : List Buf} {i : Nat} (h : i < bufs.length) :
    bufs[i]? = some (bufAt bufs i) := by
  rw [bufAt, List.getD_eq_getElem?_getD, List.getElem?_eq_getElem h]
  rfl

theorem slice_at {bufs : List Buf} {i : Nat} (h : i < bufs.length) :
    (dstSlices bufs)[i]? = some (sliceAt bufs i) := by
  rw [dstSlices, List.getElem?_mapIdx, buf_at h]
  rfl

theorem buf_mem {bufs : List Buf} {i : Nat} (h : i < bufs.length) : bufAt bufs i ∈ bufs := by
  rw [List.mem_iff_getElem?]
  exact ⟨i, buf_at h⟩

theorem depth_bpp (pf : PixelFormat) : pf.depth = Spec.bpp pf := by cases pf <;> rfl

theorem u32_pred_toNat {n : UInt32} {k : Nat} (h : n.toNat = k + 1) : (n - 1).toNat = k := by
  rw [UInt32.toNat_sub_of_le n 1 (UInt32.le_iff_toNat_le.2 (by rw [h]; exact Nat.le_add_left ..)), h]
  rfl

/-- RGB to RGB. -/
def Routine.px : Routine → Bool
  | .rgbRgb _ => true
  | _ => false

/-- The routine `r`, run on validated strides and buffers, is its kernel guarded by the bounds
checks. -/
theorem exec_eq (t : Target) (I : Impl) (r : Routine) {w h : UInt32} {sf df : ImageFormat}
    {ss ds : Option (List Nat)} {sb db : List Buf}
    (hkey : r.key = ((sf.pixel_format, sf.color_space), (df.pixel_format, df.color_space)))
    (hl : Spec.Legal sf w h) (hl' : Spec.Legal df w h) (hw : w ≠ 0) (hh : h ≠ 0)
    (hp : Present sf ss sb) (hp' : Present df ds db)
    (hm : Small t sf w h ss sb) (hm' : Small t df w h ds db) :
    r.exec t I w h (sf.num_planes - 1) (ss.getD PixFmt.DEFAULT_STRIDES) sb (df.num_planes - 1)
      (ds.getD PixFmt.DEFAULT_STRIDES) (dstSlices db) =
    if AccImage r.px sf.pixel_format sf.num_planes.toNat w.toNat h.toNat ss sb ∧
       AccImage r.px df.pixel_format df.num_planes.toNat w.toNat h.toNat ds db
    then kcall t I w.toNat h.toNat sf.num_planes.toNat ss sb df.num_planes.toNat ds db r
      >>= fun _ => pure true
    else pure false := by
  rcases sf with ⟨spf, scs, sn⟩
  rcases df with ⟨dpf, dcs, dn⟩
  obtain ⟨-, hsz, hpl⟩ := hl
  obtain ⟨-, hsz', hpl'⟩ := hl'
  obtain ⟨hpS, hpB⟩ := hp
  obtain ⟨hpS', hpB'⟩ := hp'
  obtain ⟨hrow, hlen, hspl⟩ := hm
  obtain ⟨hrow', hlen', hspl'⟩ := hm'
  simp only at *
  cases r with
  | rgbYuv s y c =>
    simp only [Routine.key, Prod.mk.injEq] at hkey
    obtain ⟨⟨rfl, -⟩, rfl, -⟩ := hkey
    have hsn : sn.toNat = 1 := by cases s <;> exact hpl
    rw [hsn] at hpS hpB
    obtain ⟨s0, a1, a2⟩ := stride_at hpS (i := 0) (by omega) (by omega)
    have b1 := buf_at (bufs := sb) (i := 0) (by omega)
    have lb := hlen _ (buf_mem (bufs := sb) (i := 0) (by omega))
    rw [← depth_bpp] at hrow
    have hA : ∀ px, AccImage px s.pf sn.toNat w.toNat h.toNat ss sb ↔
        Acc (bufAt sb 0).len (Spec.strideOf ss 0 (s.pf.depth * w.toNat))
          (if px then w.toNat else s.pf.depth * w.toNat) h.toNat := by
      intro px; cases s <;> exact Iff.rfl
    simp only [hA, Routine.px, Bool.false_eq_true, if_false]
    cases y with
    | i420 =>
      have hdn : dn.toNat = 3 := hpl'
      rw [hdn] at hpS' hpB'
      obtain ⟨d0, c1, e1⟩ := stride_at hpS' (i := 0) (by omega) (by omega)
      obtain ⟨d1, c2, e2⟩ := stride_at hpS' (i := 1) (by omega) (by omega)
      obtain ⟨d2, c3, e3⟩ := stride_at hpS' (i := 2) (by omega) (by omega)
      have := Wrap.rgb_i420_eq (t := t) (k := I.rgb_i420 t s s.pf.depth c) hw hh hsz'.2 a1 b1 c1 c2
        c3 (slice_at (bufs := db) (i := 0) (by omega)) (slice_at (bufs := db) (i := 1) (by omega))
        (slice_at (bufs := db) (i := 2) (by omega)) hrow lb
        (hlen' _ (buf_mem (bufs := db) (i := 0) (by omega)))
        (hlen' _ (buf_mem (bufs := db) (i := 1) (by omega)))
        (hlen' _ (buf_mem (bufs := db) (i := 2) (by omega)))
      rw [a2, e1, e2, e3] at this
      exact this
    | i444 =>
      have hdn : dn.toNat = 3 := hpl'
      rw [hdn] at hpS' hpB'
      obtain ⟨d0, c1, e1⟩ := stride_at hpS' (i := 0) (by omega) (by omega)
      obtain ⟨d1, c2, e2⟩ := stride_at hpS' (i := 1) (by omega) (by omega)
      obtain ⟨d2, c3, e3⟩ := stride_at hpS' (i := 2) (by omega) (by omega)
      have := Wrap.rgb_i444_eq (t := t) (k := I.rgb_i444 t s s.pf.depth c) hw hh a1 b1 c1 c2
        c3 (slice_at (bufs := db) (i := 0) (by omega)) (slice_at (bufs := db) (i := 1) (by omega))
        (slice_at (bufs := db) (i := 2) (by omega)) hrow lb
        (hlen' _ (buf_mem (bufs := db) (i := 0) (by omega)))
        (hlen' _ (buf_mem (bufs := db) (i := 1) (by omega)))
        (hlen' _ (buf_mem (bufs := db) (i := 2) (by omega)))
      rw [a2, e1, e2, e3] at this
      exact this
    | nv12 =>
      rcases hpl' with hdn | hdn
      · rw [hdn] at hpS' hpB'
        have hz : (dn - 1).toNat = 0 := u32_pred_toNat hdn
        obtain ⟨d0, c1, e1⟩ := stride_at hpS' (i := 0) (by omega) (by omega)
        have := Wrap.rgb_nv12_eq1 (t := t) (k := I.rgb_nv12 t s s.pf.depth c) hw hh hsz'.2 a1 b1 c1
          (slice_at (bufs := db) (i := 0) (by omega)) hrow (by rw [e1]; exact hspl' rfl hdn) lb
          (hlen' _ (buf_mem (bufs := db) (i := 0) (by omega)))
        rw [a2, e1] at this
        simp only [Routine.exec, AccImage, YuvFmt.pf, kcall, hz, hdn, if_true]
        rw [this]
        refine if_congr ?_ rfl rfl
        simp only [sliceAt]
        tauto
      · rw [hdn] at hpS' hpB'
        have hz : (dn - 1).toNat = 1 := u32_pred_toNat hdn
        obtain ⟨d0, c1, e1⟩ := stride_at hpS' (i := 0) (by omega) (by omega)
        obtain ⟨d1, c2, e2⟩ := stride_at hpS' (i := 1) (by omega) (by omega)
        have := Wrap.rgb_nv12_eq2 (t := t) (k := I.rgb_nv12 t s s.pf.depth c) hw hh hsz'.2 a1 b1 c1
          c2 (slice_at (bufs := db) (i := 0) (by omega)) (slice_at (bufs := db) (i := 1) (by omega))
          hrow lb (hlen' _ (buf_mem (bufs := db) (i := 0) (by omega)))
          (hlen' _ (buf_mem (bufs := db) (i := 1) (by omega)))
        rw [a2, e1, e2] at this
        simp only [Routine.exec, AccImage, YuvFmt.pf, kcall, hz, hdn, Nat.reduceEqDiff, if_false]
        exact this
  | yuvRgb y c d =>
    simp only [Routine.key, Prod.mk.injEq] at hkey
    obtain ⟨⟨rfl, -⟩, rfl, -⟩ := hkey
    have hdn : dn.toNat = 1 := by cases d <;> exact hpl'
    rw [hdn] at hpS' hpB'
    obtain ⟨d0, a1, a2⟩ := stride_at hpS' (i := 0) (by omega) (by omega)
    have b1 := slice_at (bufs := db) (i := 0) (by omega)
    have lb := hlen' _ (buf_mem (bufs := db) (i := 0) (by omega))
    rw [← depth_bpp] at hrow'
    have hA : ∀ px, AccImage px d.pf dn.toNat w.toNat h.toNat ds db ↔
        Acc (bufAt db 0).len (Spec.strideOf ds 0 (d.pf.depth * w.toNat))
          (if px then w.toNat else d.pf.depth * w.toNat) h.toNat := by
      intro px; cases d <;> exact Iff.rfl
    simp only [hA, Routine.px, Bool.false_eq_true, if_false]
    cases y with
    | i420 =>
      have hsn : sn.toNat = 3 := hpl
      rw [hsn] at hpS hpB
      obtain ⟨s0, c1, e1⟩ := stride_at hpS (i := 0) (by omega) (by omega)
      obtain ⟨s1, c2, e2⟩ := stride_at hpS (i := 1) (by omega) (by omega)
      obtain ⟨s2, c3, e3⟩ := stride_at hpS (i := 2) (by omega) (by omega)
      have := Wrap.i420_rgb_eq (t := t) (k := I.i420_rgb t c d.pf.depth d.pf.reversed) hw hh hsz.2
        c1 c2 c3 (buf_at (bufs := sb) (i := 0) (by omega)) (buf_at (bufs := sb) (i := 1) (by omega))
        (buf_at (bufs := sb) (i := 2) (by omega)) a1 b1 hrow'
        (hlen _ (buf_mem (bufs := sb) (i := 0) (by omega)))
        (hlen _ (buf_mem (bufs := sb) (i := 1) (by omega)))
        (hlen _ (buf_mem (bufs := sb) (i := 2) (by omega))) lb
      rw [a2, e1, e2, e3] at this
      simp only [AccImage, YuvFmt.pf, and_assoc]
      exact this
    | i444 =>
      have hsn : sn.toNat = 3 := hpl
      rw [hsn] at hpS hpB
      obtain ⟨s0, c1, e1⟩ := stride_at hpS (i := 0) (by omega) (by omega)
      obtain ⟨s1, c2, e2⟩ := stride_at hpS (i := 1) (by omega) (by omega)
      obtain ⟨s2, c3, e3⟩ := stride_at hpS (i := 2) (by omega) (by omega)
      have := Wrap.i444_rgb_eq (t := t) (k := I.i444_rgb t c d.pf.depth d.pf.reversed) hw hh
        c1 c2 c3 (buf_at (bufs := sb) (i := 0) (by omega)) (buf_at (bufs := sb) (i := 1) (by omega))
        (buf_at (bufs := sb) (i := 2) (by omega)) a1 b1 hrow'
        (hlen _ (buf_mem (bufs := sb) (i := 0) (by omega)))
        (hlen _ (buf_mem (bufs := sb) (i := 1) (by omega)))
        (hlen _ (buf_mem (bufs := sb) (i := 2) (by omega))) lb
      rw [a2, e1, e2, e3] at this
      simp only [AccImage, YuvFmt.pf, and_assoc]
      exact this
    | nv12 =>
      rcases hpl with hsn | hsn
      · rw [hsn] at hpS hpB
        have hz : (sn - 1).toNat = 0 := u32_pred_toNat hsn
        obtain ⟨s0, c1, e1⟩ := stride_at hpS (i := 0) (by omega) (by omega)
        have := Wrap.nv12_rgb_eq1 (t := t) (k := I.nv12_rgb t c d.pf.depth d.pf.reversed) hw hh hsz.2
          c1 (buf_at (bufs := sb) (i := 0) (by omega)) a1 b1 hrow'
          (by rw [e1]; exact hspl rfl hsn)
          (hlen _ (buf_mem (bufs := sb) (i := 0) (by omega))) lb
        rw [a2, e1] at this
        simp only [Routine.exec, AccImage, YuvFmt.pf, kcall, hz, hsn, if_true, and_assoc]
        exact this
      · rw [hsn] at hpS hpB
        have hz : (sn - 1).toNat = 1 := u32_pred_toNat hsn
        obtain ⟨s0, c1, e1⟩ := stride_at hpS (i := 0) (by omega) (by omega)
        obtain ⟨s1, c2, e2⟩ := stride_at hpS (i := 1) (by omega) (by omega)
        have := Wrap.nv12_rgb_eq2 (t := t) (k := I.nv12_rgb t c d.pf.depth d.pf.reversed) hw hh hsz.2
          c1 c2 (buf_at (bufs := sb) (i := 0) (by omega))
          (buf_at (bufs := sb) (i := 1) (by omega)) a1 b1 hrow'
          (hlen _ (buf_mem (bufs := sb) (i := 0) (by omega)))
          (hlen _ (buf_mem (bufs := sb) (i := 1) (by omega))) lb
        rw [a2, e1, e2] at this
        simp only [Routine.exec, AccImage, YuvFmt.pf, kcall, hz, hsn, Nat.reduceEqDiff, if_false,
          and_assoc]
        exact this
  | rgbRgb q =>
    have hsn : sn.toNat = 1 := by
      cases q <;> simp only [Routine.key, Prod.mk.injEq] at hkey <;>
      obtain ⟨⟨rfl, -⟩, rfl, -⟩ := hkey <;> exact hpl
    have hdn : dn.toNat = 1 := by
      cases q <;> simp only [Routine.key, Prod.mk.injEq] at hkey <;>
      obtain ⟨⟨rfl, -⟩, rfl, -⟩ := hkey <;> exact hpl'
    rw [hsn] at hpS hpB
    rw [hdn] at hpS' hpB'
    obtain ⟨s0, a1, a2⟩ := stride_at hpS (i := 0) (by omega) (by omega)
    obtain ⟨d0, c1, e1⟩ := stride_at hpS' (i := 0) (by omega) (by omega)
    have b1 := buf_at (bufs := sb) (i := 0) (by omega)
    have lb := hlen _ (buf_mem (bufs := sb) (i := 0) (by omega))
    have b2 := slice_at (bufs := db) (i := 0) (by omega)
    have lb2 := hlen' _ (buf_mem (bufs := db) (i := 0) (by omega))
    cases q <;> simp only [Routine.key, Prod.mk.injEq] at hkey <;>
      obtain ⟨⟨rfl, -⟩, rfl, -⟩ := hkey
    · have := Wrap.rgb_rgb_eq (t := t) (k := I.bgr_rgb t) hw hh a1 b1 c1 b2 hrow hrow' lb lb2
      rw [a2, e1] at this
      exact this
    · have := Wrap.rgb_rgb_eq (t := t) (k := I.bgra_rgb t) hw hh a1 b1 c1 b2 hrow hrow' lb lb2
      rw [a2, e1] at this
      exact this
    · have := Wrap.rgb_rgb_eq (t := t) (k := I.rgb_bgra t) hw hh a1 b1 c1 b2 hrow hrow' lb lb2
      rw [a2, e1] at this
      exact this

end Verif
