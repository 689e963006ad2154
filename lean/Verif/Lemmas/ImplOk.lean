import Verif.Lemmas.Convert
import Verif.Model.X86Impl
/-!
# From kernels to `convert_image`

`ImplOk` collects what has to be shown about the kernels of one instruction set; `master` turns it
into a statement about `convert_image`.
-/

namespace Verif

open Spec (PlaneFits)

/-- The pixel arithmetic of an instruction set, where it may deviate from the portable one, and the
room its kernels need beyond the image when reading an RGB source (some vector kernels read whole
registers). Chroma and blue may depend on the source format, the width and the column, because the
remainder of a line is left to the portable kernels. -/
structure Sem where
  cb : (src : PixelFormat) → (w x : Nat) → Spec.Std → (r g b : Int) → Int
  cr : (src : PixelFormat) → (w x : Nat) → Spec.Std → (r g b : Int) → Int
  cbAvg : (src : PixelFormat) → (w x : Nat) → Spec.Std → (r4 g4 b4 : Int) → Int
  crAvg : (src : PixelFormat) → (w x : Nat) → Spec.Std → (r4 g4 b4 : Int) → Int
  blue : (src dst : PixelFormat) → (w x : Nat) → Spec.Std → (y cb : Int) → Int
  room : PixelFormat → (w h stride len : Nat) → Prop

/-- The specified arithmetic, no extra room. -/
def Sem.scalar : Sem where
  cb _ _ _ := Spec.cb
  cr _ _ _ := Spec.cr
  cbAvg _ _ _ := Spec.cbAvg
  crAvg _ _ _ := Spec.crAvg
  blue _ _ _ _ := Spec.blue
  room _ _ _ _ _ := True

/-- `Spec.cbPlane` with the arithmetic of `S`. -/
def Sem.cb444 (S : Sem) (src : PixelFormat) (w : Nat) (s : Spec.Std) (im : Spec.RgbImage) :
    Spec.Plane := fun x y =>
  Spec.byte (S.cb src w x s (Spec.val (im.r x y)) (Spec.val (im.g x y)) (Spec.val (im.b x y)))

/-- `Spec.crPlane` with the arithmetic of `S`. -/
def Sem.cr444 (S : Sem) (src : PixelFormat) (w : Nat) (s : Spec.Std) (im : Spec.RgbImage) :
    Spec.Plane := fun x y =>
  Spec.byte (S.cr src w x s (Spec.val (im.r x y)) (Spec.val (im.g x y)) (Spec.val (im.b x y)))

/-- `Spec.cbPlane420` with the arithmetic of `S`. -/
def Sem.cb420 (S : Sem) (src : PixelFormat) (w : Nat) (s : Spec.Std) (im : Spec.RgbImage) :
    Spec.Plane := fun x y =>
  Spec.byte (S.cbAvg src w x s (Spec.sum4 im.r x y) (Spec.sum4 im.g x y) (Spec.sum4 im.b x y))

/-- `Spec.crPlane420` with the arithmetic of `S`. -/
def Sem.cr420 (S : Sem) (src : PixelFormat) (w : Nat) (s : Spec.Std) (im : Spec.RgbImage) :
    Spec.Plane := fun x y =>
  Spec.byte (S.crAvg src w x s (Spec.sum4 im.r x y) (Spec.sum4 im.g x y) (Spec.sum4 im.b x y))

/-- `Spec.decoded` with the arithmetic of `S`. -/
def Sem.dec (S : Sem) (src dst : PixelFormat) (w : Nat) (s : Spec.Std) (im : Spec.YuvImage) :
    Spec.RgbImage where
  r x y := Spec.byte (Spec.red s (Spec.val (im.y x y)) (Spec.val (im.cr x y)))
  g x y := Spec.byte (Spec.green s (Spec.val (im.y x y)) (Spec.val (im.cb x y))
    (Spec.val (im.cr x y)))
  b x y := Spec.byte (S.blue src dst w x s (Spec.val (im.y x y)) (Spec.val (im.cb x y)))

/-- Size of an image that can be passed to a kernel. -/
structure Dim (w h : Nat) : Prop where
  w_pos : 0 < w
  h_pos : 0 < h
  w_lt : w < 2 ^ 32

/-- The kernels of an instruction set store the images described by `S`. -/
structure ImplOk (t : Target) (I : Impl) (S : Sem) : Prop where
  rgb_i444 : ∀ (s : Sampler) (c : Colorimetry) {w h ss ys us vs : Nat} {src : Buf}
    {yp up vp : Dst}, Dim w h →
    PlaneFits src.len ss (s.pf.depth * w) h → S.room s.pf w h ss src.len →
    PlaneFits yp.len ys w h → PlaneFits up.len us w h → PlaneFits vp.len vs w h →
    src.len ≤ t.imax → yp.len ≤ t.imax → up.len ≤ t.imax → vp.len ≤ t.imax →
    Emits (I.rgb_i444 t s s.pf.depth c w h ss src ys us vs yp up vp) () fun p =>
      Rect yp ys w h (Spec.lumaPlane c.std (srcImg s src ss)) p ∨
      Rect up us w h (S.cb444 s.pf w c.std (srcImg s src ss)) p ∨
      Rect vp vs w h (S.cr444 s.pf w c.std (srcImg s src ss)) p
  rgb_i420 : ∀ (s : Sampler) (c : Colorimetry) {w h ss ys us vs : Nat} {src : Buf}
    {yp up vp : Dst}, Dim w h → w % 2 = 0 → h % 2 = 0 →
    PlaneFits src.len ss (s.pf.depth * w) h → S.room s.pf w h ss src.len →
    PlaneFits yp.len ys w h → PlaneFits up.len us (w / 2) (h / 2) →
    PlaneFits vp.len vs (w / 2) (h / 2) →
    src.len ≤ t.imax → yp.len ≤ t.imax → up.len ≤ t.imax → vp.len ≤ t.imax →
    Emits (I.rgb_i420 t s s.pf.depth c w h ss src ys us vs yp up vp) () fun p =>
      Rect yp ys w h (Spec.lumaPlane c.std (srcImg s src ss)) p ∨
      Rect up us (w / 2) (h / 2) (S.cb420 s.pf w c.std (srcImg s src ss)) p ∨
      Rect vp vs (w / 2) (h / 2) (S.cr420 s.pf w c.std (srcImg s src ss)) p
  rgb_nv12 : ∀ (s : Sampler) (c : Colorimetry) {w h ss ys uvs : Nat} {src : Buf}
    {yp uvp : Dst}, Dim w h → w % 2 = 0 → h % 2 = 0 →
    PlaneFits src.len ss (s.pf.depth * w) h → S.room s.pf w h ss src.len →
    PlaneFits yp.len ys w h → PlaneFits uvp.len uvs w (h / 2) →
    src.len ≤ t.imax → yp.len ≤ t.imax → uvp.len ≤ t.imax →
    Emits (I.rgb_nv12 t s s.pf.depth c w h ss src ys uvs yp uvp) () fun p =>
      Rect yp ys w h (Spec.lumaPlane c.std (srcImg s src ss)) p ∨
      Rect uvp uvs w (h / 2) (Spec.interleave (S.cb420 s.pf w c.std (srcImg s src ss))
        (S.cr420 s.pf w c.std (srcImg s src ss))) p
  i444_rgb : ∀ (c : Colorimetry) (o : RgbOut) {w h ys us vs ds : Nat} {yb ub vb : Buf} {d : Dst},
    o ≠ .rgb → Dim w h →
    PlaneFits yb.len ys w h → PlaneFits ub.len us w h → PlaneFits vb.len vs w h →
    PlaneFits d.len ds (o.pf.depth * w) h →
    yb.len ≤ t.imax → ub.len ≤ t.imax → vb.len ≤ t.imax → d.len ≤ t.imax →
    Emits (I.i444_rgb t c o.pf.depth o.pf.reversed w h ys us vs yb ub vb ds d) ()
      (Rect d ds (o.pf.depth * w) h
        (Spec.rgbRow o.pf (S.dec .i444 o.pf w c.std (X86.img444 yb ub vb ys us vs))))
  i420_rgb : ∀ (c : Colorimetry) (o : RgbOut) {w h ys us vs ds : Nat} {yb ub vb : Buf} {d : Dst},
    o ≠ .rgb → Dim w h → w % 2 = 0 → h % 2 = 0 →
    PlaneFits yb.len ys w h → PlaneFits ub.len us (w / 2) (h / 2) →
    PlaneFits vb.len vs (w / 2) (h / 2) → PlaneFits d.len ds (o.pf.depth * w) h →
    yb.len ≤ t.imax → ub.len ≤ t.imax → vb.len ≤ t.imax → d.len ≤ t.imax →
    Emits (I.i420_rgb t c o.pf.depth o.pf.reversed w h ys us vs yb ub vb ds d) ()
      (Rect d ds (o.pf.depth * w) h
        (Spec.rgbRow o.pf (S.dec .i420 o.pf w c.std (X86.img420 yb ub vb ys us vs))))
  nv12_rgb : ∀ (c : Colorimetry) (o : RgbOut) {w h ys uvs ds : Nat} {yb uvb : Buf} {d : Dst},
    Dim w h → w % 2 = 0 → h % 2 = 0 →
    PlaneFits yb.len ys w h → PlaneFits uvb.len uvs w (h / 2) →
    PlaneFits d.len ds (o.pf.depth * w) h →
    yb.len ≤ t.imax → uvb.len ≤ t.imax → d.len ≤ t.imax →
    Emits (I.nv12_rgb t c o.pf.depth o.pf.reversed w h ys uvs yb uvb ds d) ()
      (Rect d ds (o.pf.depth * w) h
        (Spec.rgbRow o.pf (S.dec .nv12 o.pf w c.std (X86.imgNv12 yb uvb ys uvs))))
  rgb_bgra : ∀ {w h ss ds : Nat} {src : Buf} {d : Dst}, Dim w h →
    PlaneFits src.len ss (3 * w) h → PlaneFits d.len ds (4 * w) h →
    src.len ≤ t.imax → d.len ≤ t.imax →
    Emits (I.rgb_bgra t w h ss src ds d) () (X86.GRgb .rgb .bgra src ss w h ds d)
  bgra_rgb : ∀ {w h ss ds : Nat} {src : Buf} {d : Dst}, Dim w h →
    PlaneFits src.len ss (4 * w) h → PlaneFits d.len ds (3 * w) h →
    src.len ≤ t.imax → d.len ≤ t.imax →
    Emits (I.bgra_rgb t w h ss src ds d) () (X86.GRgb .bgra .rgb src ss w h ds d)
  bgr_rgb : ∀ {w h ss ds : Nat} {src : Buf} {d : Dst}, Dim w h →
    PlaneFits src.len ss (3 * w) h → PlaneFits d.len ds (3 * w) h →
    src.len ≤ t.imax → d.len ≤ t.imax →
    Emits (I.bgr_rgb t w h ss src ds d) () (X86.GRgb .bgr .rgb src ss w h ds d)

theorem fits_line {len stride row rows y : Nat} (hf : PlaneFits len stride row rows)
    (hy : y < rows) : stride * y + row ≤ len := by
  have h1 : stride * y ≤ stride * (rows - 1) := Nat.mul_le_mul_left _ (by omega)
  have := hf.extent
  omega

theorem fits_at {len stride row rows : Nat} (hf : PlaneFits len stride row rows) :
    ∀ y, y < rows → ∀ x, x < row → stride * y + x < len := by
  intro y hy x hx
  have := fits_line hf hy
  omega

theorem fits_px {len stride w rows : Nat} {d : Nat} (hf : PlaneFits len stride (d * w) rows) :
    ∀ y, y < rows → ∀ x, x < w → stride * y + d * x + d ≤ len := by
  intro y hy x hx
  have := fits_line hf hy
  have h2 : d * (x + 1) ≤ d * w := Nat.mul_le_mul_left _ hx
  rw [Nat.mul_add, Nat.mul_one] at h2
  omega

theorem imax_lt (t : Target) (hb : 1 ≤ t.bits) : 2 * t.imax < 2 ^ t.bits := by
  unfold Target.imax
  have : 2 ^ t.bits = 2 * 2 ^ (t.bits - 1) := by
    rw [← Nat.pow_succ']
    congr 1
    omega
  have h2 : 0 < 2 ^ (t.bits - 1) := Nat.pow_pos (by omega)
  omega

theorem word_fits {t : Target} (h : 32 ≤ t.bits) : 2 ^ 32 ≤ 2 ^ t.bits :=
  Nat.pow_le_pow_right (by omega) h

theorem byte_fits {t : Target} (h : 32 ≤ t.bits) : 256 ≤ 2 ^ t.bits :=
  Nat.le_trans (by omega) (word_fits h)

theorem imax_le_umax (t : Target) (hb : 1 ≤ t.bits) : t.imax ≤ t.umax := by
  have := imax_lt t hb
  unfold Target.umax
  omega

theorem reversed_out (o : RgbOut) (h : o ≠ .rgb) : outPf o.pf.reversed = o.pf ∧ o.pf.depth = 4 := by
  cases o
  · exact ⟨rfl, rfl⟩
  · exact ⟨rfl, rfl⟩
  · exact absurd rfl h

theorem fits_last {len stride w rows : Nat} {d : Nat} (hd : 0 < d)
    (hf : PlaneFits len stride (d * w) rows) :
    ∀ y, y < rows → ∀ x, x < w → stride * y + d * x + (d - 1) < len := by
  intro y hy x hx
  have := fits_px hf y hy x hx
  omega

namespace X86

/-- The kernels of x86.rs, with exact offsets. -/
def ideal : Impl := implWith (fun _ => exactIx) (fun _ => exactMul)

theorem i444_ok {t : Target} (c : Colorimetry) (o : RgbOut) {w h ys us vs ds : Nat} {yb ub vb : Buf} {d : Dst}
    (ho : o ≠ .rgb) (hy : PlaneFits yb.len ys w h) (hu : PlaneFits ub.len us w h)
    (hv : PlaneFits vb.len vs w h) (hd : PlaneFits d.len ds (o.pf.depth * w) h) :
    Emits (ideal.i444_rgb t c o.pf.depth o.pf.reversed w h ys us vs yb ub vb ds d) ()
      (Rect d ds (o.pf.depth * w) h
        (Spec.rgbRow o.pf (Spec.decoded c.std (X86.img444 yb ub vb ys us vs)))) := by
  obtain ⟨e1, e2⟩ := reversed_out o ho
  rw [e2] at hd
  have := i444_to_bgra_emits c o.pf.reversed (fits_at hy) (fits_at hu) (fits_at hv)
    (fits_last (by omega) hd)
  rw [GDec, e1, ← depth_bpp] at this
  exact this

theorem i420_ok {t : Target} (c : Colorimetry) (o : RgbOut) {w h ys us vs ds : Nat} {yb ub vb : Buf} {d : Dst}
    (ho : o ≠ .rgb) (hw : w % 2 = 0) (hh : h % 2 = 0)
    (hy : PlaneFits yb.len ys w h) (hu : PlaneFits ub.len us (w / 2) (h / 2))
    (hv : PlaneFits vb.len vs (w / 2) (h / 2)) (hd : PlaneFits d.len ds (o.pf.depth * w) h) :
    Emits (ideal.i420_rgb t c o.pf.depth o.pf.reversed w h ys us vs yb ub vb ds d) ()
      (Rect d ds (o.pf.depth * w) h
        (Spec.rgbRow o.pf (Spec.decoded c.std (X86.img420 yb ub vb ys us vs)))) := by
  obtain ⟨e1, e2⟩ := reversed_out o ho
  rw [e2] at hd
  have := i420_to_bgra_emits c o.pf.reversed hw hh (fits_at hy) (fits_at hu) (fits_at hv)
    (fits_last (by omega) hd)
  rw [GDec, e1, ← depth_bpp] at this
  exact this

theorem nv12_ok {t : Target} (c : Colorimetry) (o : RgbOut) {w h ys uvs ds : Nat} {yb uvb : Buf} {d : Dst}
    (hw : w % 2 = 0) (hh : h % 2 = 0)
    (hy : PlaneFits yb.len ys w h) (hu : PlaneFits uvb.len uvs w (h / 2))
    (hd : PlaneFits d.len ds (o.pf.depth * w) h) :
    Emits (ideal.nv12_rgb t c o.pf.depth o.pf.reversed w h ys uvs yb uvb ds d) ()
      (Rect d ds (o.pf.depth * w) h
        (Spec.rgbRow o.pf (Spec.decoded c.std (X86.imgNv12 yb uvb ys uvs)))) := by
  by_cases ho : o = .rgb
  · subst ho
    exact nv12_to_rgb_emits c hw hh (fits_at hy) (fits_at hu) (fits_last (d := 3) (by omega) hd)
  · obtain ⟨e1, e2⟩ := reversed_out o ho
    rw [e2] at hd
    have := nv12_to_bgra_emits c o.pf.reversed hw hh (fits_at hy) (fits_at hu)
      (fits_last (by omega) hd)
    rw [GDec, e1, ← depth_bpp] at this
    show Emits (if o.pf.depth = 4 then _ else _) () _
    rw [if_pos e2]
    exact this

/-- The portable kernels. -/
theorem implOk (t : Target) (hb : 1 ≤ t.bits) : ImplOk t ideal .scalar where
  rgb_i444 s c _ _ _ _ _ _ _ _ _ _ _ hs _ hy hu hv _ _ _ _ :=
    rgb_to_i444_emits s c (fits_px hs) (fits_at hy) (fits_at hu) (fits_at hv)
  rgb_i420 s c _ _ _ _ _ _ _ _ _ _ _ hw hh hs _ hy hu hv _ _ _ _ :=
    rgb_to_i420_emits s c hw hh (fits_px hs) (fits_at hy) (fits_at hu) (fits_at hv)
  rgb_nv12 s c _ _ _ _ _ _ _ _ _ hw hh hs _ hy hu _ _ _ :=
    rgb_to_nv12_emits s c hw hh (fits_px hs) (fits_at hy) (fits_at hu)
  i444_rgb c o _ _ _ _ _ _ _ _ _ _ ho _ hy hu hv hd _ _ _ _ := i444_ok c o ho hy hu hv hd
  i420_rgb c o _ _ _ _ _ _ _ _ _ _ ho _ hw hh hy hu hv hd _ _ _ _ := i420_ok c o ho hw hh hy hu hv hd
  nv12_rgb c o _ _ _ _ _ _ _ _ _ hw hh hy hu hd _ _ _ := nv12_ok c o hw hh hy hu hd
  rgb_bgra hdim hs hd hsl hdl := by
    have := imax_lt t hb
    have h1 := hs.stride_le
    have h2 := hd.stride_le
    exact rgb_to_bgra_emits hdim.w_pos hs.row_le hd.row_le (by omega) (by omega)
      (fun y hy => fits_line hs hy) (fun y hy => fits_line hd hy)
  bgra_rgb hdim hs hd hsl hdl := by
    have := imax_lt t hb
    have h1 := hs.stride_le
    have h2 := hd.stride_le
    have h3 := hdim.w_lt
    exact bgra_to_rgb_emits (by omega) hs.row_le hd.row_le (by omega) (by omega) (by omega)
      (by omega) (fun y hy => fits_line hs hy) (fun y hy => fits_line hd hy)
  bgr_rgb hdim hs hd _ _ := by
    have h3 := hdim.w_lt
    exact bgr_to_rgb_emits (by omega) (fun y hy => fits_line hs hy)
      (fun y hy => fits_line hd hy)

end X86

/-! ## The planes a set of kernels produces -/

/-- `Spec.encodedPlanes` with the arithmetic of `S`. -/
def Sem.encodedPlanes (S : Sem) (src : PixelFormat) (w : Nat) (f : ImageFormat) (h : UInt32)
    (im : Spec.RgbImage) : List Spec.Plane :=
  let s := Spec.std f.color_space
  match f.pixel_format with
  | .i444 => [Spec.lumaPlane s im, S.cb444 src w s im, S.cr444 src w s im]
  | .i420 => [Spec.lumaPlane s im, S.cb420 src w s im, S.cr420 src w s im]
  | _ =>
    let uv := Spec.interleave (S.cb420 src w s im) (S.cr420 src w s im)
    if f.num_planes = 1 then
      [fun j y => if y < h.toNat then Spec.lumaPlane s im j y else uv j (y - h.toNat)]
    else [Spec.lumaPlane s im, uv]

/-- `Spec.resultPlanes` with the arithmetic of `S`. -/
def Sem.resultPlanes (S : Sem) (w h : UInt32) (sf : ImageFormat) (ss : Option (List Nat))
    (sb : List Buf) (df : ImageFormat) : List Spec.Plane :=
  if Spec.isRgb sf.pixel_format then
    if Spec.isRgb df.pixel_format then
      [Spec.rgbRow df.pixel_format (Spec.readRgb sf w ss sb)]
    else S.encodedPlanes sf.pixel_format w.toNat df h (Spec.readRgb sf w ss sb)
  else [Spec.rgbRow df.pixel_format (S.dec sf.pixel_format df.pixel_format w.toNat
    (Spec.std sf.color_space) (Spec.readYuv sf w h ss sb))]

theorem Sem.resultPlanes_scalar (w h : UInt32) (sf : ImageFormat) (ss : Option (List Nat))
    (sb : List Buf) (df : ImageFormat) :
    Sem.scalar.resultPlanes w h sf ss sb df = Spec.resultPlanes w h sf ss sb df := rfl

theorem plane0 {f : ImageFormat} {w h : UInt32} {strides : Option (List Nat)} {bufs : List Buf}
    (hf : Spec.Fits f w h strides bufs) (i : Nat) {rc : Nat × Nat} (hi : i < f.num_planes.toNat)
    (hd : (Spec.dims f.pixel_format f.num_planes.toNat w.toNat h.toNat)[i]? = some rc) :
    PlaneFits (bufAt bufs i).len (Spec.strideOf strides i rc.1) rc.1 rc.2 :=
  hf.plane i _ rc (buf_at (by have := hf.bufs_len; omega)) hd

theorem acc_of_fits {len stride row rows : Nat} (hf : PlaneFits len stride row rows) {row' : Nat}
    (hr : row' ≤ row) : Acc len stride row' rows := by
  obtain ⟨h1, h2, h3⟩ := hf
  unfold Acc
  generalize rows - 1 = n at *
  rcases Nat.eq_zero_or_pos n with e | e
  · subst e; simpa using h3
  · obtain ⟨m, rfl⟩ : ∃ m, n = m + 1 := ⟨n - 1, by omega⟩
    have : row' * m ≤ stride * m := Nat.mul_le_mul_right _ (by omega)
    rw [Nat.mul_add, Nat.mul_one] at h2
    rw [Nat.mul_add, Nat.mul_one]
    omega

theorem bytesAt_eq (bufs : List Buf) (i : Nat) : Spec.bytesAt bufs i = (bufAt bufs i).bytes := by
  unfold Spec.bytesAt bufAt
  rw [List.getD_eq_getElem?_getD]
  cases bufs[i]? <;> rfl

/-- The chroma part of a single-plane Nv12 image fits. -/
theorem nv12_parts {f : ImageFormat} {w h : UInt32} {strides : Option (List Nat)}
    {bufs : List Buf} (hf : Spec.Fits f w h strides bufs) (hpf : f.pixel_format = .nv12)
    (hn : f.num_planes.toNat = 1) (hh : h.toNat % 2 = 0) (h0 : 0 < h.toNat) :
    let S := Spec.strideOf strides 0 w.toNat
    S * h.toNat ≤ (bufAt bufs 0).len ∧
    PlaneFits (S * h.toNat) S w.toNat h.toNat ∧
    PlaneFits ((bufAt bufs 0).len - S * h.toNat) S w.toNat (h.toNat / 2) := by
  intro S
  have h1 := plane0 hf 0 (rc := (w.toNat, h.toNat + h.toNat / 2)) (by omega)
    (by rw [hpf, hn]; rfl)
  have h2 := hf.chroma _ (buf_at (by have := hf.bufs_len; omega)) hpf hn
  have e1 : S * (h.toNat + 1) = S * h.toNat + S := by rw [Nat.mul_add, Nat.mul_one]
  have h2' : S * (h.toNat + 1) ≤ (bufAt bufs 0).len := h2
  have hr : w.toNat ≤ S := h1.row_le
  have e2 : S * h.toNat = S * (h.toNat - 1) + S := by
    obtain ⟨m, hm⟩ : ∃ m, h.toNat = m + 1 := ⟨h.toNat - 1, by omega⟩
    rw [hm, Nat.mul_add, Nat.mul_one]; rfl
  have h3 : S * (h.toNat + h.toNat / 2 - 1) + w.toNat ≤ (bufAt bufs 0).len := h1.extent
  have e3 : S * (h.toNat + h.toNat / 2 - 1) = S * h.toNat + S * (h.toNat / 2 - 1) := by
    rw [← Nat.mul_add]; congr 1; omega
  refine ⟨by omega, ⟨hr, by omega, by omega⟩, ⟨hr, by omega, by omega⟩⟩

theorem present_of_fits {f : ImageFormat} {w h : UInt32} {strides : Option (List Nat)}
    {bufs : List Buf} (hf : Spec.Fits f w h strides bufs) : Present f strides bufs :=
  ⟨hf.strides_len, hf.bufs_len⟩

theorem small_of_fits {t : Target} (hb : 1 ≤ t.bits) {f : ImageFormat} {w h : UInt32}
    {strides : Option (List Nat)} {bufs : List Buf} (hl : Spec.Legal f w h) (h0 : 0 < h.toNat)
    (hf : Spec.Fits f w h strides bufs)
    (hlen : ∀ b, b ∈ bufs → b.len ≤ t.imax) : Small t f w h strides bufs := by
  have hi := imax_lt t hb
  have hn := planes_le hl.planes
  have hlen0 : (bufAt bufs 0).len ≤ t.imax :=
    hlen _ (buf_mem (by have := hf.bufs_len; omega))
  refine ⟨?_, fun b hm => Nat.le_trans (hlen b hm) (imax_le_umax t hb), ?_⟩
  · rcases f with ⟨pf, cs, n⟩
    have : ∀ pf', pf = pf' → (Spec.dims pf' n.toNat w.toNat h.toNat)[0]? =
        some (Spec.bpp pf' * w.toNat, h.toNat) → Spec.bpp pf * w.toNat < 2 ^ t.bits := by
      rintro pf' rfl hd
      have := plane0 hf 0 (by omega) hd
      have h1 := this.extent
      simp only at h1 ⊢
      omega
    cases pf
    case argb | bgra | bgr | rgba | rgb => exact this _ rfl rfl
    all_goals
      simp only [Spec.bpp, Nat.zero_mul]
      exact Nat.pow_pos (by omega)
  · intro hpf hn1
    have hs := hl.size
    rw [hpf] at hs
    have := (nv12_parts hf hpf hn1 hs.2 h0).1
    omega

theorem acc_image_of_fits {f : ImageFormat} {w h : UInt32} {strides : Option (List Nat)}
    {bufs : List Buf} (hl : Spec.Legal f w h) (h0 : 0 < h.toNat)
    (hf : Spec.Fits f w h strides bufs) (px : Bool) :
    AccImage px f.pixel_format f.num_planes.toNat w.toNat h.toNat strides bufs := by
  have hsz := hl.size
  have hpl := hl.planes
  have key := fun i rc => plane0 hf i (rc := rc)
  have parts := fun a b c => nv12_parts hf a b c h0
  rcases f with ⟨pf, cs, n⟩
  simp only at *
  have single : ∀ bpp, 1 ≤ bpp → 0 < n.toNat →
      (Spec.dims pf n.toNat w.toNat h.toNat)[0]? = some (bpp * w.toNat, h.toNat) →
      Acc (bufAt bufs 0).len (Spec.strideOf strides 0 (bpp * w.toNat))
        (if px then w.toNat else bpp * w.toNat) h.toNat := by
    intro bpp hb hn hd
    refine acc_of_fits (key 0 _ hn hd) ?_
    have : 1 * w.toNat ≤ bpp * w.toNat := Nat.mul_le_mul_right _ hb
    split <;> simp only <;> omega
  cases pf
  case argb => exact single 4 (by omega) (by have : n.toNat = 1 := hpl; omega) rfl
  case bgra => exact single 4 (by omega) (by have : n.toNat = 1 := hpl; omega) rfl
  case bgr => exact single 3 (by omega) (by have : n.toNat = 1 := hpl; omega) rfl
  case rgba => exact single 4 (by omega) (by have : n.toNat = 1 := hpl; omega) rfl
  case rgb => exact single 3 (by omega) (by have : n.toNat = 1 := hpl; omega) rfl
  case i444 =>
    have hn : n.toNat = 3 := hpl
    exact ⟨acc_of_fits (key 0 (w.toNat, h.toNat) (by omega) rfl) (Nat.le_refl _),
      acc_of_fits (key 1 (w.toNat, h.toNat) (by omega) rfl) (Nat.le_refl _),
      acc_of_fits (key 2 (w.toNat, h.toNat) (by omega) rfl) (Nat.le_refl _)⟩
  case i422 => trivial
  case i420 =>
    have hn : n.toNat = 3 := hpl
    exact ⟨acc_of_fits (key 0 (w.toNat, h.toNat) (by omega) rfl) (Nat.le_refl _),
      acc_of_fits (key 1 (w.toNat / 2, h.toNat / 2) (by omega) rfl) (Nat.le_refl _),
      acc_of_fits (key 2 (w.toNat / 2, h.toNat / 2) (by omega) rfl) (Nat.le_refl _)⟩
  case nv12 =>
    rcases hpl with hn | hn
    · obtain ⟨p1, p2, p3⟩ := parts rfl hn hsz.2
      simp only [AccImage, hn, if_true]
      exact ⟨p1, acc_of_fits p2 (Nat.le_refl _), acc_of_fits p3 (Nat.le_refl _)⟩
    · simp only [AccImage, hn, Nat.reduceEqDiff, if_false]
      exact ⟨acc_of_fits (key 0 (w.toNat, h.toNat) (by omega) (by rw [hn]; rfl)) (Nat.le_refl _),
        acc_of_fits (key 1 (w.toNat, h.toNat / 2) (by omega) (by rw [hn]; rfl)) (Nat.le_refl _)⟩

end Verif
