import Verif.Lemmas.Pixel
import Verif.Lemmas.Rect
import Verif.Spec.Image
import Verif.Model.Lib
/-! # Scalar kernels compute the specified images -/

namespace Verif

open Spec (byte val)

theorem wg_eq (x y w h : Nat) : exactIx x y w h = .ok (h * y + w * x) := by
  rw [exactIx, Nat.mul_comm x w]


/-- The RGB image seen by an encoder kernel. -/
abbrev srcImg (s : Sampler) (src : Buf) (stride : Nat) : Spec.RgbImage :=
  Spec.rgbImage s.pf src.bytes stride

namespace X86

theorem unpack3_ok {s : Sampler} {src : Buf} {stride x y : Nat}
    (h : stride * y + s.pf.depth * x + s.pf.depth ≤ src.len) :
    unpack_ui8x3_i32 s src (stride * y + s.pf.depth * x) =
      pure (val ((srcImg s src stride).r x y), val ((srcImg s src stride).g x y),
        val ((srcImg s src stride).b x y)) := by
  cases s <;> simp only [Sampler.pf, PixelFormat.depth] at h <;>
  simp only [unpack_ui8x3_i32, SAMPLER_OFFSETS, rdI, srcImg, Spec.rgbImage, Spec.rgbPos, Spec.bpp,
    Sampler.pf, PixelFormat.depth, val] <;>
  rw [rd_eq (by omega), rd_eq (by omega), rd_eq (by omega)] <;> rfl

theorem luma_px (c : Colorimetry) (im : Spec.RgbImage) (x y : Nat) :
    ∃ v, affine_transform (val (im.r x y)) (val (im.g x y)) (val (im.b x y))
        (FORWARD_WEIGHTS c).xr (FORWARD_WEIGHTS c).xg (FORWARD_WEIGHTS c).xb
        (FORWARD_WEIGHTS c).yo = .ok v ∧
      I32.asU8 (fix_to_i32 v FIX16) = Spec.lumaPlane c.std im x y := by
  obtain ⟨v, h1, h2, h3, h4⟩ := luma_ok c (val_range (im.r x y)) (val_range (im.g x y))
    (val_range (im.b x y))
  exact ⟨v, h1, by rw [h2, asU8_eq h3 h4]; rfl⟩

theorem cb_px (c : Colorimetry) (im : Spec.RgbImage) (x y : Nat) :
    ∃ v, affine_transform (val (im.r x y)) (val (im.g x y)) (val (im.b x y))
        (FORWARD_WEIGHTS c).yr (FORWARD_WEIGHTS c).yg (yb (FORWARD_WEIGHTS c)) co16 = .ok v ∧
      I32.asU8 (fix_to_i32 v FIX16) = Spec.cbPlane c.std im x y := by
  obtain ⟨v, h1, h2, h3, h4⟩ := cb444_ok c (val_range (im.r x y)) (val_range (im.g x y))
    (val_range (im.b x y))
  exact ⟨v, h1, by rw [h2, asU8_eq h3 h4]; rfl⟩

theorem cr_px (c : Colorimetry) (im : Spec.RgbImage) (x y : Nat) :
    ∃ v, affine_transform (val (im.r x y)) (val (im.g x y)) (val (im.b x y))
        (yb (FORWARD_WEIGHTS c)) (FORWARD_WEIGHTS c).zg (zb (FORWARD_WEIGHTS c)) co16 = .ok v ∧
      I32.asU8 (fix_to_i32 v FIX16) = Spec.crPlane c.std im x y := by
  obtain ⟨v, h1, h2, h3, h4⟩ := cr444_ok c (val_range (im.r x y)) (val_range (im.g x y))
    (val_range (im.b x y))
  exact ⟨v, h1, by rw [h2, asU8_eq h3 h4]; rfl⟩

theorem sum4_range (p : Spec.Plane) (x y : Nat) : 0 ≤ Spec.sum4 p x y ∧ Spec.sum4 p x y ≤ 1020 := by
  have h1 := val_range (p (2 * x) (2 * y))
  have h2 := val_range (p (2 * x + 1) (2 * y))
  have h3 := val_range (p (2 * x) (2 * y + 1))
  have h4 := val_range (p (2 * x + 1) (2 * y + 1))
  unfold Spec.sum4
  omega

theorem cb420_px (c : Colorimetry) (im : Spec.RgbImage) (x y : Nat) :
    ∃ v, affine_transform (Spec.sum4 im.r x y) (Spec.sum4 im.g x y) (Spec.sum4 im.b x y)
        (FORWARD_WEIGHTS c).yr (FORWARD_WEIGHTS c).yg (yb (FORWARD_WEIGHTS c)) co18 = .ok v ∧
      I32.asU8 (fix_to_i32 v FIX18) = Spec.cbPlane420 c.std im x y := by
  obtain ⟨v, h1, h2, h3, h4⟩ := cb420_ok c (sum4_range im.r x y) (sum4_range im.g x y)
    (sum4_range im.b x y)
  exact ⟨v, h1, by rw [h2, asU8_eq h3 h4]; rfl⟩

theorem cr420_px (c : Colorimetry) (im : Spec.RgbImage) (x y : Nat) :
    ∃ v, affine_transform (Spec.sum4 im.r x y) (Spec.sum4 im.g x y) (Spec.sum4 im.b x y)
        (yb (FORWARD_WEIGHTS c)) (FORWARD_WEIGHTS c).zg (zb (FORWARD_WEIGHTS c)) co18 = .ok v ∧
      I32.asU8 (fix_to_i32 v FIX18) = Spec.crPlane420 c.std im x y := by
  obtain ⟨v, h1, h2, h3, h4⟩ := cr420_ok c (sum4_range im.r x y) (sum4_range im.g x y)
    (sum4_range im.b x y)
  exact ⟨v, h1, by rw [h2, asU8_eq h3 h4]; rfl⟩

theorem sum_ok (p : Spec.Plane) (x y : Nat) :
    I32.add (val (p (2 * x) (2 * y))) (val (p (2 * x + 1) (2 * y))) =
      .ok (val (p (2 * x) (2 * y)) + val (p (2 * x + 1) (2 * y))) ∧
    I32.add (val (p (2 * x) (2 * y + 1))) (val (p (2 * x + 1) (2 * y + 1))) =
      .ok (val (p (2 * x) (2 * y + 1)) + val (p (2 * x + 1) (2 * y + 1))) ∧
    I32.add (val (p (2 * x) (2 * y)) + val (p (2 * x + 1) (2 * y)))
      (val (p (2 * x) (2 * y + 1)) + val (p (2 * x + 1) (2 * y + 1))) =
      .ok (Spec.sum4 p x y) := by
  have h1 := val_range (p (2 * x) (2 * y))
  have h2 := val_range (p (2 * x + 1) (2 * y))
  have h3 := val_range (p (2 * x) (2 * y + 1))
  have h4 := val_range (p (2 * x + 1) (2 * y + 1))
  refine ⟨?_, ?_, ?_⟩
  · rw [I32.add, I32.chk_ok (by omega) (by omega)]
  · rw [I32.add, I32.chk_ok (by omega) (by omega)]
  · rw [I32.add, I32.chk_ok (by omega) (by omega), Spec.sum4]
    congr 1; omega

theorem co18_ok : I32.sub FIX18_HALF 1 = .ok (FIX18_HALF - 1) ∧
    I32.add FIX18_C_HALF (FIX18_HALF - 1) = .ok co18 := ⟨rfl, rfl⟩
theorem co16_ok : I32.sub FIX16_HALF 1 = .ok (FIX16_HALF - 1) ∧
    I32.add FIX16_C_HALF (FIX16_HALF - 1) = .ok co16 := ⟨rfl, rfl⟩

/-- Writes of the 4:4:4 encoder. -/
def G444 (s : Spec.Std) (im : Spec.RgbImage) (w h ys us vs : Nat) (yp up vp : Dst) (p : Write) :
    Prop :=
  Rect yp ys w h (Spec.lumaPlane s im) p ∨ Rect up us w h (Spec.cbPlane s im) p ∨
    Rect vp vs w h (Spec.crPlane s im) p

theorem rgb_to_i444_emits (s : Sampler) (c : Colorimetry) {w h ss ys us vs : Nat} {src : Buf}
    {yp up vp : Dst}
    (hs : ∀ y, y < h → ∀ x, x < w → ss * y + s.pf.depth * x + s.pf.depth ≤ src.len)
    (hy : ∀ y, y < h → ∀ x, x < w → ys * y + x < yp.len)
    (hu : ∀ y, y < h → ∀ x, x < w → us * y + x < up.len)
    (hv : ∀ y, y < h → ∀ x, x < w → vs * y + x < vp.len) :
    Emits (rgb_to_i444 exactIx s s.pf.depth c w h ss src ys us vs yp up vp) ()
      (G444 c.std (srcImg s src ss) w h ys us vs yp up vp) := by
  unfold rgb_to_i444
  simp only [derived_ok, co16_ok, K.liftM_eq, K.lift_ok, pure_bind, wg_eq]
  refine (Emits.forK fun y hyh => Emits.forK fun x hxw =>
    (?_ : Emits _ () (fun p =>
      p = ⟨yp.plane, yp.off + (ys * y + x), Spec.lumaPlane c.std (srcImg s src ss) x y⟩ ∨
      p = ⟨up.plane, up.off + (us * y + x), Spec.cbPlane c.std (srcImg s src ss) x y⟩ ∨
      p = ⟨vp.plane, vp.off + (vs * y + x), Spec.crPlane c.std (srcImg s src ss) x y⟩))).congr ?_
  · obtain ⟨l, hl, el⟩ := luma_px c (srcImg s src ss) x y
    obtain ⟨u, hu', eu⟩ := cb_px c (srcImg s src ss) x y
    obtain ⟨v, hv', ev⟩ := cr_px c (srcImg s src ss) x y
    simp only [unpack3_ok (hs y hyh x hxw), pure_bind, hl, hu', hv', K.lift_ok, el, eu, ev,
      Nat.one_mul]
    exact (Emits.wr (hy y hyh x hxw)).seq ((Emits.wr (hu y hyh x hxw)).seq
      (Emits.wr (hv y hyh x hxw)))
  · intro p
    constructor
    · rintro ⟨y, hy, x, hx, h | h | h⟩
      · exact .inl ⟨y, hy, x, hx, h⟩
      · exact .inr (.inl ⟨y, hy, x, hx, h⟩)
      · exact .inr (.inr ⟨y, hy, x, hx, h⟩)
    · rintro (⟨y, hy, x, hx, h⟩ | ⟨y, hy, x, hx, h⟩ | ⟨y, hy, x, hx, h⟩)
      · exact ⟨y, hy, x, hx, .inl h⟩
      · exact ⟨y, hy, x, hx, .inr (.inl h)⟩
      · exact ⟨y, hy, x, hx, .inr (.inr h)⟩

/-- Writes of the 4:2:0 planar encoder. -/
def G420 (s : Spec.Std) (im : Spec.RgbImage) (w h ys us vs : Nat) (yp up vp : Dst) (p : Write) :
    Prop :=
  Rect yp ys w h (Spec.lumaPlane s im) p ∨ Rect up us (w / 2) (h / 2) (Spec.cbPlane420 s im) p ∨
    Rect vp vs (w / 2) (h / 2) (Spec.crPlane420 s im) p

/-- Writes of the 4:2:0 semi-planar encoder. -/
def GNv12 (s : Spec.Std) (im : Spec.RgbImage) (w h ys uvs : Nat) (yp uvp : Dst) (p : Write) :
    Prop :=
  Rect yp ys w h (Spec.lumaPlane s im) p ∨
    Rect uvp uvs w (h / 2) (Spec.interleave (Spec.cbPlane420 s im) (Spec.crPlane420 s im)) p

theorem pack2_emits {d : Dst} {i : Nat} {x y : Int} (h : i + 1 < d.len) :
    Emits (pack_i32x2 d i x y) () (fun p => p = ⟨d.plane, d.off + i, I32.asU8 x⟩ ∨
      p = ⟨d.plane, d.off + (i + 1), I32.asU8 y⟩) :=
  (Emits.wr (by omega)).seq (Emits.wr h)

theorem rgb_to_i420_emits (s : Sampler) (c : Colorimetry) {w h ss ys us vs : Nat} {src : Buf}
    {yp up vp : Dst} (hw : w % 2 = 0) (hh : h % 2 = 0)
    (hs : ∀ y, y < h → ∀ x, x < w → ss * y + s.pf.depth * x + s.pf.depth ≤ src.len)
    (hy : ∀ y, y < h → ∀ x, x < w → ys * y + x < yp.len)
    (hu : ∀ y, y < h / 2 → ∀ x, x < w / 2 → us * y + x < up.len)
    (hv : ∀ y, y < h / 2 → ∀ x, x < w / 2 → vs * y + x < vp.len) :
    Emits (rgb_to_i420 exactIx s s.pf.depth c w h ss src ys us vs yp up vp) ()
      (G420 c.std (srcImg s src ss) w h ys us vs yp up vp) := by
  unfold rgb_to_i420
  simp only [derived_ok, co18_ok, K.liftM_eq, K.lift_ok, pure_bind, wg_eq]
  generalize him : srcImg s src ss = im
  refine (Emits.forK fun y hyh => Emits.forK fun x hxw =>
    (?_ : Emits _ () (fun p =>
      (p = cell yp ys (Spec.lumaPlane c.std im) (2 * x) (2 * y) ∨
       p = cell yp ys (Spec.lumaPlane c.std im) (2 * x + 1) (2 * y)) ∨
      (p = cell yp ys (Spec.lumaPlane c.std im) (2 * x) (2 * y + 1) ∨
       p = cell yp ys (Spec.lumaPlane c.std im) (2 * x + 1) (2 * y + 1)) ∨
      p = cell up us (Spec.cbPlane420 c.std im) x y ∨
      p = cell vp vs (Spec.crPlane420 c.std im) x y))).congr ?_
  · obtain ⟨l0, hl0, el0⟩ := luma_px c im (2 * x) (2 * y)
    obtain ⟨l1, hl1, el1⟩ := luma_px c im (2 * x + 1) (2 * y)
    obtain ⟨l2, hl2, el2⟩ := luma_px c im (2 * x) (2 * y + 1)
    obtain ⟨l3, hl3, el3⟩ := luma_px c im (2 * x + 1) (2 * y + 1)
    obtain ⟨u, hu', eu⟩ := cb420_px c im x y
    obtain ⟨v, hv', ev⟩ := cr420_px c im x y
    have s0 := unpack3_ok (hs (2 * y) (by omega) (2 * x) (by omega))
    have s1 := unpack3_ok (hs (2 * y) (by omega) (2 * x + 1) (by omega))
    have s2 := unpack3_ok (hs (2 * y + 1) (by omega) (2 * x) (by omega))
    have s3 := unpack3_ok (hs (2 * y + 1) (by omega) (2 * x + 1) (by omega))
    rw [him] at s0 s1 s2 s3
    simp only [s0, s1, s2, s3, pure_bind, hl0, hl1, hl2, hl3, sum_ok im.r x y, sum_ok im.g x y,
      sum_ok im.b x y, hu', hv', K.lift_ok, eu, ev, Nat.one_mul]
    have p0 := pack2_emits (d := yp) (i := ys * (2 * y) + 2 * x) (x := fix_to_i32 l0 FIX16)
      (y := fix_to_i32 l1 FIX16) (hy (2 * y) (by omega) (2 * x + 1) (by omega))
    have p1 := pack2_emits (d := yp) (i := ys * (2 * y + 1) + 2 * x) (x := fix_to_i32 l2 FIX16)
      (y := fix_to_i32 l3 FIX16) (hy (2 * y + 1) (by omega) (2 * x + 1) (by omega))
    rw [el0, el1] at p0
    rw [el2, el3] at p1
    exact p0.seq (p1.seq ((Emits.wr (hu y hyh x hxw)).seq (Emits.wr (hv y hyh x hxw))))
  · intro p
    unfold G420
    rw [rect_blocks hw hh]
    constructor
    · rintro ⟨y, hy, x, hx, h | h | h | h⟩
      · exact .inl ⟨y, hy, x, hx, .inl h⟩
      · exact .inl ⟨y, hy, x, hx, .inr h⟩
      · exact .inr (.inl ⟨y, hy, x, hx, h⟩)
      · exact .inr (.inr ⟨y, hy, x, hx, h⟩)
    · rintro (⟨y, hy, x, hx, h | h⟩ | ⟨y, hy, x, hx, h⟩ | ⟨y, hy, x, hx, h⟩)
      · exact ⟨y, hy, x, hx, .inl h⟩
      · exact ⟨y, hy, x, hx, .inr (.inl h)⟩
      · exact ⟨y, hy, x, hx, .inr (.inr (.inl h))⟩
      · exact ⟨y, hy, x, hx, .inr (.inr (.inr h))⟩

theorem interleave_even (u v : Spec.Plane) (x y : Nat) : Spec.interleave u v (2 * x) y = u x y := by
  rw [Spec.interleave, if_pos (by omega), show 2 * x / 2 = x by omega]

theorem interleave_odd (u v : Spec.Plane) (x y : Nat) :
    Spec.interleave u v (2 * x + 1) y = v x y := by
  rw [Spec.interleave, if_neg (by omega), show (2 * x + 1) / 2 = x by omega]

theorem rgb_to_nv12_emits (s : Sampler) (c : Colorimetry) {w h ss ys uvs : Nat} {src : Buf}
    {yp uvp : Dst} (hw : w % 2 = 0) (hh : h % 2 = 0)
    (hs : ∀ y, y < h → ∀ x, x < w → ss * y + s.pf.depth * x + s.pf.depth ≤ src.len)
    (hy : ∀ y, y < h → ∀ x, x < w → ys * y + x < yp.len)
    (huv : ∀ y, y < h / 2 → ∀ x, x < w → uvs * y + x < uvp.len) :
    Emits (rgb_to_nv12 exactIx s s.pf.depth c w h ss src ys uvs yp uvp) ()
      (GNv12 c.std (srcImg s src ss) w h ys uvs yp uvp) := by
  unfold rgb_to_nv12
  simp only [derived_ok, co18_ok, K.liftM_eq, K.lift_ok, pure_bind, wg_eq]
  generalize him : srcImg s src ss = im
  refine (Emits.forK fun y hyh => Emits.forK fun x hxw =>
    (?_ : Emits _ () (fun p =>
      (p = cell yp ys (Spec.lumaPlane c.std im) (2 * x) (2 * y) ∨
       p = cell yp ys (Spec.lumaPlane c.std im) (2 * x + 1) (2 * y)) ∨
      (p = cell yp ys (Spec.lumaPlane c.std im) (2 * x) (2 * y + 1) ∨
       p = cell yp ys (Spec.lumaPlane c.std im) (2 * x + 1) (2 * y + 1)) ∨
      (p = ⟨uvp.plane, uvp.off + (uvs * y + 2 * x), Spec.cbPlane420 c.std im x y⟩ ∨
       p = ⟨uvp.plane, uvp.off + (uvs * y + (2 * x + 1)), Spec.crPlane420 c.std im x y⟩)))).congr ?_
  · obtain ⟨l0, hl0, el0⟩ := luma_px c im (2 * x) (2 * y)
    obtain ⟨l1, hl1, el1⟩ := luma_px c im (2 * x + 1) (2 * y)
    obtain ⟨l2, hl2, el2⟩ := luma_px c im (2 * x) (2 * y + 1)
    obtain ⟨l3, hl3, el3⟩ := luma_px c im (2 * x + 1) (2 * y + 1)
    obtain ⟨u, hu', eu⟩ := cb420_px c im x y
    obtain ⟨v, hv', ev⟩ := cr420_px c im x y
    have s0 := unpack3_ok (hs (2 * y) (by omega) (2 * x) (by omega))
    have s1 := unpack3_ok (hs (2 * y) (by omega) (2 * x + 1) (by omega))
    have s2 := unpack3_ok (hs (2 * y + 1) (by omega) (2 * x) (by omega))
    have s3 := unpack3_ok (hs (2 * y + 1) (by omega) (2 * x + 1) (by omega))
    rw [him] at s0 s1 s2 s3
    simp only [s0, s1, s2, s3, pure_bind, hl0, hl1, hl2, hl3, sum_ok im.r x y, sum_ok im.g x y,
      sum_ok im.b x y, hu', hv', K.lift_ok, Nat.one_mul]
    have p0 := pack2_emits (d := yp) (i := ys * (2 * y) + 2 * x) (x := fix_to_i32 l0 FIX16)
      (y := fix_to_i32 l1 FIX16) (hy (2 * y) (by omega) (2 * x + 1) (by omega))
    have p1 := pack2_emits (d := yp) (i := ys * (2 * y + 1) + 2 * x) (x := fix_to_i32 l2 FIX16)
      (y := fix_to_i32 l3 FIX16) (hy (2 * y + 1) (by omega) (2 * x + 1) (by omega))
    have p2 := pack2_emits (d := uvp) (i := uvs * y + 2 * x) (x := fix_to_i32 u FIX18)
      (y := fix_to_i32 v FIX18) (huv y hyh (2 * x + 1) (by omega))
    rw [el0, el1] at p0
    rw [el2, el3] at p1
    rw [eu, ev] at p2
    exact p0.seq (p1.seq p2)
  · intro p
    unfold GNv12
    rw [rect_blocks hw hh, rect_pairs hw]
    simp only [cell, interleave_even, interleave_odd]
    constructor
    · rintro ⟨y, hy, x, hx, h | h | h⟩
      · exact .inl ⟨y, hy, x, hx, .inl h⟩
      · exact .inl ⟨y, hy, x, hx, .inr h⟩
      · exact .inr ⟨y, hy, x, hx, h⟩
    · rintro (⟨y, hy, x, hx, h | h⟩ | ⟨y, hy, x, hx, h⟩)
      · exact ⟨y, hy, x, hx, .inl h⟩
      · exact ⟨y, hy, x, hx, .inr (.inl h)⟩
      · exact ⟨y, hy, x, hx, .inr (.inr h)⟩

end X86
end Verif
