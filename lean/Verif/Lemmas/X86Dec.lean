import Verif.Lemmas.X86Yuv
/-! # Scalar decoder kernels compute the specified images -/

namespace Verif

open Spec (byte val)

/-- Destination format of a 4-byte decoder. -/
def outPf (reversed : Bool) : PixelFormat := if reversed then .rgba else .bgra

namespace X86

/-- Writes of a decoder to format `pf`. -/
def GDec (pf : PixelFormat) (s : Spec.Std) (im : Spec.YuvImage) (w h ds : Nat) (d : Dst) :
    Write → Prop :=
  Rect d ds (Spec.bpp pf * w) h (Spec.rgbRow pf (Spec.decoded s im))

/-- Bytes of a decoded pixel. -/
def decBytes (pf : PixelFormat) (s : Spec.Std) (im : Spec.YuvImage) (x y : Nat) : List UInt8 :=
  Spec.pixelBytes pf ((Spec.decoded s im).r x y) ((Spec.decoded s im).g x y)
    ((Spec.decoded s im).b x y)

theorem pixelBytes_length (pf : PixelFormat) (r g b : UInt8) :
    (Spec.pixelBytes pf r g b).length = Spec.bpp pf := by
  cases pf <;> rfl

theorem rgbRow_px {pf : PixelFormat} (hp : 0 < Spec.bpp pf) (im : Spec.RgbImage) (x y k : Nat)
    (hk : k < Spec.bpp pf) :
    Spec.rgbRow pf im (Spec.bpp pf * x + k) y =
      (Spec.pixelBytes pf (im.r x y) (im.g x y) (im.b x y)).getD k 0 := by
  unfold Spec.rgbRow
  rw [Nat.mul_add_div hp, Nat.div_eq_of_lt hk, Nat.add_zero, Nat.mul_add_mod, Nat.mod_eq_of_lt hk]

theorem rect_rgb {pf : PixelFormat} (hp : 0 < Spec.bpp pf) {im : Spec.RgbImage} {d : Dst}
    {stride w h : Nat} (p : Write) :
    Rect d stride (Spec.bpp pf * w) h (Spec.rgbRow pf im) p ↔ ∃ y, y < h ∧ ∃ x, x < w ∧
      Bytes d (stride * y + Spec.bpp pf * x)
        (Spec.pixelBytes pf (im.r x y) (im.g x y) (im.b x y)) p :=
  rect_pixels hp (fun _ _ => pixelBytes_length _ _ _ _) (fun x y k hk => rgbRow_px hp im x y k hk) p

/-- Packed pixels of an even-sized image as 2x2 blocks. -/
theorem rgb_blocks {w h : Nat} (hw : w % 2 = 0) (hh : h % 2 = 0) (P : Nat → Nat → Prop) :
    (∃ y, y < h ∧ ∃ x, x < w ∧ P x y) ↔ ∃ y, y < h / 2 ∧ ∃ x, x < w / 2 ∧
      ((P (2 * x) (2 * y) ∨ P (2 * x + 1) (2 * y)) ∨
        (P (2 * x) (2 * y + 1) ∨ P (2 * x + 1) (2 * y + 1))) := by
  rw [exists_even hh]
  constructor
  · rintro ⟨y, hy, h | h⟩
    · rw [exists_even hw] at h
      obtain ⟨x, hx, h⟩ := h
      exact ⟨y, hy, x, hx, .inl h⟩
    · rw [exists_even hw] at h
      obtain ⟨x, hx, h⟩ := h
      exact ⟨y, hy, x, hx, .inr h⟩
  · rintro ⟨y, hy, x, hx, h | h⟩
    · exact ⟨y, hy, .inl ((exists_even hw _).2 ⟨x, hx, h⟩)⟩
    · exact ⟨y, hy, .inr ((exists_even hw _).2 ⟨x, hx, h⟩)⟩

theorem put_bgra_emits (c : Colorimetry) (rev : Bool) {d : Dst} {i : Nat} (h : i + 3 < d.len)
    (im : Spec.YuvImage) (x y : Nat) {l cb cr : Int} (hl : l = val (im.y x y))
    (hcb : cb = val (im.cb x y)) (hcr : cr = val (im.cr x y)) :
    Emits (put_bgra (BACKWARD_WEIGHTS c) rev d i l (tr (BACKWARD_WEIGHTS c) cr)
      (tg (BACKWARD_WEIGHTS c) cb cr) (tb (BACKWARD_WEIGHTS c) cb)) ()
      (Bytes d i (decBytes (outPf rev) c.std im x y)) := by
  subst hl hcb hcr
  unfold put_bgra
  simp only [decode_px_ok c (val_range _) (val_range _) (val_range _), K.liftM_eq, K.lift_ok,
    pure_bind]
  cases rev
  · simp only [pack_ui8x3, decBytes, outPf, Spec.pixelBytes, Bool.false_eq_true, if_false]
    refine ((Emits.wr (by omega)).seq ((Emits.wr (by omega)).seq
      ((Emits.wr (by omega)).seq (Emits.wr (by omega))))).congr fun p => ?_
    rw [Bytes_four]
    constructor
    · rintro (h | h | h | h) <;> simp [h, Spec.decoded, DEFAULT_ALPHA]
    · rintro (h | h | h | h) <;> simp [h, Spec.decoded, DEFAULT_ALPHA]
  · simp only [pack_ui8x3, decBytes, outPf, Spec.pixelBytes, if_true]
    refine ((Emits.wr (by omega)).seq ((Emits.wr (by omega)).seq
      ((Emits.wr (by omega)).seq (Emits.wr (by omega))))).congr fun p => ?_
    rw [Bytes_four]
    constructor
    · rintro (h | h | h | h) <;> simp [h, Spec.decoded, DEFAULT_ALPHA]
    · rintro (h | h | h | h) <;> simp [h, Spec.decoded, DEFAULT_ALPHA]

theorem put_rgb_emits (c : Colorimetry) {d : Dst} {i : Nat} (h : i + 2 < d.len)
    (im : Spec.YuvImage) (x y : Nat) {l cb cr : Int} (hl : l = val (im.y x y))
    (hcb : cb = val (im.cb x y)) (hcr : cr = val (im.cr x y)) :
    Emits (put_rgb (BACKWARD_WEIGHTS c) d i l (tr (BACKWARD_WEIGHTS c) cr)
      (tg (BACKWARD_WEIGHTS c) cb cr) (tb (BACKWARD_WEIGHTS c) cb)) ()
      (Bytes d i (decBytes .rgb c.std im x y)) := by
  subst hl hcb hcr
  unfold put_rgb
  simp only [decode_px_ok c (val_range _) (val_range _) (val_range _), K.liftM_eq, K.lift_ok,
    pure_bind]
  simp only [pack_rgb, decBytes, Spec.pixelBytes]
  refine ((Emits.wr (by omega)).seq ((Emits.wr (by omega)).seq (Emits.wr (by omega)))).congr
    fun p => ?_
  rw [Bytes_three]
  constructor
  · rintro (h | h | h) <;> simp [h, Spec.decoded]
  · rintro (h | h | h) <;> simp [h, Spec.decoded]

theorem rdI_ok {s : Buf} {i : Nat} (h : i < s.len) : rdI s i = pure (val (s.bytes i)) := by
  rw [rdI, rd_eq h]; rfl

theorem unpack2_ok {s : Buf} {i : Nat} (h : i + 1 < s.len) :
    unpack_ui8x2_i32 s i = pure (val (s.bytes i), val (s.bytes (i + 1))) := by
  rw [unpack_ui8x2_i32, rdI_ok (by omega), rdI_ok h]; rfl

/-- The 4:4:4 image read by a decoder. -/
abbrev img444 (yb ub vb : Buf) (ys us vs : Nat) : Spec.YuvImage :=
  Spec.i444Image (Spec.plane yb.bytes ys) (Spec.plane ub.bytes us) (Spec.plane vb.bytes vs)
/-- The 4:2:0 planar image read by a decoder. -/
abbrev img420 (yb ub vb : Buf) (ys us vs : Nat) : Spec.YuvImage :=
  Spec.i420Image (Spec.plane yb.bytes ys) (Spec.plane ub.bytes us) (Spec.plane vb.bytes vs)
/-- The 4:2:0 semi-planar image read by a decoder. -/
abbrev imgNv12 (yb uvb : Buf) (ys uvs : Nat) : Spec.YuvImage :=
  Spec.nv12Image (Spec.plane yb.bytes ys) (Spec.plane uvb.bytes uvs)

theorem outPf_bpp (rev : Bool) : Spec.bpp (outPf rev) = 4 := by cases rev <;> rfl

theorem i444_to_bgra_emits (c : Colorimetry) (rev : Bool) {w h ys us vs ds : Nat}
    {yb ub vb : Buf} {d : Dst}
    (hy : ∀ y, y < h → ∀ x, x < w → ys * y + x < yb.len)
    (hu : ∀ y, y < h → ∀ x, x < w → us * y + x < ub.len)
    (hv : ∀ y, y < h → ∀ x, x < w → vs * y + x < vb.len)
    (hd : ∀ y, y < h → ∀ x, x < w → ds * y + 4 * x + 3 < d.len) :
    Emits (i444_to_bgra exactIx c rev w h ys us vs yb ub vb ds d) ()
      (GDec (outPf rev) c.std (img444 yb ub vb ys us vs) w h ds d) := by
  unfold i444_to_bgra
  simp only [wg_eq, K.liftM_eq, K.lift_ok, pure_bind]
  refine (Emits.forK fun y hyh => Emits.forK fun x hxw =>
    (?_ : Emits _ () (Bytes d (ds * y + 4 * x)
      (decBytes (outPf rev) c.std (img444 yb ub vb ys us vs) x y)))).congr ?_
  · simp only [Nat.one_mul, rdI_ok (hy y hyh x hxw), rdI_ok (hu y hyh x hxw),
      rdI_ok (hv y hyh x hxw), pure_bind, chroma_terms_ok c (val_range _) (val_range _),
      K.liftM_eq, K.lift_ok]
    exact put_bgra_emits c rev (hd y hyh x hxw) _ x y rfl rfl rfl
  · intro p
    unfold GDec
    rw [rect_rgb (by rw [outPf_bpp]; omega), outPf_bpp]
    rfl

theorem i420_to_bgra_emits (c : Colorimetry) (rev : Bool) {w h ys us vs ds : Nat}
    {yb ub vb : Buf} {d : Dst} (hw : w % 2 = 0) (hh : h % 2 = 0)
    (hy : ∀ y, y < h → ∀ x, x < w → ys * y + x < yb.len)
    (hu : ∀ y, y < h / 2 → ∀ x, x < w / 2 → us * y + x < ub.len)
    (hv : ∀ y, y < h / 2 → ∀ x, x < w / 2 → vs * y + x < vb.len)
    (hd : ∀ y, y < h → ∀ x, x < w → ds * y + 4 * x + 3 < d.len) :
    Emits (i420_to_bgra exactIx c rev w h ys us vs yb ub vb ds d) ()
      (GDec (outPf rev) c.std (img420 yb ub vb ys us vs) w h ds d) := by
  unfold i420_to_bgra
  simp only [wg_eq, K.liftM_eq, K.lift_ok, pure_bind]
  generalize him : img420 yb ub vb ys us vs = im
  refine (Emits.forK fun y hyh => Emits.forK fun x hxw =>
    (?_ : Emits _ () (fun p =>
      (Bytes d (ds * (2 * y) + 4 * (2 * x)) (decBytes (outPf rev) c.std im (2 * x) (2 * y)) p ∨
      Bytes d (ds * (2 * y) + 4 * (2 * x + 1))
        (decBytes (outPf rev) c.std im (2 * x + 1) (2 * y)) p ∨
      Bytes d (ds * (2 * y + 1) + 4 * (2 * x))
        (decBytes (outPf rev) c.std im (2 * x) (2 * y + 1)) p ∨
      Bytes d (ds * (2 * y + 1) + 4 * (2 * x + 1))
        (decBytes (outPf rev) c.std im (2 * x + 1) (2 * y + 1)) p)))).congr ?_
  · have y0 := unpack2_ok (s := yb) (i := ys * (2 * y) + 2 * x)
      (hy (2 * y) (by omega) (2 * x + 1) (by omega))
    have y1 := unpack2_ok (s := yb) (i := ys * (2 * y + 1) + 2 * x)
      (hy (2 * y + 1) (by omega) (2 * x + 1) (by omega))
    simp only [Nat.one_mul, rdI_ok (hu y hyh x hxw), rdI_ok (hv y hyh x hxw), y0, y1, pure_bind,
      chroma_terms_ok c (val_range _) (val_range _), K.liftM_eq, K.lift_ok]
    subst him
    have d0 : ∀ k, (2 * k) / 2 = k := by omega
    have d1 : ∀ k, (2 * k + 1) / 2 = k := by omega
    refine (put_bgra_emits c rev (hd (2 * y) (by omega) (2 * x) (by omega)) _ (2 * x) (2 * y)
        ?_ ?_ ?_).seq
      ((put_bgra_emits c rev (hd (2 * y) (by omega) (2 * x + 1) (by omega)) _ (2 * x + 1) (2 * y)
        ?_ ?_ ?_).seq
      ((put_bgra_emits c rev (hd (2 * y + 1) (by omega) (2 * x) (by omega)) _ (2 * x) (2 * y + 1)
        ?_ ?_ ?_).seq
      (put_bgra_emits c rev (hd (2 * y + 1) (by omega) (2 * x + 1) (by omega)) _ (2 * x + 1)
        (2 * y + 1) ?_ ?_ ?_))) <;>
    simp only [img420, Spec.i420Image, Spec.plane, d0, d1, Nat.add_assoc]
  · intro p
    unfold GDec
    rw [rect_rgb (by rw [outPf_bpp]; omega), outPf_bpp, rgb_blocks hw hh]
    simp only [or_assoc]
    rfl

theorem nv12_to_bgra_emits (c : Colorimetry) (rev : Bool) {w h ys uvs ds : Nat}
    {yb uvb : Buf} {d : Dst} (hw : w % 2 = 0) (hh : h % 2 = 0)
    (hy : ∀ y, y < h → ∀ x, x < w → ys * y + x < yb.len)
    (huv : ∀ y, y < h / 2 → ∀ x, x < w → uvs * y + x < uvb.len)
    (hd : ∀ y, y < h → ∀ x, x < w → ds * y + 4 * x + 3 < d.len) :
    Emits (nv12_to_bgra exactIx c rev w h ys uvs yb uvb ds d) ()
      (GDec (outPf rev) c.std (imgNv12 yb uvb ys uvs) w h ds d) := by
  unfold nv12_to_bgra
  simp only [wg_eq, K.liftM_eq, K.lift_ok, pure_bind]
  generalize him : imgNv12 yb uvb ys uvs = im
  refine (Emits.forK fun y hyh => Emits.forK fun x hxw =>
    (?_ : Emits _ () (fun p =>
      (Bytes d (ds * (2 * y) + 4 * (2 * x)) (decBytes (outPf rev) c.std im (2 * x) (2 * y)) p ∨
      Bytes d (ds * (2 * y) + 4 * (2 * x + 1))
        (decBytes (outPf rev) c.std im (2 * x + 1) (2 * y)) p ∨
      Bytes d (ds * (2 * y + 1) + 4 * (2 * x))
        (decBytes (outPf rev) c.std im (2 * x) (2 * y + 1)) p ∨
      Bytes d (ds * (2 * y + 1) + 4 * (2 * x + 1))
        (decBytes (outPf rev) c.std im (2 * x + 1) (2 * y + 1)) p)))).congr ?_
  · have y0 := unpack2_ok (s := yb) (i := ys * (2 * y) + 2 * x)
      (hy (2 * y) (by omega) (2 * x + 1) (by omega))
    have y1 := unpack2_ok (s := yb) (i := ys * (2 * y + 1) + 2 * x)
      (hy (2 * y + 1) (by omega) (2 * x + 1) (by omega))
    have uv := unpack2_ok (s := uvb) (i := uvs * y + 2 * x)
      (huv y hyh (2 * x + 1) (by omega))
    simp only [Nat.one_mul, uv, y0, y1, pure_bind,
      chroma_terms_ok c (val_range _) (val_range _), K.liftM_eq, K.lift_ok]
    subst him
    have d0 : ∀ k, (2 * k) / 2 = k := by omega
    have d1 : ∀ k, (2 * k + 1) / 2 = k := by omega
    refine (put_bgra_emits c rev (hd (2 * y) (by omega) (2 * x) (by omega)) _ (2 * x) (2 * y)
        ?_ ?_ ?_).seq
      ((put_bgra_emits c rev (hd (2 * y) (by omega) (2 * x + 1) (by omega)) _ (2 * x + 1) (2 * y)
        ?_ ?_ ?_).seq
      ((put_bgra_emits c rev (hd (2 * y + 1) (by omega) (2 * x) (by omega)) _ (2 * x) (2 * y + 1)
        ?_ ?_ ?_).seq
      (put_bgra_emits c rev (hd (2 * y + 1) (by omega) (2 * x + 1) (by omega)) _ (2 * x + 1)
        (2 * y + 1) ?_ ?_ ?_))) <;>
    simp only [imgNv12, Spec.nv12Image, Spec.plane, d0, d1, Nat.add_assoc]
  · intro p
    unfold GDec
    rw [rect_rgb (by rw [outPf_bpp]; omega), outPf_bpp, rgb_blocks hw hh]
    simp only [or_assoc]
    rfl

theorem nv12_to_rgb_emits (c : Colorimetry) {w h ys uvs ds : Nat}
    {yb uvb : Buf} {d : Dst} (hw : w % 2 = 0) (hh : h % 2 = 0)
    (hy : ∀ y, y < h → ∀ x, x < w → ys * y + x < yb.len)
    (huv : ∀ y, y < h / 2 → ∀ x, x < w → uvs * y + x < uvb.len)
    (hd : ∀ y, y < h → ∀ x, x < w → ds * y + 3 * x + 2 < d.len) :
    Emits (nv12_to_rgb exactIx c w h ys uvs yb uvb ds d) ()
      (GDec .rgb c.std (imgNv12 yb uvb ys uvs) w h ds d) := by
  unfold nv12_to_rgb
  simp only [wg_eq, K.liftM_eq, K.lift_ok, pure_bind]
  generalize him : imgNv12 yb uvb ys uvs = im
  refine (Emits.forK fun y hyh => Emits.forK fun x hxw =>
    (?_ : Emits _ () (fun p =>
      (Bytes d (ds * (2 * y) + 3 * (2 * x)) (decBytes .rgb c.std im (2 * x) (2 * y)) p ∨
      Bytes d (ds * (2 * y) + 3 * (2 * x + 1))
        (decBytes .rgb c.std im (2 * x + 1) (2 * y)) p ∨
      Bytes d (ds * (2 * y + 1) + 3 * (2 * x))
        (decBytes .rgb c.std im (2 * x) (2 * y + 1)) p ∨
      Bytes d (ds * (2 * y + 1) + 3 * (2 * x + 1))
        (decBytes .rgb c.std im (2 * x + 1) (2 * y + 1)) p)))).congr ?_
  · have y0 := unpack2_ok (s := yb) (i := ys * (2 * y) + 2 * x)
      (hy (2 * y) (by omega) (2 * x + 1) (by omega))
    have y1 := unpack2_ok (s := yb) (i := ys * (2 * y + 1) + 2 * x)
      (hy (2 * y + 1) (by omega) (2 * x + 1) (by omega))
    have uv := unpack2_ok (s := uvb) (i := uvs * y + 2 * x)
      (huv y hyh (2 * x + 1) (by omega))
    simp only [Nat.one_mul, uv, y0, y1, pure_bind,
      chroma_terms_ok c (val_range _) (val_range _), K.liftM_eq, K.lift_ok]
    subst him
    have d0 : ∀ k, (2 * k) / 2 = k := by omega
    have d1 : ∀ k, (2 * k + 1) / 2 = k := by omega
    refine (put_rgb_emits c (hd (2 * y) (by omega) (2 * x) (by omega)) _ (2 * x) (2 * y)
        ?_ ?_ ?_).seq
      ((put_rgb_emits c (hd (2 * y) (by omega) (2 * x + 1) (by omega)) _ (2 * x + 1) (2 * y)
        ?_ ?_ ?_).seq
      ((put_rgb_emits c (hd (2 * y + 1) (by omega) (2 * x) (by omega)) _ (2 * x) (2 * y + 1)
        ?_ ?_ ?_).seq
      (put_rgb_emits c (hd (2 * y + 1) (by omega) (2 * x + 1) (by omega)) _ (2 * x + 1)
        (2 * y + 1) ?_ ?_ ?_))) <;>
    simp only [imgNv12, Spec.nv12Image, Spec.plane, d0, d1, Nat.add_assoc]
  · intro p
    unfold GDec
    rw [rect_rgb (by decide)]
    simp only [Spec.bpp]
    rw [rgb_blocks hw hh]
    simp only [or_assoc]
    rfl

end X86
end Verif
