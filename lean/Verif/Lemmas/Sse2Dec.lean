import Verif.Model.Sse2
import Verif.Lemmas.SimdOut
import Verif.Lemmas.Sse2Enc
/-! # SSE2 decoders -/

namespace Verif.Sse2

open Spec (byte val PlaneFits)
open Verif.Simd

theorem pack_i16x3_8x_emits (rev : Bool) {d : Dst} {i : Nat} {red green blue : Reg}
    {R G B : Nat → UInt8} (hr : Px 8 red R) (hg : Px 8 green G) (hb : Px 8 blue B)
    (hd : i + 32 ≤ d.len) :
    Emits (pack_i16x3_8x rev d i red green blue) () (Row d i 32 (pxBytes (outPf rev) R G B)) := by
  have h1 : Emits (store d i (packLo rev red green blue) 16) () _ :=
    store_row (by omega) fun j hj =>
      (packLo_byte rev hr hg hb (i := j) (by omega) (by omega)).trans
        (show _ = pxBytes (outPf rev) R G B j by congr 1; omega)
  have h2 : Emits (store d (i + 16) (packHi rev red green blue) 16) () _ :=
    store_row (by omega) fun j hj =>
      (packHi_byte rev hr hg hb (i := j) (by omega) (by omega)).trans
        (show _ = pxBytes (outPf rev) R G B (16 + j) by congr 1; omega)
  exact (h1.seq h2).congr fun p => (Row.split (a := 16) (b := 16) p).symm

/-- The three terms of eight pixels. -/
structure Terms (n : Nat) (c : Colorimetry) (sr sg sb : Reg) (U V : Nat → UInt8) : Prop where
  r : Lanes16 n sr (fun k => X86.tr (Verif.BACKWARD_WEIGHTS c) (val (V k)))
  g : Lanes16 n sg (fun k => X86.tg (Verif.BACKWARD_WEIGHTS c) (val (U k)) (val (V k)))
  b : Lanes16 n sb (fun k => X86.tb (Verif.BACKWARD_WEIGHTS c) (val (U k)))

theorem put_8x_emits (c : Colorimetry) (rev : Bool) {d : Dst} {i : Nat} {sr sg sb l : Reg}
    {Y U V : Nat → UInt8} (ht : Terms 8 c sr sg sb U V)
    (hl : Lanes16 8 l (fun k => val (Y k) * (Verif.BACKWARD_WEIGHTS c).xxym / 256))
    (hd : i + 32 ≤ d.len) :
    Emits (put_8x rev d i sr sg sb l) () (Row d i 32 (decRow (outPf rev) c.std Y U V)) :=
  pack_i16x3_8x_emits rev (red_px c ht.r hl) (green_px c ht.g hl) (blue_px c ht.b hl) hd

/-- Lanes duplicated. -/
theorem dup_lanes {a : Reg} {v : Nat → Int} (h : Lanes16 8 a v) :
    Lanes16 8 (i16_to_i16x2_8x a).1 (fun k => v (k / 2)) ∧
    Lanes16 8 (i16_to_i16x2_8x a).2 (fun k => v (4 + k / 2)) := by
  constructor <;> intro k hk
  · have e : w16 (i16_to_i16x2_8x a).1 k = w16 a (k / 2) := by interval_cases k <;> rfl
    rw [e]
    exact h _ (by omega)
  · have e : w16 (i16_to_i16x2_8x a).2 k = w16 a (4 + k / 2) := by interval_cases k <;> rfl
    rw [e]
    exact h _ (by omega)

theorem block_16x2_emits (c : Colorimetry) (rev : Bool) {cb cr : Reg} {U V : Nat → UInt8}
    {yb : Buf} {y0 y1 d00 d10 d01 d11 : Nat} {d : Dst} (hu : Hi 8 cb U) (hv : Hi 8 cr V)
    (hy0 : y0 + 16 ≤ yb.len) (hy1 : y1 + 16 ≤ yb.len) (h00 : d00 + 32 ≤ d.len)
    (h10 : d10 + 32 ≤ d.len) (h01 : d01 + 32 ≤ d.len) (h11 : d11 + 32 ≤ d.len) :
    Emits (block_16x2 (back c) rev cb cr yb (.ok y0) (.ok y1) d (.ok d00) (.ok d10) (.ok d01) (.ok d11)) () fun p =>
      Row d d00 32 (decRow (outPf rev) c.std (fun k => yb.bytes (y0 + k)) (fun k => U (k / 2))
        (fun k => V (k / 2))) p ∨
      Row d d10 32 (decRow (outPf rev) c.std (fun k => yb.bytes (y0 + (8 + k)))
        (fun k => U (4 + k / 2)) (fun k => V (4 + k / 2))) p ∨
      Row d d01 32 (decRow (outPf rev) c.std (fun k => yb.bytes (y1 + k)) (fun k => U (k / 2))
        (fun k => V (k / 2))) p ∨
      Row d d11 32 (decRow (outPf rev) c.std (fun k => yb.bytes (y1 + (8 + k)))
        (fun k => U (4 + k / 2)) (fun k => V (4 + k / 2))) p := by
  obtain ⟨tr, tg, tb⟩ := terms_lanes c hu hv
  unfold block_16x2
  simp only [K.liftM_eq, K.lift_ok, pure_bind]
  simp only [load_eq hy0, load_eq hy1, pure_bind]
  have lo := Terms.mk (dup_lanes tr).1 (dup_lanes tg).1 (dup_lanes tb).1
  have hi := Terms.mk (dup_lanes tr).2 (dup_lanes tg).2 (dup_lanes tb).2
  have l0 : ∀ o, Lanes16 8 (mulhi_epu16 (unpacklo_epi8 setzero
      (fun j => if j < 16 then yb.bytes (o + j) else 0)) (back c).xxym) _ := fun o =>
    luma_term c ((unpacklo_hi (n := 8) _ (by omega)).congr
      (v := fun k => yb.bytes (o + k)) fun k hk => by
        rw [if_pos (by omega)]; congr 1; omega)
  have l1 : ∀ o, Lanes16 8 (mulhi_epu16 (unpackhi_epi8 setzero
      (fun j => if j < 16 then yb.bytes (o + j) else 0)) (back c).xxym) _ := fun o =>
    luma_term c ((unpackhi_hi (n := 8) _ (by omega)).congr
      (v := fun k => yb.bytes (o + (8 + k))) fun k hk => by
        rw [if_pos (by omega)]; congr 1; omega)
  exact (put_8x_emits c rev lo (l0 y0) h00).seq ((put_8x_emits c rev hi (l1 y0) h10).seq
    ((put_8x_emits c rev lo (l0 y1) h01).seq (put_8x_emits c rev hi (l1 y1) h11)))

theorem i444_to_bgra_sse2_emits (c : Colorimetry) (rev : Bool) {w h ys us vs ds : Nat}
    {yb ub vb : Buf} {d : Dst} (hw : w % 8 = 0)
    (hy : ∀ y, y < h → ys * y + w ≤ yb.len) (hu : ∀ y, y < h → us * y + w ≤ ub.len)
    (hv : ∀ y, y < h → vs * y + w ≤ vb.len) (hd : ∀ y, y < h → ds * y + w * 4 ≤ d.len) :
    Emits (i444_to_bgra_sse2 exactIx c rev w h ys us vs yb ub vb ds d) ()
      (Rect d ds (w * 4) h (Spec.rgbRow (outPf rev) (vdec c.std (X86.img444 yb ub vb ys us vs)))) := by
  obtain ⟨m, hm⟩ : ∃ m, w = 8 * m := ⟨w / 8, by omega⟩
  have hm4 : w * 4 = 32 * m := by omega
  unfold i444_to_bgra_sse2
  simp only [wg_eq, K.liftM_eq, K.lift_ok, pure_bind, YUV_TO_RGB_WAVES, Nat.reduceDiv, Nat.reduceMul, show w / 8 = m by omega]
  rw [hm4]
  refine dec444_groups (by omega) fun y hy' x hx => ?_
  have by0 := line_group hy hm hy' hx
  have bu0 := line_group hu hm hy' hx
  have bv0 := line_group hv hm hy' hx
  have bd0 := line_group hd hm4 hy' hx
  simp only [load_eq by0, load_eq bu0, load_eq bv0, pure_bind]
  have hh : ∀ (b : Buf) (o : Nat), Hi 8 (unpacklo_epi8 setzero
      (set_epi64x_lo fun j => if j < 8 then b.bytes (o + j) else 0)) (fun k => b.bytes (o + k)) := by
    intro b o
    refine (unpacklo_hi (n := 8) _ (by omega)).congr fun k hk => ?_
    unfold set_epi64x_lo
    rw [if_pos (by omega)]
    simp only
    rw [if_pos (by omega)]
    congr 1; omega
  obtain ⟨tr, tg, tb⟩ := terms_lanes c (hh ub (us * y + 8 * x)) (hh vb (vs * y + 8 * x))
  refine (put_8x_emits c rev ⟨tr, tg, tb⟩ (luma_term c (hh yb (ys * y + 8 * x))) bd0).congr
    (Row.congr fun j hj => ?_)
  have h4 := X86.outPf_bpp rev
  have e := decRow_eq (pf := outPf rev) (s := c.std) (im := X86.img444 yb ub vb ys us vs) (n := 8)
    (x := 8 * x) (y := y) (Y := fun k => yb.bytes (ys * y + 8 * x + k))
    (U := fun k => ub.bytes (us * y + 8 * x + k)) (V := fun k => vb.bytes (vs * y + 8 * x + k))
    (by omega) (fun k _ => by simp only [X86.img444, Spec.i444Image, Spec.plane, Nat.add_assoc])
    (fun k _ => by simp only [X86.img444, Spec.i444Image, Spec.plane, Nat.add_assoc])
    (fun k _ => by simp only [X86.img444, Spec.i444Image, Spec.plane, Nat.add_assoc])
    (j := j) (by rw [h4]; omega)
  rw [e, h4, ← Nat.mul_assoc]

/-- The four half lines of a block are the image. -/
theorem block_rows {c : Colorimetry} {rev : Bool} {im : Spec.YuvImage} {d : Dst} {base x y o : Nat}
    {Y U V : Nat → UInt8}
    (hY : ∀ k, k < 8 → Y k = im.y (8 * x + k) y) (hU : ∀ k, k < 8 → U k = im.cb (8 * x + k) y)
    (hV : ∀ k, k < 8 → V k = im.cr (8 * x + k) y) (ho : o = base + 32 * x) (p : Write) :
    Row d o 32 (decRow (outPf rev) c.std Y U V) p ↔
      Row d (base + 32 * x) 32 (fun k => Spec.rgbRow (outPf rev) (vdec c.std im) (32 * x + k) y) p := by
  subst ho
  refine Row.congr (fun j hj => ?_) p
  have h4 := X86.outPf_bpp rev
  rw [decRow_eq (im := im) (n := 8) (x := 8 * x) (y := y) (by omega) hY hU hV (by omega), h4,
    ← Nat.mul_assoc]

theorem i420_to_bgra_sse2_emits (c : Colorimetry) (rev : Bool) {w h ys us vs ds : Nat}
    {yb ub vb : Buf} {d : Dst} (hw : w % 16 = 0) (hh : h % 2 = 0)
    (hy : ∀ y, y < h → ys * y + w ≤ yb.len) (hu : ∀ y, y < h / 2 → us * y + w / 2 ≤ ub.len)
    (hv : ∀ y, y < h / 2 → vs * y + w / 2 ≤ vb.len) (hd : ∀ y, y < h → ds * y + w * 4 ≤ d.len) :
    Emits (i420_to_bgra_sse2 exactIx c rev w h ys us vs yb ub vb ds d) ()
      (Rect d ds (w * 4) h (Spec.rgbRow (outPf rev) (vdec c.std (X86.img420 yb ub vb ys us vs)))) := by
  obtain ⟨m, hm⟩ : ∃ m, w = 16 * m := ⟨w / 16, by omega⟩
  have hm2 : w / 2 = 8 * m := by omega
  have hm4 : w * 4 = 32 * (2 * m) := by omega
  unfold i420_to_bgra_sse2
  simp only [wg_eq, K.liftM_eq, K.lift_ok, pure_bind, YUV_TO_RGB_WAVES, Nat.reduceDiv, Nat.reduceMul, show w / 16 = m by omega]
  rw [hm4]
  refine dec420_groups (by omega) hh fun y hy' x hx => ?_
  have bu0 := line_group hu hm2 hy' hx
  have bv0 := line_group hv hm2 hy' hx
  unfold unpack_ui8_i16be_8x
  simp only [load_eq bu0, load_eq bv0, pure_bind]
  have hhi : ∀ (b : Buf) (o : Nat), Hi 8 (unpacklo_epi8 setzero
      (set1_epi64x fun j => if j < 8 then b.bytes (o + j) else 0)) (fun k => b.bytes (o + k)) := by
    intro b o
    refine (unpacklo_hi (n := 8) _ (by omega)).congr fun k hk => ?_
    simp only [set1_epi64x]
    rw [if_pos (by omega)]
    congr 1; omega
  refine (block_16x2_emits c rev (hhi ub _) (hhi vb _)
    (line_group hy hm (by omega) hx) (line_group hy hm (by omega) hx)
    (line_group hd hm4 (by omega) (by omega)) (line_group hd hm4 (by omega) (by omega))
    (line_group hd hm4 (by omega) (by omega)) (line_group hd hm4 (by omega) (by omega))).congr
    fun p => ?_
  refine or_congr (block_rows (im := X86.img420 yb ub vb ys us vs) ?_ ?_ ?_ rfl p)
    (or_congr (block_rows (im := X86.img420 yb ub vb ys us vs) ?_ ?_ ?_ rfl p)
    (or_congr (block_rows (im := X86.img420 yb ub vb ys us vs) ?_ ?_ ?_ rfl p)
    (block_rows (im := X86.img420 yb ub vb ys us vs) ?_ ?_ ?_ rfl p))) <;>
  · intro k hk
    simp only [X86.img420, Spec.i420Image, Spec.plane]
    congr 1
    try rw [show (8 * (2 * x) + k) / 2 = 8 * x + k / 2 by omega]
    try rw [show (8 * (2 * x + 1) + k) / 2 = 8 * x + (4 + k / 2) by omega]
    try rw [show 2 * y / 2 = y by omega]
    try rw [show (2 * y + 1) / 2 = y by omega]
    omega

theorem nv12_to_bgra_sse2_emits (c : Colorimetry) (rev : Bool) {w h ys uvs ds : Nat}
    {yb uvb : Buf} {d : Dst} (hw : w % 16 = 0) (hh : h % 2 = 0)
    (hy : ∀ y, y < h → ys * y + w ≤ yb.len) (hu : ∀ y, y < h / 2 → uvs * y + w ≤ uvb.len)
    (hd : ∀ y, y < h → ds * y + w * 4 ≤ d.len) :
    Emits (nv12_to_bgra_sse2 exactIx c rev w h ys uvs yb uvb ds d) ()
      (Rect d ds (w * 4) h (Spec.rgbRow (outPf rev) (vdec c.std (X86.imgNv12 yb uvb ys uvs)))) := by
  obtain ⟨m, hm⟩ : ∃ m, w = 16 * m := ⟨w / 16, by omega⟩
  have hm4 : w * 4 = 32 * (2 * m) := by omega
  unfold nv12_to_bgra_sse2
  simp only [wg_eq, K.liftM_eq, K.lift_ok, pure_bind, YUV_TO_RGB_WAVES, Nat.reduceMul, show w / 16 = m by omega]
  rw [hm4]
  refine dec420_groups (by omega) hh fun y hy' x hx => ?_
  have bu0 := line_group hu hm hy' hx
  unfold unpack_ui8x2_i16be_8x
  simp only [load_eq bu0, pure_bind]
  have h1 := (slli_hi 8 (fun j => if j < 16 then uvb.bytes (uvs * y + 16 * x + j) else 0)).congr
    (v := fun k => uvb.bytes (uvs * y + 16 * x + 2 * k)) fun k hk => if_pos (by omega)
  have h2 := (srli_slli_hi 8
    (fun j => if j < 16 then uvb.bytes (uvs * y + 16 * x + j) else 0)).congr
    (v := fun k => uvb.bytes (uvs * y + 16 * x + (2 * k + 1))) fun k hk => if_pos (by omega)
  refine (block_16x2_emits c rev h1 h2
    (line_group hy hm (by omega) hx) (line_group hy hm (by omega) hx)
    (line_group hd hm4 (by omega) (by omega)) (line_group hd hm4 (by omega) (by omega))
    (line_group hd hm4 (by omega) (by omega)) (line_group hd hm4 (by omega) (by omega))).congr
    fun p => ?_
  refine or_congr (block_rows (im := X86.imgNv12 yb uvb ys uvs) ?_ ?_ ?_ rfl p)
    (or_congr (block_rows (im := X86.imgNv12 yb uvb ys uvs) ?_ ?_ ?_ rfl p)
    (or_congr (block_rows (im := X86.imgNv12 yb uvb ys uvs) ?_ ?_ ?_ rfl p)
    (block_rows (im := X86.imgNv12 yb uvb ys uvs) ?_ ?_ ?_ rfl p))) <;>
  · intro k hk
    simp only [X86.imgNv12, Spec.nv12Image, Spec.plane]
    congr 1
    try rw [show (8 * (2 * x) + k) / 2 = 8 * x + k / 2 by omega]
    try rw [show (8 * (2 * x + 1) + k) / 2 = 8 * x + (4 + k / 2) by omega]
    try rw [show 2 * y / 2 = y by omega]
    try rw [show (2 * y + 1) / 2 = y by omega]
    omega

end Verif.Sse2
