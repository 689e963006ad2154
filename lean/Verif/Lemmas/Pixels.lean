import Verif.Lemmas.Run
import Verif.Spec.Result
/-! # Reading back the image a conversion has stored -/

namespace Verif

open Spec (bytesAt strideOf dims painted paint)

variable {f : ImageFormat} {w h : UInt32} {strides : Option (List Nat)} {planes : List Spec.Plane}
  {bufs : List Buf}

theorem painted_length : (painted f w h strides planes bufs).length = bufs.length := by
  simp [painted]

/-- Buffer `i` after storing `planes`, when plane `i` exists. -/
theorem painted_some {i : Nat} {rc : Nat × Nat} {g : Spec.Plane} {b : Buf}
    (hb : bufs[i]? = some b)
    (hd : (dims f.pixel_format f.num_planes.toNat w.toNat h.toNat)[i]? = some rc)
    (hg : planes[i]? = some g) :
    (painted f w h strides planes bufs)[i]? =
      some ⟨b.len, paint b.bytes (strideOf strides i rc.1) rc.1 rc.2 g⟩ := by
  rw [painted, List.getElem?_mapIdx, hb]
  simp only [Option.map_some, hd, hg]

theorem painted_hit {i y j : Nat} {rc : Nat × Nat} {g : Spec.Plane} {b : Buf}
    (hb : bufs[i]? = some b)
    (hd : (dims f.pixel_format f.num_planes.toNat w.toNat h.toNat)[i]? = some rc)
    (hg : planes[i]? = some g) (hr : rc.1 ≤ strideOf strides i rc.1) (hy : y < rc.2)
    (hj : j < rc.1) :
    bytesAt (painted f w h strides planes bufs) i (strideOf strides i rc.1 * y + j) = g j y := by
  rw [bytesAt, painted_some hb hd hg]
  exact paint_hit hr hy hj

theorem painted_miss {i k : Nat}
    (hk : ∀ rc, (dims f.pixel_format f.num_planes.toNat w.toNat h.toNat)[i]? = some rc →
      ∀ y, y < rc.2 → ∀ j, j < rc.1 → k ≠ strideOf strides i rc.1 * y + j) :
    bytesAt (painted f w h strides planes bufs) i k = bytesAt bufs i k := by
  rw [bytesAt, bytesAt, painted, List.getElem?_mapIdx]
  cases hb : bufs[i]? with
  | none => rfl
  | some b =>
    simp only [Option.map_some]
    split
    · rename_i rc g hrc hg
      exact paint_miss (hk rc hrc)
    · rfl

/-- The stored buffers only depend on the values of the planes inside the image. -/
theorem painted_congr {planes' : List Spec.Plane} (hl : planes.length = planes'.length)
    (hp : ∀ (i : Nat) (rc : Nat × Nat) (g g' : Spec.Plane),
      (dims f.pixel_format f.num_planes.toNat w.toNat h.toNat)[i]? = some rc →
      planes[i]? = some g → planes'[i]? = some g' →
      ∀ j, j < rc.1 → ∀ y, y < rc.2 → g j y = g' j y) :
    painted f w h strides planes bufs = painted f w h strides planes' bufs := by
  unfold painted
  apply List.ext_getElem?
  intro i
  rw [List.getElem?_mapIdx, List.getElem?_mapIdx]
  cases hb : bufs[i]? with
  | none => rfl
  | some b =>
    simp only [Option.map_some, Option.some.injEq]
    cases hd : (dims f.pixel_format f.num_planes.toNat w.toNat h.toNat)[i]? with
    | none => rfl
    | some rc =>
      cases hg : planes[i]? with
      | none =>
        rw [List.getElem?_eq_none_iff, hl, ← List.getElem?_eq_none_iff] at hg
        rw [hg]
      | some g =>
        cases hg' : planes'[i]? with
        | none =>
          rw [List.getElem?_eq_none_iff, ← hl, ← List.getElem?_eq_none_iff, hg] at hg'
          cases hg'
        | some g' =>
          simp only [Buf.mk.injEq, true_and]
          funext k
          unfold paint
          split
          · rename_i hk
            exact hp i rc g g' hd hg hg' _ hk.1 _ hk.2
          · rfl

/-- Plane `i` as read back. -/
theorem planeAt_painted {i y j : Nat} {rc : Nat × Nat} {g : Spec.Plane}
    (hf : Spec.Fits f w h strides bufs) (hi : i < f.num_planes.toNat)
    (hd : (dims f.pixel_format f.num_planes.toNat w.toNat h.toNat)[i]? = some rc)
    (hg : planes[i]? = some g) (hy : y < rc.2) (hj : j < rc.1) :
    Spec.planeAt f w h strides (painted f w h strides planes bufs) i j y = g j y := by
  have hl : i < bufs.length := by have := hf.bufs_len; omega
  have hb : bufs[i]? = some bufs[i] := List.getElem?_eq_getElem hl
  rw [Spec.planeAt, Spec.plane, List.getD_eq_getElem?_getD, hd]
  exact painted_hit hb hd hg (hf.plane i _ rc hb hd).row_le hy hj

theorem rgb_planes {f : ImageFormat} {w h : UInt32} (hl : Spec.Legal f w h)
    (hr : Spec.isRgb f.pixel_format = true) : f.num_planes.toNat = 1 := by
  have := hl.planes
  revert this hr
  cases f.pixel_format <;> simp [Spec.isRgb, Spec.PlanesOk]

theorem rgb_dims {pf : PixelFormat} (hr : Spec.isRgb pf = true) (n w h : Nat) :
    dims pf n w h = [(Spec.bpp pf * w, h)] := by
  revert hr; cases pf <;> simp [Spec.isRgb, dims]

/-- Byte `k` of pixel `(x, y)` of a stored RGB image. -/
theorem rgb_byte {im : Spec.RgbImage} (hl : Spec.Legal f w h)
    (hr : Spec.isRgb f.pixel_format = true) (hf : Spec.Fits f w h strides bufs) {x y k : Nat}
    (hx : x < w.toNat) (hy : y < h.toNat) (hk : k < Spec.bpp f.pixel_format) :
    bytesAt (painted f w h strides [Spec.rgbRow f.pixel_format im] bufs) 0
      (strideOf strides 0 (Spec.bpp f.pixel_format * w.toNat) * y + Spec.bpp f.pixel_format * x + k)
      = (Spec.pixelBytes f.pixel_format (im.r x y) (im.g x y) (im.b x y)).getD k 0 := by
  have hb0 : 0 < bufs.length := by have := hf.bufs_len; have := rgb_planes hl hr; omega
  have hb : bufs[0]? = some bufs[0] := List.getElem?_eq_getElem hb0
  have hd : (dims f.pixel_format f.num_planes.toNat w.toNat h.toNat)[0]? =
      some (Spec.bpp f.pixel_format * w.toNat, h.toNat) := by rw [rgb_dims hr]; rfl
  have hj : Spec.bpp f.pixel_format * x + k < Spec.bpp f.pixel_format * w.toNat := by
    have : Spec.bpp f.pixel_format * (x + 1) ≤ Spec.bpp f.pixel_format * w.toNat :=
      Nat.mul_le_mul_left _ hx
    rw [Nat.mul_add] at this
    omega
  rw [Nat.add_assoc]
  have := painted_hit (planes := [Spec.rgbRow f.pixel_format im]) hb hd rfl
    (hf.plane 0 _ _ hb hd).row_le hy hj
  simp only at this
  rw [this, Spec.rgbRow]
  have e1 : (Spec.bpp f.pixel_format * x + k) / Spec.bpp f.pixel_format = x := by
    rw [Nat.mul_add_div (by omega), Nat.div_eq_of_lt hk]; rfl
  have e2 : (Spec.bpp f.pixel_format * x + k) % Spec.bpp f.pixel_format = k := by
    rw [Nat.mul_add_mod, Nat.mod_eq_of_lt hk]
  rw [e1, e2]

/-- A stored RGB image, as read back. -/
theorem readRgb_painted {im : Spec.RgbImage} (hl : Spec.Legal f w h)
    (hr : Spec.isRgb f.pixel_format = true) (hf : Spec.Fits f w h strides bufs) {x y : Nat}
    (hx : x < w.toNat) (hy : y < h.toNat) :
    (Spec.readRgb f w strides (painted f w h strides [Spec.rgbRow f.pixel_format im] bufs)).r x y
      = im.r x y ∧
    (Spec.readRgb f w strides (painted f w h strides [Spec.rgbRow f.pixel_format im] bufs)).g x y
      = im.g x y ∧
    (Spec.readRgb f w strides (painted f w h strides [Spec.rgbRow f.pixel_format im] bufs)).b x y
      = im.b x y := by
  have key := fun k hk => rgb_byte (im := im) hl hr hf hx hy (k := k) hk
  unfold Spec.readRgb Spec.rgbImage
  simp only
  rcases f with ⟨pf, cs, n⟩
  simp only at hr key ⊢
  cases pf <;> simp only [Spec.isRgb, Bool.false_eq_true] at hr <;>
  refine ⟨?_, ?_, ?_⟩ <;>
  · rw [key _ (by decide)]
    rfl

/-- The YCbCr image obtained by encoding `im`, with the arithmetic of `S`. -/
def Sem.encoded (S : Sem) (src : PixelFormat) (w : Nat) (dst : PixelFormat) (s : Spec.Std)
    (im : Spec.RgbImage) : Spec.YuvImage where
  y := Spec.lumaPlane s im
  cb x y := if dst = .i444 then S.cb444 src w s im x y else S.cb420 src w s im (x / 2) (y / 2)
  cr x y := if dst = .i444 then S.cr444 src w s im x y else S.cr420 src w s im (x / 2) (y / 2)

/-- A stored YCbCr image, as read back. -/
theorem readYuv_painted {S : Sem} {src : PixelFormat} {im : Spec.RgbImage} {W : Nat}
    (hl : Spec.Legal f w h) (hn : f.pixel_format ≠ .i422)
    (hr : Spec.isRgb f.pixel_format = false) (hf : Spec.Fits f w h strides bufs) {x y : Nat}
    (hx : x < w.toNat) (hy : y < h.toNat) :
    Spec.YuvAt (Spec.readYuv f w h strides (painted f w h strides
      (S.encodedPlanes src W f h im) bufs))
      (S.encoded src W f.pixel_format (Spec.std f.color_space) im) x y := by
  have hsz := hl.size
  have hp := hl.planes
  have key := fun i rc g hi hd hg y j hy hj => planeAt_painted
    (planes := S.encodedPlanes src W f h im) (i := i) (rc := rc) (g := g) (y := y) (j := j)
    hf hi hd hg hy hj
  unfold Spec.YuvAt Spec.readYuv Sem.encoded
  rcases f with ⟨pf, cs, n⟩
  simp only at hr hn hsz hp key ⊢
  cases pf <;> simp only [Spec.isRgb, Bool.true_eq_false] at hr <;>
  simp only [ne_eq, not_true] at hn
  · -- i444
    simp only [Spec.PlanesOk] at hp
    simp only [Spec.i444Image, if_true]
    exact ⟨key 0 (w.toNat, h.toNat) _ (by omega) rfl rfl y x hy hx,
      key 1 (w.toNat, h.toNat) _ (by omega) rfl rfl y x hy hx,
      key 2 (w.toNat, h.toNat) _ (by omega) rfl rfl y x hy hx⟩
  · -- i420
    simp only [Spec.PlanesOk] at hp
    simp only [Spec.SizeOk] at hsz
    simp only [Spec.i420Image, reduceCtorEq, if_false]
    exact ⟨key 0 (w.toNat, h.toNat) _ (by omega) rfl rfl y x hy hx,
      key 1 (w.toNat / 2, h.toNat / 2) _ (by omega) rfl rfl (y / 2) (x / 2)
        (by show y / 2 < h.toNat / 2; omega) (by show x / 2 < w.toNat / 2; omega),
      key 2 (w.toNat / 2, h.toNat / 2) _ (by omega) rfl rfl (y / 2) (x / 2)
        (by show y / 2 < h.toNat / 2; omega) (by show x / 2 < w.toNat / 2; omega)⟩
  · -- nv12
    simp only [Spec.PlanesOk] at hp
    simp only [Spec.SizeOk] at hsz
    simp only [reduceCtorEq, if_false]
    have q0 : (2 * (x / 2)) % 2 = 0 := by omega
    have q1 : ¬ (2 * (x / 2) + 1) % 2 = 0 := by omega
    have q2 : 2 * (x / 2) / 2 = x / 2 := by omega
    have q3 : (2 * (x / 2) + 1) / 2 = x / 2 := by omega
    rcases hp with hp | hp
    · have e : n = 1 := u32_eq_one hp
      subst e
      have key' := key 0 (w.toNat, h.toNat + h.toNat / 2) _ (by decide) (by rw [hp]; rfl) rfl
      simp only [if_true, Spec.nv12Image]
      refine ⟨?_, ?_, ?_⟩
      · rw [key' _ _ (by show y < h.toNat + h.toNat / 2; omega) hx, if_pos hy]
      · rw [key' _ _ (by show h.toNat + y / 2 < h.toNat + h.toNat / 2; omega)
          (by show 2 * (x / 2) < w.toNat; omega), if_neg (by omega), Spec.interleave, if_pos q0, q2,
          show h.toNat + y / 2 - h.toNat = y / 2 by omega]
      · rw [key' _ _ (by show h.toNat + y / 2 < h.toNat + h.toNat / 2; omega)
          (by show 2 * (x / 2) + 1 < w.toNat; omega), if_neg (by omega), Spec.interleave, if_neg q1,
          q3, show h.toNat + y / 2 - h.toNat = y / 2 by omega]
    · have e : n ≠ 1 := by rintro rfl; exact absurd hp (by decide)
      have hg : S.encodedPlanes src W ⟨.nv12, cs, n⟩ h im = [Spec.lumaPlane (Spec.std cs) im,
          Spec.interleave (S.cb420 src W (Spec.std cs) im) (S.cr420 src W (Spec.std cs) im)] := by
        simp only [Sem.encodedPlanes, e, if_false]
      rw [hg] at key ⊢
      simp only [e, if_false, Spec.nv12Image]
      have k0 := key 0 (w.toNat, h.toNat) _ (by omega) (by rw [hp]; rfl) rfl
      have k1 := key 1 (w.toNat, h.toNat / 2) _ (by omega) (by rw [hp]; rfl) rfl
      refine ⟨k0 _ _ hy hx, ?_, ?_⟩
      · rw [k1 _ _ (by show y / 2 < h.toNat / 2; omega) (by show 2 * (x / 2) < w.toNat; omega),
          Spec.interleave, if_pos q0, q2]
      · rw [k1 _ _ (by show y / 2 < h.toNat / 2; omega) (by show 2 * (x / 2) + 1 < w.toNat; omega),
          Spec.interleave, if_neg q1, q3]

end Verif
