import Verif.Lemmas.OrderBig
import Verif.Lemmas.Check
import Verif.Lemmas.Pixels
import Verif.Props.Pixels
/-!
# C100: the byte order of the target

The crate has no condition on the byte order of the target.  The portable code gives the same result on
both byte orders, except that the three conversions between RGB formats store wrong colours on a
big-endian target.
-/

namespace Verif

open Spec (Valid bytesAt dims)

variable {t : Target} {c : Call} {out : List Buf}

/-- C100: on a little-endian target the conversion is the one all other properties speak of. -/
theorem C100_little (t : Target) (c : Call) : convertOn t .little c = convert t crate .other c := by
  rw [convertOn, Ordered.impls_little]

/-- C100: a call that encodes or decodes, or whose formats the library does not convert, behaves in the
same way on both byte orders, whatever its arguments. -/
theorem C100_colour (t : Target) (hc : ¬ c.Shuffles) : convertOn t .big c = convertOn t .little c := by
  obtain ⟨tb, hT, e⟩ := convertOn_table t
  rw [e, e]
  unfold convert_image
  suffices h : ∀ dl, convert_image_with t (Ordered.impls .big) tb c.width c.height c.src_format
      c.src_strides c.src_buffers c.dst_format c.dst_strides dl =
      convert_image_with t (Ordered.impls .little) tb c.width c.height c.src_format
      c.src_strides c.src_buffers c.dst_format c.dst_strides dl by rw [h]
  intro dl
  by_cases h1 : Spec.Legal c.src_format c.width c.height
  swap
  · rw [convert_invalid (Or.inl h1), convert_invalid (Or.inl h1)]
  by_cases h2 : Spec.Legal c.dst_format c.width c.height
  swap
  · rw [convert_invalid (Or.inr h2), convert_invalid (Or.inr h2)]
  by_cases h3 : Spec.Supported c.src_format.pixel_format c.dst_format.pixel_format
  swap
  · rw [convert_unsupported hT h1 h2 h3, convert_unsupported hT h1 h2 h3]
  obtain ⟨r, hr, hk⟩ := (registered_iff (c.src_format.pixel_format, c.src_format.color_space)
    (c.dst_format.pixel_format, c.dst_format.color_space) ((legalPair_iff _).2 h1.cs)
    ((legalPair_iff _).2 h2.cs)).2 h3
  have ht := hT.found r hr
  rw [hk] at ht
  have hn : Spec.isRgb r.key.1.1 = false ∨ Spec.isRgb r.key.2.1 = false := by
    rw [hk]
    simp only
    unfold Call.Shuffles at hc
    cases h : Spec.isRgb c.src_format.pixel_format <;>
      cases h' : Spec.isRgb c.dst_format.pixel_format <;> simp_all
  have e1 : r.exec t (Ordered.impls .big .x86) = r.exec t X86.impl := Ordered.exec_colour t .big r hn
  have e2 : r.exec t (Ordered.impls .little .x86) = r.exec t X86.impl :=
    Ordered.exec_colour t .little r hn
  rw [convert_lookup h1 h2, convert_lookup h1 h2, ht]
  simp only
  rw [e1, e2]

/-- C100: on both byte orders every call, valid or not, panics or not, returns the same value, and
leaves buffers of the same lengths. -/
theorem C100_ending (t : Target) (c : Call) :
    (convertOn t .big c).ending = (convertOn t .little c).ending := convert_ending t _ _ c

/-- C100: on a big-endian target a valid conversion between RGB formats succeeds. -/
theorem C100_succeeds (hv : Valid t c) (hk : c.Shuffles) : ∃ out, convertOn t .big c = .ok (.ok (), out) :=
  ⟨_, Ordered.convertOn_big hv hk⟩

/-- C100: what it stores: every byte of every line of the image. -/
theorem C100_big (hv : Valid t c) (hk : c.Shuffles) (ho : convertOn t .big c = .ok (.ok (), out))
    {j y : Nat} (hy : y < c.height.toNat)
    (hj : j < Spec.bpp c.dst_format.pixel_format * c.width.toNat) :
    bytesAt out 0 (Spec.strideOf c.dst_strides 0
      (Spec.bpp c.dst_format.pixel_format * c.width.toNat) * y + j) = Spec.bigPlane c j y := by
  rw [Ordered.convertOn_big hv hk] at ho
  obtain rfl : _ = out := (Prod.mk.inj (Except.ok.inj ho)).2
  have hf := hv.dst_fits
  have hb0 : 0 < c.dst_buffers.length := by
    have := hf.bufs_len; have := rgb_planes hv.dst_legal hk.2; omega
  have hd : (dims c.dst_format.pixel_format c.dst_format.num_planes.toNat c.width.toNat
      c.height.toNat)[0]? = some (Spec.bpp c.dst_format.pixel_format * c.width.toNat,
        c.height.toNat) := by rw [rgb_dims hk.2]; rfl
  have hr : Spec.bpp c.dst_format.pixel_format * c.width.toNat ≤ Spec.strideOf c.dst_strides 0
      (Spec.bpp c.dst_format.pixel_format * c.width.toNat) := by
    exact (hf.plane 0 _ _ (List.getElem?_eq_getElem hb0) hd).row_le
  exact painted_hit (List.getElem?_eq_getElem hb0) hd rfl hr hy hj

/-- C100: bytes of the destination that are not part of the image are left alone. -/
theorem C100_frame (hv : Valid t c) (hk : c.Shuffles) (ho : convertOn t .big c = .ok (.ok (), out))
    {i k : Nat} (hn : ¬ c.InImage i k) : bytesAt out i k = bytesAt c.dst_buffers i k := by
  rw [Ordered.convertOn_big hv hk] at ho
  obtain rfl : _ = out := (Prod.mk.inj (Except.ok.inj ho)).2
  refine painted_miss fun rc hrc y hy j hj h => hn ?_
  exact ⟨rc.1, rc.2, hrc, y, hy, j, hj, h⟩

/-- Byte `k` of pixel `(x, y)`. -/
theorem big_pixel (hv : Valid t c) (hk : c.Shuffles) (ho : convertOn t .big c = .ok (.ok (), out))
    {x y k : Nat} (hp : c.Pixel x y) (hb : k < Spec.bpp c.dst_format.pixel_format) :
    bytesAt out 0 (Spec.strideOf c.dst_strides 0
      (Spec.bpp c.dst_format.pixel_format * c.width.toNat) * y +
        Spec.bpp c.dst_format.pixel_format * x + k) =
      Spec.bigPlane c (Spec.bpp c.dst_format.pixel_format * x + k) y := by
  rw [Nat.add_assoc]
  refine C100_big hv hk ho hp.2 ?_
  have : Spec.bpp c.dst_format.pixel_format * (x + 1) ≤
    Spec.bpp c.dst_format.pixel_format * c.width.toNat := Nat.mul_le_mul_left _ hp.1
  rw [Nat.mul_add] at this
  omega

theorem shuffle_dst (hv : Valid t c) (hk : c.Shuffles) :
    c.dst_format.pixel_format = if c.src_format.pixel_format = .rgb then .bgra else .rgb := by
  have h := hv.supported
  have h1 := hk.1
  have h2 := hk.2
  revert h h1 h2
  cases c.src_format.pixel_format <;> cases c.dst_format.pixel_format <;> decide

theorem rgbIn_eq (c : Call) (x y : Nat) :
    c.rgbIn.r x y = Spec.srcLine c y (Spec.bpp c.src_format.pixel_format * x +
      (Spec.rgbPos c.src_format.pixel_format).1) ∧
    c.rgbIn.g x y = Spec.srcLine c y (Spec.bpp c.src_format.pixel_format * x +
      (Spec.rgbPos c.src_format.pixel_format).2.1) ∧
    c.rgbIn.b x y = Spec.srcLine c y (Spec.bpp c.src_format.pixel_format * x +
      (Spec.rgbPos c.src_format.pixel_format).2.2) := by
  refine ⟨?_, ?_, ?_⟩ <;>
    simp only [Call.rgbIn, Spec.readRgb, Spec.rgbImage, Spec.srcLine, Nat.add_assoc]

theorem rgbOut_big (hv : Valid t c) (hk : c.Shuffles) (ho : convertOn t .big c = .ok (.ok (), out))
    {x y : Nat} (hp : c.Pixel x y) :
    (c.rgbOut out).r x y = Spec.bigPlane c (Spec.bpp c.dst_format.pixel_format * x +
      (Spec.rgbPos c.dst_format.pixel_format).1) y ∧
    (c.rgbOut out).g x y = Spec.bigPlane c (Spec.bpp c.dst_format.pixel_format * x +
      (Spec.rgbPos c.dst_format.pixel_format).2.1) y ∧
    (c.rgbOut out).b x y = Spec.bigPlane c (Spec.bpp c.dst_format.pixel_format * x +
      (Spec.rgbPos c.dst_format.pixel_format).2.2) y := by
  have h := fun k hk' => big_pixel hv hk ho hp (k := k) hk'
  have h2 := hk.2
  refine ⟨h _ ?_, h _ ?_, h _ ?_⟩ <;>
    (revert h2; cases c.dst_format.pixel_format <;> decide)

/-- C100, Bgr to Rgb on a big-endian target: beyond the last whole group of eight pixels of a line, and
at the fourth and fifth pixel of a group, the colours are right.  (They should be everywhere.) -/
theorem C100_bgr_partial (hv : Valid t c) (hk : c.Shuffles) (hs : c.src_format.pixel_format = .bgr)
    (ho : convertOn t .big c = .ok (.ok (), out)) {x y : Nat} (hp : c.Pixel x y)
    (hx : 8 * (c.width.toNat / 8) ≤ x ∨ x % 8 = 3 ∨ x % 8 = 4) :
    Spec.RgbAt (c.rgbOut out) c.rgbIn x y := by
  have hd := shuffle_dst hv hk
  rw [hs, if_neg (by decide)] at hd
  obtain ⟨a1, a2, a3⟩ := rgbOut_big hv hk ho hp
  obtain ⟨b1, b2, b3⟩ := rgbIn_eq c x y
  simp only [hs, hd, Spec.bpp, Spec.rgbPos, Spec.bigPlane, Spec.bigRgb] at *
  have hx' := hp.1
  have key : ∀ k, k < 3 → (if 3 * x + k < 24 * (c.width.toNat / 8) then
      Spec.srcLine c y (8 * 3 * ((3 * x + k) / 24) + Spec.bigBgr.getD ((3 * x + k) % 24) 0)
      else Spec.srcLine c y (3 * ((3 * x + k) / 3) + (2 - (3 * x + k) % 3))) =
      Spec.srcLine c y (3 * x + (2 - k)) := by
    intro k hk
    have e1 : (3 * x + k) / 3 = x := by omega
    have e2 : (3 * x + k) % 3 = k := by omega
    split
    · have e3 : (3 * x + k) / 24 = x / 8 := by omega
      have e4 : (3 * x + k) % 24 = 3 * (x % 8) + k := by omega
      rw [e3, e4]
      congr 1
      have h5 : x % 8 = 3 ∨ x % 8 = 4 := by omega
      have hk' : k = 0 ∨ k = 1 ∨ k = 2 := by omega
      rcases h5 with h5 | h5 <;> rw [h5] <;> rcases hk' with rfl | rfl | rfl <;>
        simp only [Spec.bigBgr, List.getD, List.getElem?_cons_succ] <;> simp <;> omega
    · rw [e1, e2]
  refine ⟨?_, ?_, ?_⟩
  · rw [a1, b1, key 0 (by decide)]
  · rw [a2, b2, key 1 (by decide)]
  · rw [a3, b3, key 2 (by decide)]

/-- C100, Bgra to Rgb on a big-endian target: beyond the last whole group of eight pixels of a line the
colours are right.  (They should be everywhere.) -/
theorem C100_bgra_partial (hv : Valid t c) (hk : c.Shuffles) (hs : c.src_format.pixel_format = .bgra)
    (ho : convertOn t .big c = .ok (.ok (), out)) {x y : Nat} (hp : c.Pixel x y)
    (hx : 8 * (c.width.toNat / 8) ≤ x) : Spec.RgbAt (c.rgbOut out) c.rgbIn x y := by
  have hd := shuffle_dst hv hk
  rw [hs, if_neg (by decide)] at hd
  obtain ⟨a1, a2, a3⟩ := rgbOut_big hv hk ho hp
  obtain ⟨b1, b2, b3⟩ := rgbIn_eq c x y
  simp only [hs, hd, Spec.bpp, Spec.rgbPos, Spec.bigPlane, Spec.bigRgb] at *
  have key : ∀ k, k < 3 → (if 3 * x + k < 24 * (c.width.toNat / 8) then
      Spec.srcLine c y (8 * 4 * ((3 * x + k) / 24) + Spec.bigBgra.getD ((3 * x + k) % 24) 0)
      else Spec.srcLine c y (4 * ((3 * x + k) / 3) + (2 - (3 * x + k) % 3))) =
      Spec.srcLine c y (4 * x + (2 - k)) := by
    intro k hk
    have e1 : (3 * x + k) / 3 = x := by omega
    have e2 : (3 * x + k) % 3 = k := by omega
    rw [if_neg (by omega), e1, e2]
  refine ⟨?_, ?_, ?_⟩
  · rw [a1, b1, key 0 (by decide)]
  · rw [a2, b2, key 1 (by decide)]
  · rw [a3, b3, key 2 (by decide)]

/-- C100, Rgb to Bgra on a big-endian target: the last pixel is right, and if the source has no bytes
between its lines the last pixel of every line.  (All pixels should be.) -/
theorem C100_rgb_partial (hv : Valid t c) (hk : c.Shuffles) (hs : c.src_format.pixel_format = .rgb)
    (ho : convertOn t .big c = .ok (.ok (), out)) {x y : Nat} (hp : c.Pixel x y)
    (hx : x + 1 = c.width.toNat) (hy : y + 1 = c.height.toNat ∨ Spec.srcGap c = 0) :
    Spec.RgbAt (c.rgbOut out) c.rgbIn x y ∧
    bytesAt out 0 (Spec.strideOf c.dst_strides 0 (4 * c.width.toNat) * y + 4 * x + 3) = 255 := by
  have hd := shuffle_dst hv hk
  rw [hs, if_pos rfl] at hd
  obtain ⟨a1, a2, a3⟩ := rgbOut_big hv hk ho hp
  obtain ⟨b1, b2, b3⟩ := rgbIn_eq c x y
  have a4 := big_pixel hv hk ho hp (k := 3) (by rw [hd]; decide)
  have hw : Spec.bigWords c.width.toNat c.height.toNat (Spec.srcGap c) y = c.width.toNat - 1 := by
    rw [Spec.bigWords, if_pos hy]
  have hg : ¬ x < Spec.bigGroups c.width.toNat c.height.toNat (Spec.srcGap c) y := by
    unfold Spec.bigGroups
    split <;> omega
  have hp' := hp.1
  simp only [hs, hd, Spec.bpp, Spec.rgbPos, Spec.bigPlane, Spec.bigBgraRow] at *
  have d : ∀ k, k < 4 → (4 * x + k) / 4 = x ∧ (4 * x + k) % 4 = k := fun k hk => by omega
  simp only [(d 0 (by decide)).1, (d 0 (by decide)).2, (d 1 (by decide)).1, (d 1 (by decide)).2,
    (d 2 (by decide)).1, (d 2 (by decide)).2, (d 3 (by decide)).1, (d 3 (by decide)).2,
    if_neg hg, hw, if_neg (show ¬ x < c.width.toNat - 1 by omega)] at a1 a2 a3 a4
  refine ⟨⟨?_, ?_, ?_⟩, ?_⟩
  · rw [a1, b1]; rfl
  · rw [a2, b2]; rfl
  · rw [a3, b3]; rfl
  · rw [a4]; rfl

/-- C100: not so for the others: Rgb to Bgra on a big-endian target stores blue 255 for all pixels but the
last of a line, whatever the image. -/
theorem C100_counterexample_rgb (hv : Valid t c) (hk : c.Shuffles)
    (hs : c.src_format.pixel_format = .rgb) (ho : convertOn t .big c = .ok (.ok (), out)) {x y : Nat}
    (hp : c.Pixel x y) (hx : x + 1 < c.width.toNat) : (c.rgbOut out).b x y = 255 := by
  have hd := shuffle_dst hv hk
  rw [hs, if_pos rfl] at hd
  obtain ⟨a1, a2, a3⟩ := rgbOut_big hv hk ho hp
  have hw : x < Spec.bigWords c.width.toNat c.height.toNat (Spec.srcGap c) y := by
    unfold Spec.bigWords
    split <;> omega
  simp only [hs, hd, Spec.bpp, Spec.rgbPos, Spec.bigPlane, Spec.bigBgraRow] at a3
  have d : (4 * x + 0) / 4 = x ∧ (4 * x + 0) % 4 = 0 := by omega
  rw [a3, d.1, d.2]
  simp only [if_true, if_pos hw, ite_self]

/-- C100: Bgr to Rgb on a big-endian target stores the blue of the first pixel of a group of eight as its
red. -/
theorem C100_counterexample_bgr (hv : Valid t c) (hk : c.Shuffles)
    (hs : c.src_format.pixel_format = .bgr) (ho : convertOn t .big c = .ok (.ok (), out)) {x y : Nat}
    (hp : c.Pixel x y) (hx : x < 8 * (c.width.toNat / 8)) (h8 : x % 8 = 0) :
    (c.rgbOut out).r x y = c.rgbIn.b x y := by
  have hd := shuffle_dst hv hk
  rw [hs, if_neg (by decide)] at hd
  obtain ⟨a1, -, -⟩ := rgbOut_big hv hk ho hp
  obtain ⟨-, -, b3⟩ := rgbIn_eq c x y
  simp only [hs, hd, Spec.bpp, Spec.rgbPos, Spec.bigPlane, Spec.bigRgb] at *
  rw [a1, b3, if_pos (by omega), show (3 * x + 0) % 24 = 0 by omega]
  congr 1
  show 8 * 3 * ((3 * x + 0) / 24) + 0 = _
  omega

/-- C100: Bgra to Rgb on a big-endian target stores the alpha of the first pixel of a group of eight as
its blue, and the red and green of the fourth pixel as its red and green. -/
theorem C100_counterexample_bgra (hv : Valid t c) (hk : c.Shuffles)
    (hs : c.src_format.pixel_format = .bgra) (ho : convertOn t .big c = .ok (.ok (), out)) {x y : Nat}
    (hp : c.Pixel x y) (hx : x < 8 * (c.width.toNat / 8)) (h8 : x % 8 = 0) :
    (c.rgbOut out).r x y = c.rgbIn.r (x + 3) y ∧ (c.rgbOut out).g x y = c.rgbIn.g (x + 3) y ∧
    (c.rgbOut out).b x y = Spec.srcLine c y (4 * x + 3) := by
  have hd := shuffle_dst hv hk
  rw [hs, if_neg (by decide)] at hd
  obtain ⟨a1, a2, a3⟩ := rgbOut_big hv hk ho hp
  obtain ⟨b1, b2, -⟩ := rgbIn_eq c (x + 3) y
  simp only [hs, hd, Spec.bpp, Spec.rgbPos, Spec.bigPlane, Spec.bigRgb] at *
  have e : ∀ k, k < 3 → (3 * x + k) / 24 = x / 8 ∧ (3 * x + k) % 24 = k := fun k hk => by omega
  rw [a1, a2, a3, b1, b2, if_pos (by omega), if_pos (by omega), if_pos (by omega),
    (e 0 (by decide)).1, (e 0 (by decide)).2, (e 1 (by decide)).1, (e 1 (by decide)).2,
    (e 2 (by decide)).1, (e 2 (by decide)).2]
  refine ⟨?_, ?_, ?_⟩ <;> congr 1
  · show 8 * 4 * (x / 8) + 14 = _
    omega
  · show 8 * 4 * (x / 8) + 13 = _
    omega
  · show 8 * 4 * (x / 8) + 3 = _
    omega

/-! Calls to which the theorems apply. -/

/-- A 19x2 Bgr image with three bytes after each line, converted to Rgb. -/
def exBgrRgb : Call where
  width := 19
  height := 2
  src_format := ⟨.bgr, .rgb, 1⟩
  src_strides := some [60]
  src_buffers := [noise 120 1]
  dst_format := ⟨.rgb, .rgb, 1⟩
  dst_strides := some [64]
  dst_buffers := [noise 128 2]

/-- A 19x2 Bgra image converted to Rgb. -/
def exBgraRgb : Call := { exBgrRgb with
  src_format := ⟨.bgra, .rgb, 1⟩
  src_strides := none
  src_buffers := [noise 152 1] }

theorem exBgrRgb_valid : Valid .x64 exBgrRgb := valid_of_check (by decide +kernel)
theorem exBgraRgb_valid : Valid .x64 exBgraRgb := valid_of_check (by decide +kernel)

example : ¬ exEncode.Shuffles ∧ Valid .x64 exEncode := ⟨by decide, exEncode_valid⟩
example : exShuffle.Shuffles ∧ exBgrRgb.Shuffles ∧ exBgraRgb.Shuffles := by decide
example : exBgrRgb.Pixel 18 1 ∧ 8 * (exBgrRgb.width.toNat / 8) ≤ 18 := by unfold Call.Pixel; decide
example : exShuffle.Pixel 2 0 ∧ 2 + 1 = exShuffle.width.toNat ∧ Spec.srcGap exShuffle = 0 := by
  unfold Call.Pixel; decide

/-- A place inside a buffer but outside the image. -/
example : ¬ exBgrRgb.InImage 0 57 := by
  rintro ⟨row, rows, h, y, hy, j, hj, e⟩
  have h' : some (57, 2) = some (row, rows) := h
  obtain ⟨rfl, rfl⟩ := Prod.mk.inj (Option.some.inj h')
  have e' : 57 = 64 * y + j := e
  omega

/-- The two byte orders store different images. -/
theorem big_differs {x y : Nat} (hv : Valid t c) (hk : c.Shuffles) (hp : c.Pixel x y)
    (hn : ∀ out, convertOn t .big c = .ok (.ok (), out) → ¬ Spec.RgbAt (c.rgbOut out) c.rgbIn x y) :
    convertOn t .big c ≠ convertOn t .little c := by
  intro h
  obtain ⟨out, ho⟩ := C100_succeeds hv hk
  refine hn out ho ?_
  rw [h, C100_little] at ho
  exact C26_shuffle hv hk ho hp

/-- C100 is false for Rgb to Bgra: -/
theorem C100_counterexample_rgb_call : Valid .x64 exShuffle ∧
    convertOn .x64 .big exShuffle ≠ convertOn .x64 .little exShuffle :=
  ⟨exShuffle_valid, big_differs (x := 0) (y := 0) exShuffle_valid (by decide)
    (by unfold Call.Pixel; decide) fun out ho h => by
      have h1 := C100_counterexample_rgb exShuffle_valid (by decide) rfl ho
        (x := 0) (y := 0) (by unfold Call.Pixel; decide) (by decide)
      exact absurd (h.2.2.symm.trans h1) (by decide +kernel)⟩

/-- for Bgr to Rgb: -/
theorem C100_counterexample_bgr_call : Valid .x64 exBgrRgb ∧
    convertOn .x64 .big exBgrRgb ≠ convertOn .x64 .little exBgrRgb :=
  ⟨exBgrRgb_valid, big_differs (x := 8) (y := 1) exBgrRgb_valid (by decide)
    (by unfold Call.Pixel; decide) fun out ho h => by
      have h1 := C100_counterexample_bgr exBgrRgb_valid (by decide) rfl ho
        (x := 8) (y := 1) (by unfold Call.Pixel; decide) (by decide) rfl
      exact absurd (h.1.symm.trans h1) (by decide +kernel)⟩

/-- and for Bgra to Rgb. -/
theorem C100_counterexample_bgra_call : Valid .x64 exBgraRgb ∧
    convertOn .x64 .big exBgraRgb ≠ convertOn .x64 .little exBgraRgb :=
  ⟨exBgraRgb_valid, big_differs (x := 8) (y := 1) exBgraRgb_valid (by decide)
    (by unfold Call.Pixel; decide) fun out ho h => by
      have h1 := C100_counterexample_bgra exBgraRgb_valid (by decide) rfl ho
        (x := 8) (y := 1) (by unfold Call.Pixel; decide) (by decide) rfl
      exact absurd (h.1.symm.trans h1.1) (by decide +kernel)⟩

end Verif
