import Verif.Spec.Negative
import Verif.Props.Smooth
import Verif.Props.Turn
/-!
# C115: the negative of a picture has the complementary codes

The coefficients of chroma sum to zero, so that chroma is mirrored at 128. Exceptions are ties: the
portable code rounds them downwards, NEON upwards.
-/

namespace Verif
open Spec

variable {t t' : Target} {cpu cpu' : Cpu} {c c' : Call} {out out' : List Buf} {x y x' y' : Nat}

theorem luma_negative (s : Std) (r g b : ℤ) :
    luma s r g b + luma s (255 - r) (255 - g) (255 - b) =
      if s.fullRange then (if dot (lumaCoef s) r g b % 65536 = 32768 then 256 else 255)
      else (if 32768 ≤ dot (lumaCoef s) r g b % 65536 ∧ dot (lumaCoef s) r g b % 65536 ≤ 32804 then 252
        else 251) := by
  have e : dot (lumaCoef s) (255 - r) (255 - g) (255 - b) =
      (if s.fullRange then 16711680 else 14352420) - dot (lumaCoef s) r g b := by
    cases s <;> simp only [dot, lumaCoef, Std.fullRange, if_true, if_false, Bool.false_eq_true] <;> omega
  rw [luma, luma, e, roundUp, roundUp, lumaOffset]
  generalize dot (lumaCoef s) r g b = p
  cases s.fullRange <;> simp only [if_true, if_false, Bool.false_eq_true] <;> split_ifs <;> omega

theorem dot_negative (s : Std) (r g b k : ℤ) :
    dot (cbCoef s) (k - r) (k - g) (k - b) = -dot (cbCoef s) r g b ∧
    dot (crCoef s) (k - r) (k - g) (k - b) = -dot (crCoef s) r g b := by
  cases s <;> simp only [dot, cbCoef, crCoef] <;> omega

theorem sum4_negative {p p' : RgbImage} {x y x' y' : Nat}
    (h : ∀ i < 2, ∀ j < 2, NegativeAt p p' (2 * x + i) (2 * y + j) (2 * x' + i) (2 * y' + j)) :
    sum4 p'.r x' y' = 1020 - sum4 p.r x y ∧ sum4 p'.g x' y' = 1020 - sum4 p.g x y ∧
    sum4 p'.b x' y' = 1020 - sum4 p.b x y := by
  obtain ⟨q1, q2, q3⟩ := h 0 (by decide) 0 (by decide)
  obtain ⟨r1, r2, r3⟩ := h 1 (by decide) 0 (by decide)
  obtain ⟨s1, s2, s3⟩ := h 0 (by decide) 1 (by decide)
  obtain ⟨t1, t2, t3⟩ := h 1 (by decide) 1 (by decide)
  simp only [Nat.add_zero] at q1 q2 q3 r1 r2 r3 s1 s2 s3
  simp only [sum4]
  omega

/-- Stored 4:4:4 chroma is within half a unit of the exact value. -/
theorem stored_half_444 (hv : Valid t c) (hk : c.Encodes) (h4 : c.dst_format.pixel_format = .i444)
    (ho : Stores t crate cpu c out) (hp : c.Pixel x y) :
    |65536 * (val ((c.yuvOut out).cb x y) - 128) - dot (cbCoef (std c.dst_format.color_space))
      (val (c.rgbIn.r x y)) (val (c.rgbIn.g x y)) (val (c.rgbIn.b x y))| ≤ 32768 ∧
    |65536 * (val ((c.yuvOut out).cr x y) - 128) - dot (crCoef (std c.dst_format.color_space))
      (val (c.rgbIn.r x y)) (val (c.rgbIn.g x y)) (val (c.rgbIn.b x y))| ≤ 32768 := by
  have br := isByte_val (c.rgbIn.r x y)
  have bg := isByte_val (c.rgbIn.g x y)
  have bb := isByte_val (c.rgbIn.b x y)
  have z := isSum4 c.rgbIn.r 0 0
  obtain ⟨-, e2, e3, -, -⟩ := C35_no_truncation (std c.dst_format.color_space) br bg bb z z z
  obtain ⟨⟨k2, k3, -, -⟩, -⟩ := C35_ties (std c.dst_format.color_space) br bg bb z z z
  obtain ⟨q2, q3⟩ := C22_chroma_444_ties hv hk h4 ho hp
  refine ⟨cb_half _ br bg bb ?_, cr_half _ br bg bb ?_⟩
  · rcases q2 with q | q <;> rw [q]
    · exact .inl e2
    · exact .inr (val_byte k2)
  · rcases q3 with q | q <;> rw [q]
    · exact .inl e3
    · exact .inr (val_byte k3)

/-- Stored 4:2:0 chroma is within half a unit of the exact value. -/
theorem stored_half_420 (hv : Valid t c) (hk : c.Encodes)
    (h4 : c.dst_format.pixel_format = .i420 ∨ c.dst_format.pixel_format = .nv12)
    (ho : Stores t crate cpu c out) (hp : c.Pixel x y) :
    |262144 * (val ((c.yuvOut out).cb x y) - 128) - dot (cbCoef (std c.dst_format.color_space))
      (sum4 c.rgbIn.r (x / 2) (y / 2)) (sum4 c.rgbIn.g (x / 2) (y / 2))
      (sum4 c.rgbIn.b (x / 2) (y / 2))| ≤ 131072 ∧
    |262144 * (val ((c.yuvOut out).cr x y) - 128) - dot (crCoef (std c.dst_format.color_space))
      (sum4 c.rgbIn.r (x / 2) (y / 2)) (sum4 c.rgbIn.g (x / 2) (y / 2))
      (sum4 c.rgbIn.b (x / 2) (y / 2))| ≤ 131072 := by
  have z := isByte_val (c.rgbIn.r x y)
  have br := isSum4 c.rgbIn.r (x / 2) (y / 2)
  have bg := isSum4 c.rgbIn.g (x / 2) (y / 2)
  have bb := isSum4 c.rgbIn.b (x / 2) (y / 2)
  obtain ⟨-, -, -, e2, e3⟩ := C35_no_truncation (std c.dst_format.color_space) z z z br bg bb
  obtain ⟨⟨-, -, k2, k3⟩, -⟩ := C35_ties (std c.dst_format.color_space) z z z br bg bb
  obtain ⟨q2, q3⟩ := C21_chroma_420_ties hv hk h4 ho hp
  refine ⟨cbAvg_half _ br bg bb ?_, crAvg_half _ br bg bb ?_⟩
  · rcases q2 with q | q <;> rw [q]
    · exact .inl e2
    · exact .inr (val_byte k2)
  · rcases q3 with q | q <;> rw [q]
    · exact .inl e3
    · exact .inr (val_byte k3)

/-- **C115**, luma, exactly: the two codes sum to 255 in full range and to 251 in limited range, or to
one more. -/
theorem C115_luma (hv : Valid t c) (hv' : Valid t' c') (hk : c.Encodes) (hk' : c'.Encodes)
    (hs : c'.dst_format.color_space = c.dst_format.color_space)
    (ho : Stores t crate cpu c out) (ho' : Stores t' crate cpu' c' out')
    (hp : c.Pixel x y) (hp' : c'.Pixel x' y') (h : NegativeAt c.rgbIn c'.rgbIn x y x' y') :
    let s := std c.dst_format.color_space
    let d := dot (lumaCoef s) (val (c.rgbIn.r x y)) (val (c.rgbIn.g x y)) (val (c.rgbIn.b x y))
    val ((c.yuvOut out).y x y) + val ((c'.yuvOut out').y x' y') =
      if s.fullRange then (if d % 65536 = 32768 then 256 else 255)
      else (if 32768 ≤ d % 65536 ∧ d % 65536 ≤ 32804 then 252 else 251) := by
  have z := isSum4 c.rgbIn.r 0 0
  have e := (C35_no_truncation (std c.dst_format.color_space) (isByte_val (c.rgbIn.r x y))
    (isByte_val (c.rgbIn.g x y)) (isByte_val (c.rgbIn.b x y)) z z z).1
  have e' := (C35_no_truncation (std c.dst_format.color_space) (isByte_val (c'.rgbIn.r x' y'))
    (isByte_val (c'.rgbIn.g x' y')) (isByte_val (c'.rgbIn.b x' y')) z z z).1
  simp only
  rw [C20_luma hv hk ho hp, C20_luma hv' hk' ho' hp', hs, e, e', h.1, h.2.1, h.2.2]
  exact luma_negative _ _ _ _

/-- **C115**, 4:4:4 chroma, any processors: the two codes sum to 256, or at a tie to 256 up to one. -/
theorem C115_chroma_444 (hv : Valid t c) (hv' : Valid t' c') (hk : c.Encodes) (hk' : c'.Encodes)
    (hd : c.dst_format.pixel_format = .i444) (hd' : c'.dst_format.pixel_format = .i444)
    (hs : c'.dst_format.color_space = c.dst_format.color_space)
    (ho : Stores t crate cpu c out) (ho' : Stores t' crate cpu' c' out')
    (hp : c.Pixel x y) (hp' : c'.Pixel x' y') (h : NegativeAt c.rgbIn c'.rgbIn x y x' y') :
    let s := std c.dst_format.color_space
    let r := val (c.rgbIn.r x y)
    let g := val (c.rgbIn.g x y)
    let b := val (c.rgbIn.b x y)
    let u := val ((c.yuvOut out).cb x y) + val ((c'.yuvOut out').cb x' y')
    let v := val ((c.yuvOut out).cr x y) + val ((c'.yuvOut out').cr x' y')
    |u - 256| ≤ 1 ∧ |v - 256| ≤ 1 ∧ (¬ Tie (dot (cbCoef s) r g b) 65536 → u = 256) ∧
    (¬ Tie (dot (crCoef s) r g b) 65536 → v = 256) := by
  intro s r g b u v
  obtain ⟨a1, a2⟩ := stored_half_444 hv hk hd ho hp
  obtain ⟨b1, b2⟩ := stored_half_444 hv' hk' hd' ho' hp'
  rw [hs, h.1, h.2.1, h.2.2, (dot_negative _ _ _ _ _).1] at b1
  rw [hs, h.1, h.2.1, h.2.2, (dot_negative _ _ _ _ _).2] at b2
  change |_ - dot (cbCoef s) r g b| ≤ _ at a1
  change |_ - -dot (cbCoef s) r g b| ≤ _ at b1
  change |_ - dot (crCoef s) r g b| ≤ _ at a2
  change |_ - -dot (crCoef s) r g b| ≤ _ at b2
  generalize dot (cbCoef s) r g b = p at *
  generalize dot (crCoef s) r g b = q at *
  unfold Tie
  simp only [abs_le] at *
  omega

/-- **C115**, 4:2:0 chroma, any processors. -/
theorem C115_chroma_420 (hv : Valid t c) (hv' : Valid t' c') (hk : c.Encodes) (hk' : c'.Encodes)
    (hd : c.dst_format.pixel_format = .i420 ∨ c.dst_format.pixel_format = .nv12)
    (hd' : c'.dst_format.pixel_format = .i420 ∨ c'.dst_format.pixel_format = .nv12)
    (hs : c'.dst_format.color_space = c.dst_format.color_space)
    (ho : Stores t crate cpu c out) (ho' : Stores t' crate cpu' c' out')
    (hp : c.Pixel x y) (hp' : c'.Pixel x' y')
    (h : ∀ i < 2, ∀ j < 2, NegativeAt c.rgbIn c'.rgbIn (2 * (x / 2) + i) (2 * (y / 2) + j)
      (2 * (x' / 2) + i) (2 * (y' / 2) + j)) :
    let s := std c.dst_format.color_space
    let r := sum4 c.rgbIn.r (x / 2) (y / 2)
    let g := sum4 c.rgbIn.g (x / 2) (y / 2)
    let b := sum4 c.rgbIn.b (x / 2) (y / 2)
    let u := val ((c.yuvOut out).cb x y) + val ((c'.yuvOut out').cb x' y')
    let v := val ((c.yuvOut out).cr x y) + val ((c'.yuvOut out').cr x' y')
    |u - 256| ≤ 1 ∧ |v - 256| ≤ 1 ∧ (¬ Tie (dot (cbCoef s) r g b) 262144 → u = 256) ∧
    (¬ Tie (dot (crCoef s) r g b) 262144 → v = 256) := by
  intro s r g b u v
  obtain ⟨h1, h2, h3⟩ := sum4_negative h
  obtain ⟨a1, a2⟩ := stored_half_420 hv hk hd ho hp
  obtain ⟨b1, b2⟩ := stored_half_420 hv' hk' hd' ho' hp'
  rw [hs, h1, h2, h3, (dot_negative _ _ _ _ _).1] at b1
  rw [hs, h1, h2, h3, (dot_negative _ _ _ _ _).2] at b2
  change |_ - dot (cbCoef s) r g b| ≤ _ at a1
  change |_ - -dot (cbCoef s) r g b| ≤ _ at b1
  change |_ - dot (crCoef s) r g b| ≤ _ at a2
  change |_ - -dot (crCoef s) r g b| ≤ _ at b2
  generalize dot (cbCoef s) r g b = p at *
  generalize dot (crCoef s) r g b = q at *
  unfold Tie
  simp only [abs_le] at *
  omega

/-- **C115**, ties in 4:4:4 without NEON: both codes are rounded downwards and sum to 255. -/
theorem C115_ties_444 (hv : Valid t c) (hv' : Valid t' c') (hk : c.Encodes) (hk' : c'.Encodes)
    (hd : c.dst_format.pixel_format = .i444) (hd' : c'.dst_format.pixel_format = .i444)
    (hs : c'.dst_format.color_space = c.dst_format.color_space)
    (hn : cpu.set ≠ .neon) (hn' : cpu'.set ≠ .neon)
    (ho : Stores t crate cpu c out) (ho' : Stores t' crate cpu' c' out')
    (hp : c.Pixel x y) (hp' : c'.Pixel x' y') (h : NegativeAt c.rgbIn c'.rgbIn x y x' y') :
    let s := std c.dst_format.color_space
    let r := val (c.rgbIn.r x y)
    let g := val (c.rgbIn.g x y)
    let b := val (c.rgbIn.b x y)
    (Tie (dot (cbCoef s) r g b) 65536 →
      val ((c.yuvOut out).cb x y) + val ((c'.yuvOut out').cb x' y') = 255) ∧
    (Tie (dot (crCoef s) r g b) 65536 →
      val ((c.yuvOut out).cr x y) + val ((c'.yuvOut out').cr x' y') = 255) := by
  have z := isSum4 c.rgbIn.r 0 0
  obtain ⟨-, e1, e2, -, -⟩ := C35_no_truncation (std c.dst_format.color_space)
    (isByte_val (c.rgbIn.r x y)) (isByte_val (c.rgbIn.g x y)) (isByte_val (c.rgbIn.b x y)) z z z
  obtain ⟨-, e1', e2', -, -⟩ := C35_no_truncation (std c.dst_format.color_space)
    (isByte_val (c'.rgbIn.r x' y')) (isByte_val (c'.rgbIn.g x' y')) (isByte_val (c'.rgbIn.b x' y')) z z z
  obtain ⟨a1, a2⟩ := C22_chroma_444_partial hv hk hn hd ho hp
  obtain ⟨b1, b2⟩ := C22_chroma_444_partial hv' hk' hn' hd' ho' hp'
  refine ⟨fun ht => ?_, fun ht => ?_⟩
  · rw [a1, b1, hs, e1, e1', h.1, h.2.1, h.2.2, cb, cb, (dot_negative _ _ _ _ _).1]
    unfold Tie at ht
    unfold roundDown
    generalize dot _ _ _ _ = p at *
    omega
  · rw [a2, b2, hs, e2, e2', h.1, h.2.1, h.2.2, cr, cr, (dot_negative _ _ _ _ _).2]
    unfold Tie at ht
    unfold roundDown
    generalize dot _ _ _ _ = p at *
    omega

/-- **C115**, ties in 4:2:0 without NEON. -/
theorem C115_ties_420 (hv : Valid t c) (hv' : Valid t' c') (hk : c.Encodes) (hk' : c'.Encodes)
    (hd : c.dst_format.pixel_format = .i420 ∨ c.dst_format.pixel_format = .nv12)
    (hd' : c'.dst_format.pixel_format = .i420 ∨ c'.dst_format.pixel_format = .nv12)
    (hs : c'.dst_format.color_space = c.dst_format.color_space)
    (hn : cpu.set ≠ .neon) (hn' : cpu'.set ≠ .neon)
    (ho : Stores t crate cpu c out) (ho' : Stores t' crate cpu' c' out')
    (hp : c.Pixel x y) (hp' : c'.Pixel x' y')
    (h : ∀ i < 2, ∀ j < 2, NegativeAt c.rgbIn c'.rgbIn (2 * (x / 2) + i) (2 * (y / 2) + j)
      (2 * (x' / 2) + i) (2 * (y' / 2) + j)) :
    let s := std c.dst_format.color_space
    let r := sum4 c.rgbIn.r (x / 2) (y / 2)
    let g := sum4 c.rgbIn.g (x / 2) (y / 2)
    let b := sum4 c.rgbIn.b (x / 2) (y / 2)
    (Tie (dot (cbCoef s) r g b) 262144 →
      val ((c.yuvOut out).cb x y) + val ((c'.yuvOut out').cb x' y') = 255) ∧
    (Tie (dot (crCoef s) r g b) 262144 →
      val ((c.yuvOut out).cr x y) + val ((c'.yuvOut out').cr x' y') = 255) := by
  have z := isByte_val (c.rgbIn.r x y)
  obtain ⟨h1, h2, h3⟩ := sum4_negative h
  obtain ⟨-, -, -, e1, e2⟩ := C35_no_truncation (std c.dst_format.color_space) z z z
    (isSum4 c.rgbIn.r (x / 2) (y / 2)) (isSum4 c.rgbIn.g (x / 2) (y / 2))
    (isSum4 c.rgbIn.b (x / 2) (y / 2))
  obtain ⟨-, -, -, e1', e2'⟩ := C35_no_truncation (std c.dst_format.color_space) z z z
    (isSum4 c'.rgbIn.r (x' / 2) (y' / 2)) (isSum4 c'.rgbIn.g (x' / 2) (y' / 2))
    (isSum4 c'.rgbIn.b (x' / 2) (y' / 2))
  obtain ⟨a1, a2⟩ := C21_chroma_420_partial hv hk hn hd ho hp
  obtain ⟨b1, b2⟩ := C21_chroma_420_partial hv' hk' hn' hd' ho' hp'
  refine ⟨fun ht => ?_, fun ht => ?_⟩
  · rw [a1, b1, hs, e1, e1', h1, h2, h3, cbAvg, cbAvg, (dot_negative _ _ _ _ _).1]
    unfold Tie at ht
    unfold roundDown
    generalize dot _ _ _ _ = p at *
    omega
  · rw [a2, b2, hs, e2, e2', h1, h2, h3, crAvg, crAvg, (dot_negative _ _ _ _ _).2]
    unfold Tie at ht
    unfold roundDown
    generalize dot _ _ _ _ = p at *
    omega

/-- An 8x1 image of one colour in full range. -/
def exTint (r g b : UInt8) : Call where
  width := 8
  height := 1
  src_format := ⟨.bgra, .rgb, 1⟩
  src_strides := none
  src_buffers := [⟨32, fun i => if i % 4 = 0 then b else if i % 4 = 1 then g else
    if i % 4 = 2 then r else 7⟩]
  dst_format := ⟨.i444, .bt709FR, 3⟩
  dst_strides := none
  dst_buffers := [noise 8 2, noise 8 3, noise 8 4]

theorem exTint_valid (r g b : UInt8) : Valid .x64 (exTint r g b) := valid_of_check rfl

theorem exTint_negative : NegativeAt (exTint 16 64 0).rgbIn (exTint 239 191 255).rgbIn 3 0 3 0 := by
  unfold NegativeAt
  decide +kernel

/-- The hypotheses of C115 are met. The Cb of the colour is a tie: without NEON the two codes sum to
255, with NEON at least to 255; Cr and luma are not ties. -/
example : ∃ out out' out₂, Stores .x64 crate avx2Cpu (exTint 16 64 0) out ∧
    Stores .x64 crate plainCpu (exTint 239 191 255) out' ∧
    Stores .x64 crate neonCpu (exTint 239 191 255) out₂ ∧
    val (((exTint 16 64 0).yuvOut out).y 3 0) + val (((exTint 239 191 255).yuvOut out').y 3 0) = 255 ∧
    val (((exTint 16 64 0).yuvOut out).cb 3 0) + val (((exTint 239 191 255).yuvOut out').cb 3 0) = 255 ∧
    val (((exTint 16 64 0).yuvOut out).cr 3 0) + val (((exTint 239 191 255).yuvOut out₂).cr 3 0) = 256 := by
  have v := exTint_valid
  have k : ∀ r g b, (exTint r g b).Encodes := fun _ _ _ => ⟨rfl, rfl⟩
  obtain ⟨out, ho⟩ := valid_stores (cpu := avx2Cpu) (v 16 64 0) (.of_ne fun e => by cases e)
  obtain ⟨out', ho'⟩ := valid_stores (cpu := plainCpu) (v 239 191 255) (.of_ne fun e => by cases e)
  obtain ⟨out₂, ho₂⟩ := valid_stores (cpu := neonCpu) (v 239 191 255) (.of_ne fun e => by cases e)
  have hp : 3 < (8 : UInt32).toNat ∧ 0 < (1 : UInt32).toNat := by decide
  refine ⟨out, out', out₂, ho, ho', ho₂, ?_, ?_, ?_⟩
  · rw [C115_luma (v 16 64 0) (v 239 191 255) (k _ _ _) (k _ _ _) rfl ho ho' hp hp exTint_negative]
    decide +kernel
  · exact (C115_ties_444 (v 16 64 0) (v 239 191 255) (k _ _ _) (k _ _ _) rfl rfl rfl (by decide) (by decide) ho ho'
      hp hp exTint_negative).1 (by unfold Tie; decide +kernel)
  · exact (C115_chroma_444 (v 16 64 0) (v 239 191 255) (k _ _ _) (k _ _ _) rfl rfl rfl ho ho₂ hp hp
      exTint_negative).2.2.2 (by unfold Tie; decide +kernel)

/-- A 2x2 image of four colours, or its negative. -/
def exFour (negative : Bool) : Call where
  width := 2
  height := 2
  src_format := ⟨.bgra, .rgb, 1⟩
  src_strides := none
  src_buffers := [⟨16, fun i => if negative then 255 - UInt8.ofNat (i * 37) else UInt8.ofNat (i * 37)⟩]
  dst_format := ⟨.i420, .bt601, 3⟩
  dst_strides := none
  dst_buffers := [noise 4 2, noise 1 3, noise 1 4]

theorem exFour_valid (negative : Bool) : Valid .x64 (exFour negative) := by
  cases negative <;> exact valid_of_check (by decide +kernel)

theorem exFour_negative : ∀ i < 2, ∀ j < 2, NegativeAt (exFour false).rgbIn (exFour true).rgbIn
    (2 * (1 / 2) + i) (2 * (1 / 2) + j) (2 * (1 / 2) + i) (2 * (1 / 2) + j) := by
  unfold NegativeAt
  decide +kernel

/-- The hypotheses of the 4:2:0 part are met, on any two processors. -/
example (cpu cpu' : Cpu) : ∃ out out', Stores .x64 crate cpu (exFour false) out ∧
    Stores .x64 crate cpu' (exFour true) out' ∧
    val (((exFour false).yuvOut out).cb 1 1) + val (((exFour true).yuvOut out').cb 1 1) = 256 := by
  obtain ⟨out, ho⟩ := valid_stores (cpu := cpu) (exFour_valid false) (.of_ne fun e => by cases e)
  obtain ⟨out', ho'⟩ := valid_stores (cpu := cpu') (exFour_valid true) (.of_ne fun e => by cases e)
  have hp : 1 < (2 : UInt32).toNat ∧ 1 < (2 : UInt32).toNat := by decide
  exact ⟨out, out', ho, ho', (C115_chroma_420 (exFour_valid false) (exFour_valid true) ⟨rfl, rfl⟩ ⟨rfl, rfl⟩
    (.inl rfl) (.inl rfl) rfl ho ho' hp hp exFour_negative).2.2.1 (by unfold Tie; decide +kernel)⟩

end Verif
