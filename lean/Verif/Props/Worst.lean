import Mathlib.Order.Bounds.Defs
import Verif.Lemmas.WorstError
/-!
# C89: the largest errors of encoding
-/

namespace Verif
open Spec

/-- `f` of a triple. -/
abbrev at3 {α β : Type} (f : α → α → α → β) (c : α × α × α) : β := f c.1 c.2.1 c.2.2

theorem at_worst_luma (s : Std) :
    |((at3 (luma s) (worstYAt s) : ℤ) : ℚ) -
      idealY s (worstYAt s).1 (worstYAt s).2.1 (worstYAt s).2.2| = worstY s := by
  cases s <;> simp only [at3, worstYAt]
  · rw [show luma .bt601 239 254 11 = 207 by decide]
    norm_num [idealY, lumaSignal, Kr, Kg, Kb, yScale, Std.fullRange, lumaOffset, worstY, abs]
  · rw [show luma .bt709 200 8 243 = 73 by decide]
    norm_num [idealY, lumaSignal, Kr, Kg, Kb, yScale, Std.fullRange, lumaOffset, worstY, abs]
  · rw [show luma .bt601FR 163 0 226 = 74 by decide]
    norm_num [idealY, lumaSignal, Kr, Kg, Kb, yScale, Std.fullRange, lumaOffset, worstY, abs]
  · rw [show luma .bt709FR 0 234 2 = 167 by decide]
    norm_num [idealY, lumaSignal, Kr, Kg, Kb, yScale, Std.fullRange, lumaOffset, worstY, abs]

theorem at_worst_cb (s : Std) :
    |((at3 (cb s) (worstCbAt s) : ℤ) : ℚ) -
      idealCb s (worstCbAt s).1 (worstCbAt s).2.1 (worstCbAt s).2.2| = worstCb s := by
  cases s <;> simp only [at3, worstCbAt]
  · rw [show cb .bt601 192 251 0 = 26 by decide]
    norm_num [idealCb, lumaSignal, Kr, Kg, Kb, cScale, Std.fullRange, worstCb, abs]
  · rw [show cb .bt709 254 242 0 = 20 by decide]
    norm_num [idealCb, lumaSignal, Kr, Kg, Kb, cScale, Std.fullRange, worstCb, abs]
  · rw [show cb .bt601FR 160 0 193 = 197 by decide]
    norm_num [idealCb, lumaSignal, Kr, Kg, Kb, cScale, Std.fullRange, worstCb, abs]
  · rw [show cb .bt709FR 144 0 194 = 208 by decide]
    norm_num [idealCb, lumaSignal, Kr, Kg, Kb, cScale, Std.fullRange, worstCb, abs]

theorem at_worst_cr (s : Std) :
    |((at3 (cr s) (worstCrAt s) : ℤ) : ℚ) -
      idealCr s (worstCrAt s).1 (worstCrAt s).2.1 (worstCrAt s).2.2| = worstCr s := by
  cases s <;> simp only [at3, worstCrAt]
  · rw [show cr .bt601 7 0 246 = 113 by decide]
    norm_num [idealCr, lumaSignal, Kr, Kg, Kb, cScale, Std.fullRange, worstCr, abs]
  · rw [show cr .bt709 0 9 246 = 114 by decide]
    norm_num [idealCr, lumaSignal, Kr, Kg, Kb, cScale, Std.fullRange, worstCr, abs]
  · rw [show cr .bt601FR 215 246 0 = 132 by decide]
    norm_num [idealCr, lumaSignal, Kr, Kg, Kb, cScale, Std.fullRange, worstCr, abs]
  · rw [show cr .bt709FR 245 0 109 = 245 by decide]
    norm_num [idealCr, lumaSignal, Kr, Kg, Kb, cScale, Std.fullRange, worstCr, abs]

/-- The worst colours are no ties: both ways of rounding give the same sample. -/
theorem at_worst_ties (s : Std) :
    at3 (cbUp s) (worstCbAt s) = at3 (cb s) (worstCbAt s) ∧
    at3 (crUp s) (worstCrAt s) = at3 (cr s) (worstCrAt s) := by
  cases s <;> decide

theorem worst_bytes (s : Std) :
    (IsByte (worstYAt s).1 ∧ IsByte (worstYAt s).2.1 ∧ IsByte (worstYAt s).2.2) ∧
    (IsByte (worstCbAt s).1 ∧ IsByte (worstCbAt s).2.1 ∧ IsByte (worstCbAt s).2.2) ∧
    IsByte (worstCrAt s).1 ∧ IsByte (worstCrAt s).2.1 ∧ IsByte (worstCrAt s).2.2 := by
  unfold IsByte
  cases s <;> decide

/-- C89: the largest errors over all colours, for each of the two ways of rounding chroma. -/
theorem C89_greatest (s : Std) :
    IsGreatest (Distances (luma s) (idealY s)) (worstY s) ∧
    IsGreatest (Distances (cb s) (idealCb s)) (worstCb s) ∧
    IsGreatest (Distances (cr s) (idealCr s)) (worstCr s) ∧
    IsGreatest (Distances (cbUp s) (idealCb s)) (worstCb s) ∧
    IsGreatest (Distances (crUp s) (idealCr s)) (worstCr s) := by
  obtain ⟨⟨y1, y2, y3⟩, ⟨u1, u2, u3⟩, v1, v2, v3⟩ := worst_bytes s
  obtain ⟨t1, t2⟩ := at_worst_ties s
  refine ⟨⟨⟨_, _, _, y1, y2, y3, (at_worst_luma s).symm⟩, ?_⟩,
    ⟨⟨_, _, _, u1, u2, u3, (at_worst_cb s).symm⟩, ?_⟩,
    ⟨⟨_, _, _, v1, v2, v3, (at_worst_cr s).symm⟩, ?_⟩,
    ⟨⟨_, _, _, u1, u2, u3, ?_⟩, ?_⟩, ⟨⟨_, _, _, v1, v2, v3, ?_⟩, ?_⟩⟩
  · rintro _ ⟨r, g, b, hr, hg, hb, rfl⟩; exact worst_luma s hr hg hb
  · rintro _ ⟨r, g, b, hr, hg, hb, rfl⟩; exact worst_cb s hr hg hb
  · rintro _ ⟨r, g, b, hr, hg, hb, rfl⟩; exact worst_cr s hr hg hb
  · rw [← at_worst_cb, ← t1]
  · rintro _ ⟨r, g, b, hr, hg, hb, rfl⟩; exact worst_cbUp s hr hg hb
  · rw [← at_worst_cr, ← t2]
  · rintro _ ⟨r, g, b, hr, hg, hb, rfl⟩; exact worst_crUp s hr hg hb

/-- A yellow: the stored code is 207, the exact value 206.498. -/
example : luma .bt601 239 254 11 = 207 ∧ idealY .bt601 239 254 11 = 17552349 / 85000 := by
  constructor
  · decide
  · norm_num [idealY, lumaSignal, Kr, Kb, Kg, yScale, lumaOffset, Std.fullRange]

/-- C89 of the stored samples: whatever is encoded, on every processor, the error of luma is at most
the greatest error; that of 4:4:4 chroma too. -/
theorem C89_stored {t : Target} {cpu : Cpu} {c : Call} {out : List Buf} (hv : Valid t c)
    (hk : c.Encodes) (ho : Stores t crate cpu c out) {x y : Nat} (hp : c.Pixel x y) :
    let s := std c.dst_format.color_space
    let r : ℚ := val (c.rgbIn.r x y)
    let g : ℚ := val (c.rgbIn.g x y)
    let b : ℚ := val (c.rgbIn.b x y)
    |val ((c.yuvOut out).y x y) - idealY s r g b| ≤ worstY s ∧
    (c.dst_format.pixel_format = .i444 →
      |val ((c.yuvOut out).cb x y) - idealCb s r g b| ≤ worstCb s ∧
      |val ((c.yuvOut out).cr x y) - idealCr s r g b| ≤ worstCr s) := by
  have hr := isByte_val (c.rgbIn.r x y)
  have hg := isByte_val (c.rgbIn.g x y)
  have hb := isByte_val (c.rgbIn.b x y)
  obtain ⟨e1, e2, e3, -, -⟩ := C35_no_truncation (std c.dst_format.color_space) hr hg hb
    (isSum4 c.rgbIn.r 0 0) (isSum4 c.rgbIn.g 0 0) (isSum4 c.rgbIn.b 0 0)
  obtain ⟨⟨u2, u3, -, -⟩, -⟩ := C35_ties (std c.dst_format.color_space) hr hg hb
    (isSum4 c.rgbIn.r 0 0) (isSum4 c.rgbIn.g 0 0) (isSum4 c.rgbIn.b 0 0)
  intro s r g b
  refine ⟨?_, fun hd => ?_⟩
  · rw [C20_luma hv hk ho hp, e1]
    exact worst_luma _ hr hg hb
  · obtain ⟨h2, h3⟩ := C22_chroma_444_ties hv hk hd ho hp
    constructor
    · rcases h2 with h2 | h2 <;> rw [h2]
      · rw [e2]; exact worst_cb _ hr hg hb
      · rw [val_byte u2]; exact worst_cbUp _ hr hg hb
    · rcases h3 with h3 | h3 <;> rw [h3]
      · rw [e3]; exact worst_cr _ hr hg hb
      · rw [val_byte u3]; exact worst_crUp _ hr hg hb

/-- C89: the bounds are met by every conversion, on every processor, of an image with a pixel of the
worst colour. -/
theorem C89_attained {t : Target} {cpu : Cpu} {c : Call} {out : List Buf} (hv : Valid t c)
    (hk : c.Encodes) (ho : Stores t crate cpu c out) {x y : Nat} (hp : c.Pixel x y) :
    let s := std c.dst_format.color_space
    let rgb := (val (c.rgbIn.r x y), val (c.rgbIn.g x y), val (c.rgbIn.b x y))
    (rgb = worstYAt s →
      |val ((c.yuvOut out).y x y) - idealY s rgb.1 rgb.2.1 rgb.2.2| = worstY s) ∧
    (c.dst_format.pixel_format = .i444 → rgb = worstCbAt s →
      |val ((c.yuvOut out).cb x y) - idealCb s rgb.1 rgb.2.1 rgb.2.2| = worstCb s) ∧
    (c.dst_format.pixel_format = .i444 → rgb = worstCrAt s →
      |val ((c.yuvOut out).cr x y) - idealCr s rgb.1 rgb.2.1 rgb.2.2| = worstCr s) := by
  have hr := isByte_val (c.rgbIn.r x y)
  have hg := isByte_val (c.rgbIn.g x y)
  have hb := isByte_val (c.rgbIn.b x y)
  obtain ⟨e1, e2, e3, -, -⟩ := C35_no_truncation (std c.dst_format.color_space) hr hg hb
    (isSum4 c.rgbIn.r 0 0) (isSum4 c.rgbIn.g 0 0) (isSum4 c.rgbIn.b 0 0)
  obtain ⟨⟨u2, u3, -, -⟩, -⟩ := C35_ties (std c.dst_format.color_space) hr hg hb
    (isSum4 c.rgbIn.r 0 0) (isSum4 c.rgbIn.g 0 0) (isSum4 c.rgbIn.b 0 0)
  obtain ⟨t1, t2⟩ := at_worst_ties (std c.dst_format.color_space)
  intro s rgb
  refine ⟨fun h => ?_, fun hd h => ?_, fun hd h => ?_⟩
  · rw [C20_luma hv hk ho hp, e1, ← at_worst_luma, ← h]
  · have h2 := (C22_chroma_444_ties hv hk hd ho hp).1
    rw [← at_worst_cb, ← h]
    rw [← h] at t1
    rcases h2 with h2 | h2 <;> rw [h2]
    · rw [e2]
    · rw [val_byte u2]; exact congrArg (fun z : ℤ => |(z : ℚ) - _|) t1
  · have h3 := (C22_chroma_444_ties hv hk hd ho hp).2
    rw [← at_worst_cr, ← h]
    rw [← h] at t2
    rcases h3 with h3 | h3 <;> rw [h3]
    · rw [e3]
    · rw [val_byte u3]; exact congrArg (fun z : ℤ => |(z : ℚ) - _|) t2

/-- Three pixels of the worst colours of `Bt709FR`, encoded on NEON. -/
example : ∃ out, Stores .x64 crate neonCpu
      { exEncode444 with src_buffers := [⟨18, fun i =>
        [2, 234, 0, 194, 0, 144, 109, 0, 245].getD i 0⟩] } out ∧
    |val (({ exEncode444 with src_buffers := [⟨18, fun i =>
        [2, 234, 0, 194, 0, 144, 109, 0, 245].getD i 0⟩] } : Call).yuvOut out |>.cb 1 0) -
      idealCb .bt709FR (144 : ℤ) (0 : ℤ) (194 : ℤ)| = 4654 / 9278 := by
  obtain ⟨out, ho⟩ := valid_stores (cpu := neonCpu)
    (valid_of_check (t := .x64) (c := { exEncode444 with src_buffers := [⟨18, fun i =>
        [2, 234, 0, 194, 0, 144, 109, 0, 245].getD i 0⟩] }) (by decide +kernel))
    fun _ _ _ _ => trivial
  exact ⟨out, ho, (C89_attained (valid_of_check (by decide +kernel)) (by decide) ho
    (x := 1) (y := 0) ⟨by decide, by decide⟩).2.1 rfl (by decide)⟩

/-- C89: in full range the nearest coefficients cannot be used, one of those of red and green has to
be increased by one. The tables increase one of them; increasing the other would have made the worst
error of chroma larger. -/
theorem C89_choice (s : Std) (hs : s.fullRange = true) :
    -((cbNearest s).1 + (cbNearest s).2) = 32768 ∧
    ∃ k k', ((k = 1 ∧ k' = 0) ∨ (k = 0 ∧ k' = 1)) ∧
      (∀ r g b, cb s r g b = cbWith ((cbNearest s).1 + k) ((cbNearest s).2 + k') r g b) ∧
      ∃ r g b : ℤ, IsByte r ∧ IsByte g ∧ IsByte b ∧
        max (worstCb s) (worstCr s) <
          |(cbWith ((cbNearest s).1 + k') ((cbNearest s).2 + k) r g b : ℚ) - idealCb s r g b| := by
  cases s <;> cases hs
  · refine ⟨by decide, 0, 1, .inr ⟨rfl, rfl⟩, fun r g b => ?_, 0, 163, 215, ?_⟩
    · simp only [cb, cbWith, dot, cbCoef, cbNearest]
      congr 2; ring
    · refine ⟨by unfold IsByte; decide, by unfold IsByte; decide, by unfold IsByte; decide, ?_⟩
      rw [show cbWith _ _ 0 163 215 = 181 by decide]
      norm_num [idealCb, lumaSignal, Kr, Kg, Kb, cScale, Std.fullRange, worstCb, worstCr, abs]
  · refine ⟨by decide, 1, 0, .inl ⟨rfl, rfl⟩, fun r g b => ?_, 240, 0, 80, ?_⟩
    · simp only [cb, cbWith, dot, cbCoef, cbNearest]
      congr 2; ring
    · refine ⟨by unfold IsByte; decide, by unfold IsByte; decide, by unfold IsByte; decide, ?_⟩
      rw [show cbWith _ _ 240 0 80 = 140 by decide]
      norm_num [idealCb, lumaSignal, Kr, Kg, Kb, cScale, Std.fullRange, worstCb, worstCr, abs]

/-- The nearest coefficients are what they are called. -/
theorem C89_nearest (s : Std) :
    |65536 * (idealCb s 1 0 0 - 128) - (cbNearest s).1| < 1 / 2 ∧
    |65536 * (idealCb s 0 1 0 - 128) - (cbNearest s).2| < 1 / 2 := by
  cases s <;>
    norm_num [idealCb, lumaSignal, Kr, Kg, Kb, cScale, Std.fullRange, cbNearest, abs_lt]

end Verif
