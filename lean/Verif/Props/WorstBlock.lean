import Mathlib.Order.Bounds.Defs
import Verif.Lemmas.WorstBlockError
import Verif.Props.Worst
/-!
# C92: the largest errors of encoding 4:2:0 chroma
-/

namespace Verif
open Spec

theorem at_worst_cbAvg (s : Std) :
    |((at3 (cbAvg s) (worstCb420At s) : ℤ) : ℚ) - idealCb s (((worstCb420At s).1 : ℚ) / 4)
      (((worstCb420At s).2.1 : ℚ) / 4) (((worstCb420At s).2.2 : ℚ) / 4)| = worstCb420 s := by
  cases s <;> simp only [at3, worstCb420At]
  · rw [show cbAvg .bt601 29 0 1007 = 238 by decide]
    norm_num [idealCb, lumaSignal, Kr, Kg, Kb, cScale, Std.fullRange, worstCb420, abs]
  · rw [show cbAvg .bt709 0 48 1016 = 236 by decide]
    norm_num [idealCb, lumaSignal, Kr, Kg, Kb, cScale, Std.fullRange, worstCb420, abs]
  · rw [show cbAvg .bt601FR 154 0 1016 = 248 by decide]
    norm_num [idealCb, lumaSignal, Kr, Kg, Kb, cScale, Std.fullRange, worstCb420, abs]
  · rw [show cbAvg .bt709FR 205 0 1019 = 249 by decide]
    norm_num [idealCb, lumaSignal, Kr, Kg, Kb, cScale, Std.fullRange, worstCb420, abs]

theorem at_worst_crAvg (s : Std) :
    |((at3 (crAvg s) (worstCr420At s) : ℤ) : ℚ) - idealCr s (((worstCr420At s).1 : ℚ) / 4)
      (((worstCr420At s).2.1 : ℚ) / 4) (((worstCr420At s).2.2 : ℚ) / 4)| = worstCr420 s := by
  cases s <;> simp only [at3, worstCr420At]
  · rw [show crAvg .bt601 28 0 984 = 113 by decide]
    norm_num [idealCr, lumaSignal, Kr, Kg, Kb, cScale, Std.fullRange, worstCr420, abs]
  · rw [show crAvg .bt709 0 194 1008 = 98 by decide]
    norm_num [idealCr, lumaSignal, Kr, Kg, Kb, cScale, Std.fullRange, worstCr420, abs]
  · rw [show crAvg .bt601FR 0 773 1013 = 27 by decide]
    norm_num [idealCr, lumaSignal, Kr, Kg, Kb, cScale, Std.fullRange, worstCr420, abs]
  · rw [show crAvg .bt709FR 0 862 1015 = 19 by decide]
    norm_num [idealCr, lumaSignal, Kr, Kg, Kb, cScale, Std.fullRange, worstCr420, abs]

/-- The worst blocks are no ties: both ways of rounding give the same sample. -/
theorem at_worst_block_ties (s : Std) :
    at3 (cbAvgUp s) (worstCb420At s) = at3 (cbAvg s) (worstCb420At s) ∧
    at3 (crAvgUp s) (worstCr420At s) = at3 (crAvg s) (worstCr420At s) := by
  cases s <;> decide

/-- Four bytes with a given sum. -/
theorem exists_block {n : ℤ} (h : IsSum4 n) :
    ∃ p : Fin 2 → Fin 2 → UInt8, val (p 0 0) + val (p 1 0) + val (p 0 1) + val (p 1 1) = n := by
  unfold IsSum4 at h
  let f (k : ℤ) : ℤ := max 0 (min 255 (n - 255 * k))
  have hf : ∀ k, IsByte (f k) := fun k => by unfold IsByte f; omega
  refine ⟨fun x y => byte (f (x.val + 2 * y.val)), ?_⟩
  simp only [val_byte (hf _)]
  simp only [f]
  norm_num
  omega

theorem worst_sums (s : Std) :
    (IsSum4 (worstCb420At s).1 ∧ IsSum4 (worstCb420At s).2.1 ∧ IsSum4 (worstCb420At s).2.2) ∧
    IsSum4 (worstCr420At s).1 ∧ IsSum4 (worstCr420At s).2.1 ∧ IsSum4 (worstCr420At s).2.2 := by
  unfold IsSum4
  cases s <;> decide

theorem mem_blockDistances {f : Int → Int → Int → Int} {g : ℚ → ℚ → ℚ → ℚ} {r g' b : ℤ}
    (hr : IsSum4 r) (hg : IsSum4 g') (hb : IsSum4 b) {e : ℚ}
    (h : |(f r g' b : ℚ) - g (r / 4) (g' / 4) (b / 4)| = e) : e ∈ BlockDistances f g := by
  obtain ⟨p, rfl⟩ := exists_block hr
  obtain ⟨p', rfl⟩ := exists_block hg
  obtain ⟨p'', rfl⟩ := exists_block hb
  exact ⟨p, p', p'', h.symm⟩

theorem block_sum (p : Fin 2 → Fin 2 → UInt8) :
    IsSum4 (val (p 0 0) + val (p 1 0) + val (p 0 1) + val (p 1 1)) := by
  have h1 := val_range (p 0 0)
  have h2 := val_range (p 1 0)
  have h3 := val_range (p 0 1)
  have h4 := val_range (p 1 1)
  unfold IsSum4
  omega

/-- C92: the largest errors over all 2x2 blocks, for each of the two ways of rounding. -/
theorem C92_greatest (s : Std) :
    IsGreatest (BlockDistances (cbAvg s) (idealCb s)) (worstCb420 s) ∧
    IsGreatest (BlockDistances (crAvg s) (idealCr s)) (worstCr420 s) ∧
    IsGreatest (BlockDistances (cbAvgUp s) (idealCb s)) (worstCb420 s) ∧
    IsGreatest (BlockDistances (crAvgUp s) (idealCr s)) (worstCr420 s) := by
  obtain ⟨⟨u1, u2, u3⟩, v1, v2, v3⟩ := worst_sums s
  obtain ⟨t1, t2⟩ := at_worst_block_ties s
  refine ⟨⟨mem_blockDistances u1 u2 u3 (at_worst_cbAvg s), ?_⟩,
    ⟨mem_blockDistances v1 v2 v3 (at_worst_crAvg s), ?_⟩,
    ⟨mem_blockDistances u1 u2 u3 ?_, ?_⟩, ⟨mem_blockDistances v1 v2 v3 ?_, ?_⟩⟩
  · rintro _ ⟨r, g, b, rfl⟩; exact worst_cbAvg s (block_sum r) (block_sum g) (block_sum b)
  · rintro _ ⟨r, g, b, rfl⟩; exact worst_crAvg s (block_sum r) (block_sum g) (block_sum b)
  · rw [← at_worst_cbAvg, ← t1]
  · rintro _ ⟨r, g, b, rfl⟩; exact worst_cbAvgUp s (block_sum r) (block_sum g) (block_sum b)
  · rw [← at_worst_crAvg, ← t2]
  · rintro _ ⟨r, g, b, rfl⟩; exact worst_crAvgUp s (block_sum r) (block_sum g) (block_sum b)

/-- C92 of the stored samples: whatever is encoded, on every processor, the error of 4:2:0 chroma is
at most the greatest error. -/
theorem C92_stored {t : Target} {cpu : Cpu} {c : Call} {out : List Buf} (hv : Valid t c)
    (hk : c.Encodes) (hd : c.dst_format.pixel_format = .i420 ∨ c.dst_format.pixel_format = .nv12)
    (ho : Stores t crate cpu c out) {x y : Nat} (hp : c.Pixel x y) :
    let s := std c.dst_format.color_space
    let ra : ℚ := (sum4 c.rgbIn.r (x / 2) (y / 2) : ℚ) / 4
    let ga : ℚ := (sum4 c.rgbIn.g (x / 2) (y / 2) : ℚ) / 4
    let ba : ℚ := (sum4 c.rgbIn.b (x / 2) (y / 2) : ℚ) / 4
    |val ((c.yuvOut out).cb x y) - idealCb s ra ga ba| ≤ worstCb420 s ∧
    |val ((c.yuvOut out).cr x y) - idealCr s ra ga ba| ≤ worstCr420 s := by
  have hr := isByte_val (c.rgbIn.r x y)
  have hr4 := isSum4 c.rgbIn.r (x / 2) (y / 2)
  have hg4 := isSum4 c.rgbIn.g (x / 2) (y / 2)
  have hb4 := isSum4 c.rgbIn.b (x / 2) (y / 2)
  obtain ⟨-, -, -, e2, e3⟩ := C35_no_truncation (std c.dst_format.color_space) hr hr hr hr4 hg4 hb4
  obtain ⟨⟨-, -, u2, u3⟩, -⟩ := C35_ties (std c.dst_format.color_space) hr hr hr hr4 hg4 hb4
  obtain ⟨h2, h3⟩ := C21_chroma_420_ties hv hk hd ho hp
  intro s ra ga ba
  constructor
  · rcases h2 with h2 | h2 <;> rw [h2]
    · rw [e2]; exact worst_cbAvg _ hr4 hg4 hb4
    · rw [val_byte u2]; exact worst_cbAvgUp _ hr4 hg4 hb4
  · rcases h3 with h3 | h3 <;> rw [h3]
    · rw [e3]; exact worst_crAvg _ hr4 hg4 hb4
    · rw [val_byte u3]; exact worst_crAvgUp _ hr4 hg4 hb4

/-- C92: the bounds are met by every conversion, on every processor, of an image with a worst
block. -/
theorem C92_attained {t : Target} {cpu : Cpu} {c : Call} {out : List Buf} (hv : Valid t c)
    (hk : c.Encodes) (hd : c.dst_format.pixel_format = .i420 ∨ c.dst_format.pixel_format = .nv12)
    (ho : Stores t crate cpu c out) {x y : Nat} (hp : c.Pixel x y) :
    let s := std c.dst_format.color_space
    let rgb := (sum4 c.rgbIn.r (x / 2) (y / 2), sum4 c.rgbIn.g (x / 2) (y / 2),
      sum4 c.rgbIn.b (x / 2) (y / 2))
    (rgb = worstCb420At s → |val ((c.yuvOut out).cb x y) -
      idealCb s ((rgb.1 : ℚ) / 4) ((rgb.2.1 : ℚ) / 4) ((rgb.2.2 : ℚ) / 4)| = worstCb420 s) ∧
    (rgb = worstCr420At s → |val ((c.yuvOut out).cr x y) -
      idealCr s ((rgb.1 : ℚ) / 4) ((rgb.2.1 : ℚ) / 4) ((rgb.2.2 : ℚ) / 4)| = worstCr420 s) := by
  have hr := isByte_val (c.rgbIn.r x y)
  have hr4 := isSum4 c.rgbIn.r (x / 2) (y / 2)
  have hg4 := isSum4 c.rgbIn.g (x / 2) (y / 2)
  have hb4 := isSum4 c.rgbIn.b (x / 2) (y / 2)
  obtain ⟨-, -, -, e2, e3⟩ := C35_no_truncation (std c.dst_format.color_space) hr hr hr hr4 hg4 hb4
  obtain ⟨⟨-, -, u2, u3⟩, -⟩ := C35_ties (std c.dst_format.color_space) hr hr hr hr4 hg4 hb4
  obtain ⟨h2, h3⟩ := C21_chroma_420_ties hv hk hd ho hp
  obtain ⟨t1, t2⟩ := at_worst_block_ties (std c.dst_format.color_space)
  intro s rgb
  constructor
  · intro h
    rw [← at_worst_cbAvg, ← h]
    rw [← h] at t1
    rcases h2 with h2 | h2 <;> rw [h2]
    · rw [e2]
    · rw [val_byte u2]; exact congrArg (fun z : ℤ => |(z : ℚ) - _|) t1
  · intro h
    rw [← at_worst_crAvg, ← h]
    rw [← h] at t2
    rcases h3 with h3 | h3 <;> rw [h3]
    · rw [e3]
    · rw [val_byte u3]; exact congrArg (fun z : ℤ => |(z : ℚ) - _|) t2

/-- The image of `exEncode` with a worst block (Bt601, Cb) on the left. -/
def exWorstBlock : Call := { exEncode with
  src_buffers := [⟨36, fun i => [255, 0, 29, 0, 255, 0, 0, 0, 1, 2, 3, 4, 5, 6, 7, 8, 0, 0, 0, 0,
    255, 0, 0, 0, 242].getD i 0⟩] }

example : ∃ out, Stores .x64 crate neonCpu exWorstBlock out ∧
    |val ((exWorstBlock.yuvOut out).cb 1 1) -
      idealCb .bt601 ((29 : ℤ) / 4) ((0 : ℤ) / 4) ((1007 : ℤ) / 4)| = 56716 / 112965 := by
  have hv : Valid .x64 exWorstBlock := valid_of_check (by decide +kernel)
  obtain ⟨out, ho⟩ := valid_stores (cpu := neonCpu) hv fun _ _ _ _ => trivial
  exact ⟨out, ho, (C92_attained hv (by decide) (.inl rfl) ho (x := 1) (y := 1)
    ⟨by decide, by decide⟩).1 (by decide +kernel)⟩

/-- C92: averaging makes it no better: the error of a block can be as large as that of a single pixel
(blocks of four equal pixels), and in every space it can be larger for one of the two samples. -/
theorem C92_compare (s : Std) :
    worstCb s ≤ worstCb420 s ∧ worstCr s ≤ worstCr420 s ∧
    (worstCb s < worstCb420 s ∨ worstCr s < worstCr420 s) := by
  cases s <;> norm_num [worstCb, worstCb420, worstCr, worstCr420]

end Verif
