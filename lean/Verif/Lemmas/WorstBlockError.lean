import Verif.Spec.WorstBlock
import Verif.Lemmas.WorstBlock
import Verif.Lemmas.WorstError
/-!
# Worst encoding errors of 4:2:0 chroma, as distances from the exact values
-/

namespace Verif
open Spec WorstBlock

theorem worst_cbAvg (s : Std) {r g b : ℤ} (hr : IsSum4 r) (hg : IsSum4 g) (hb : IsSum4 b) :
    |(cbAvg s r g b : ℚ) - idealCb s (r / 4) (g / 4) (b / 4)| ≤ worstCb420 s := by
  rw [abs_sub_comm]
  unfold IsSum4 at hr hg hb
  cases s
  · have h := u601b_worst (p := r - b) (q := g - b) (by omega) (by omega) (by omega)
    have e : cbAvg .bt601 r g b =
        128 + (-9714 * (r - b) - 19071 * (g - b) + 131071) / 262144 := by
      simp only [cbAvg, roundDown, dot, cbCoef]
      omega
    rw [e, show worstCb420 .bt601 = ((56716 : ℤ) : ℚ) / (112965 : ℤ) by norm_num [worstCb420]]
    generalize (-9714 * (r - b) - 19071 * (g - b) + 131071) / 262144 = k at h
    refine le_trans (le_of_eq ?_) (abs_le_div (L := 112965) (by norm_num) h)
    congr 1
    simp only [idealCb, lumaSignal, Kr, Kg, Kb, cScale, Std.fullRange]
    push_cast
    norm_num
    ring
  · have h := u709b_worst (p := r - b) (q := g - b) (by omega) (by omega) (by omega)
    have e : cbAvg .bt709 r g b =
        128 + (-6596 * (r - b) - 22189 * (g - b) + 131071) / 262144 := by
      simp only [cbAvg, roundDown, dot, cbCoef]
      omega
    rw [e, show worstCb420 .bt709 = ((593932 : ℤ) : ℚ) / (1182945 : ℤ) by norm_num [worstCb420]]
    generalize (-6596 * (r - b) - 22189 * (g - b) + 131071) / 262144 = k at h
    refine le_trans (le_of_eq ?_) (abs_le_div (L := 1182945) (by norm_num) h)
    congr 1
    simp only [idealCb, lumaSignal, Kr, Kg, Kb, cScale, Std.fullRange]
    push_cast
    norm_num
    ring
  · have h := u601FRb_worst (p := r - b) (q := g - b) (by omega) (by omega) (by omega)
    have e : cbAvg .bt601FR r g b =
        128 + (-11058 * (r - b) - 21709 * (g - b) + 131071) / 262144 := by
      simp only [cbAvg, roundDown, dot, cbCoef]
      omega
    rw [e, show worstCb420 .bt601FR = ((3570 : ℤ) : ℚ) / (7088 : ℤ) by norm_num [worstCb420]]
    generalize (-11058 * (r - b) - 21709 * (g - b) + 131071) / 262144 = k at h
    refine le_trans (le_of_eq ?_) (abs_le_div (L := 7088) (by norm_num) h)
    congr 1
    simp only [idealCb, lumaSignal, Kr, Kg, Kb, cScale, Std.fullRange]
    push_cast
    norm_num
    ring
  · have h := u709FRb_worst (p := r - b) (q := g - b) (by omega) (by omega) (by omega)
    have e : cbAvg .bt709FR r g b =
        128 + (-7508 * (r - b) - 25259 * (g - b) + 131071) / 262144 := by
      simp only [cbAvg, roundDown, dot, cbCoef]
      omega
    rw [e, show worstCb420 .bt709FR = ((18674 : ℤ) : ℚ) / (37112 : ℤ) by norm_num [worstCb420]]
    generalize (-7508 * (r - b) - 25259 * (g - b) + 131071) / 262144 = k at h
    refine le_trans (le_of_eq ?_) (abs_le_div (L := 37112) (by norm_num) h)
    congr 1
    simp only [idealCb, lumaSignal, Kr, Kg, Kb, cScale, Std.fullRange]
    push_cast
    norm_num
    ring

theorem worst_crAvg (s : Std) {r g b : ℤ} (hr : IsSum4 r) (hg : IsSum4 g) (hb : IsSum4 b) :
    |(crAvg s r g b : ℚ) - idealCr s (r / 4) (g / 4) (b / 4)| ≤ worstCr420 s := by
  rw [abs_sub_comm]
  unfold IsSum4 at hr hg hb
  cases s
  · have h := v601b_worst (p := r - b) (q := g - b) (by omega) (by omega) (by omega)
    have e : crAvg .bt601 r g b =
        128 + (28785 * (r - b) - 24103 * (g - b) + 131071) / 262144 := by
      simp only [crAvg, roundDown, dot, crCoef]
      omega
    rw [e, show worstCr420 .bt601 = ((89981 : ℤ) : ℚ) / (178755 : ℤ) by norm_num [worstCr420]]
    generalize (28785 * (r - b) - 24103 * (g - b) + 131071) / 262144 = k at h
    refine le_trans (le_of_eq ?_) (abs_le_div (L := 178755) (by norm_num) h)
    congr 1
    simp only [idealCr, lumaSignal, Kr, Kg, Kb, cScale, Std.fullRange]
    push_cast
    norm_num
    ring
  · have h := v709b_worst (p := r - b) (q := g - b) (by omega) (by omega) (by omega)
    have e : crAvg .bt709 r g b =
        128 + (28785 * (r - b) - 26145 * (g - b) + 131071) / 262144 := by
      simp only [crAvg, roundDown, dot, crCoef]
      omega
    rw [e, show worstCr420 .bt709 = ((504354 : ℤ) : ℚ) / (1003935 : ℤ) by norm_num [worstCr420]]
    generalize (28785 * (r - b) - 26145 * (g - b) + 131071) / 262144 = k at h
    refine le_trans (le_of_eq ?_) (abs_le_div (L := 1003935) (by norm_num) h)
    congr 1
    simp only [idealCr, lumaSignal, Kr, Kg, Kb, cScale, Std.fullRange]
    push_cast
    norm_num
    ring
  · have h := v601FRb_worst (p := r - b) (q := g - b) (by omega) (by omega) (by omega)
    have e : crAvg .bt601FR r g b =
        128 + (32767 * (r - b) - 27439 * (g - b) + 131071) / 262144 := by
      simp only [crAvg, roundDown, dot, crCoef]
      omega
    rw [e, show worstCr420 .bt601FR = ((2825 : ℤ) : ℚ) / (5608 : ℤ) by norm_num [worstCr420]]
    generalize (32767 * (r - b) - 27439 * (g - b) + 131071) / 262144 = k at h
    refine le_trans (le_of_eq ?_) (abs_le_div (L := 5608) (by norm_num) h)
    congr 1
    simp only [idealCr, lumaSignal, Kr, Kg, Kb, cScale, Std.fullRange]
    push_cast
    norm_num
    ring
  · have h := v709FRb_worst (p := r - b) (q := g - b) (by omega) (by omega) (by omega)
    have e : crAvg .bt709FR r g b =
        128 + (32767 * (r - b) - 29763 * (g - b) + 131071) / 262144 := by
      simp only [crAvg, roundDown, dot, crCoef]
      omega
    rw [e, show worstCr420 .bt709FR = ((15863 : ℤ) : ℚ) / (31496 : ℤ) by norm_num [worstCr420]]
    generalize (32767 * (r - b) - 29763 * (g - b) + 131071) / 262144 = k at h
    refine le_trans (le_of_eq ?_) (abs_le_div (L := 31496) (by norm_num) h)
    congr 1
    simp only [idealCr, lumaSignal, Kr, Kg, Kb, cScale, Std.fullRange]
    push_cast
    norm_num
    ring

theorem worst_cbAvgUp (s : Std) {r g b : ℤ} (hr : IsSum4 r) (hg : IsSum4 g) (hb : IsSum4 b) :
    |(cbAvgUp s r g b : ℚ) - idealCb s (r / 4) (g / 4) (b / 4)| ≤ worstCb420 s := by
  unfold IsSum4 at hr hg hb
  cases s
  · have h := u601b_worst (p := b - r) (q := b - g) (by omega) (by omega) (by omega)
    have e : cbAvgUp .bt601 r g b =
        128 - (-9714 * (b - r) - 19071 * (b - g) + 131071) / 262144 := by
      simp only [cbAvgUp, clamp, roundUp, dot, cbCoef]
      omega
    rw [e, show worstCb420 .bt601 = ((56716 : ℤ) : ℚ) / (112965 : ℤ) by norm_num [worstCb420]]
    generalize (-9714 * (b - r) - 19071 * (b - g) + 131071) / 262144 = k at h
    refine le_trans (le_of_eq ?_) (abs_le_div (L := 112965) (by norm_num) h)
    congr 1
    simp only [idealCb, lumaSignal, Kr, Kg, Kb, cScale, Std.fullRange]
    push_cast
    norm_num
    ring
  · have h := u709b_worst (p := b - r) (q := b - g) (by omega) (by omega) (by omega)
    have e : cbAvgUp .bt709 r g b =
        128 - (-6596 * (b - r) - 22189 * (b - g) + 131071) / 262144 := by
      simp only [cbAvgUp, clamp, roundUp, dot, cbCoef]
      omega
    rw [e, show worstCb420 .bt709 = ((593932 : ℤ) : ℚ) / (1182945 : ℤ) by norm_num [worstCb420]]
    generalize (-6596 * (b - r) - 22189 * (b - g) + 131071) / 262144 = k at h
    refine le_trans (le_of_eq ?_) (abs_le_div (L := 1182945) (by norm_num) h)
    congr 1
    simp only [idealCb, lumaSignal, Kr, Kg, Kb, cScale, Std.fullRange]
    push_cast
    norm_num
    ring
  · have h := u601FRb_worst (p := b - r) (q := b - g) (by omega) (by omega) (by omega)
    have e : cbAvgUp .bt601FR r g b =
        128 - (-11058 * (b - r) - 21709 * (b - g) + 131071) / 262144 := by
      simp only [cbAvgUp, clamp, roundUp, dot, cbCoef]
      omega
    rw [e, show worstCb420 .bt601FR = ((3570 : ℤ) : ℚ) / (7088 : ℤ) by norm_num [worstCb420]]
    generalize (-11058 * (b - r) - 21709 * (b - g) + 131071) / 262144 = k at h
    refine le_trans (le_of_eq ?_) (abs_le_div (L := 7088) (by norm_num) h)
    congr 1
    simp only [idealCb, lumaSignal, Kr, Kg, Kb, cScale, Std.fullRange]
    push_cast
    norm_num
    ring
  · have h := u709FRb_worst (p := b - r) (q := b - g) (by omega) (by omega) (by omega)
    have e : cbAvgUp .bt709FR r g b =
        128 - (-7508 * (b - r) - 25259 * (b - g) + 131071) / 262144 := by
      simp only [cbAvgUp, clamp, roundUp, dot, cbCoef]
      omega
    rw [e, show worstCb420 .bt709FR = ((18674 : ℤ) : ℚ) / (37112 : ℤ) by norm_num [worstCb420]]
    generalize (-7508 * (b - r) - 25259 * (b - g) + 131071) / 262144 = k at h
    refine le_trans (le_of_eq ?_) (abs_le_div (L := 37112) (by norm_num) h)
    congr 1
    simp only [idealCb, lumaSignal, Kr, Kg, Kb, cScale, Std.fullRange]
    push_cast
    norm_num
    ring

theorem worst_crAvgUp (s : Std) {r g b : ℤ} (hr : IsSum4 r) (hg : IsSum4 g) (hb : IsSum4 b) :
    |(crAvgUp s r g b : ℚ) - idealCr s (r / 4) (g / 4) (b / 4)| ≤ worstCr420 s := by
  unfold IsSum4 at hr hg hb
  cases s
  · have h := v601b_worst (p := b - r) (q := b - g) (by omega) (by omega) (by omega)
    have e : crAvgUp .bt601 r g b =
        128 - (28785 * (b - r) - 24103 * (b - g) + 131071) / 262144 := by
      simp only [crAvgUp, clamp, roundUp, dot, crCoef]
      omega
    rw [e, show worstCr420 .bt601 = ((89981 : ℤ) : ℚ) / (178755 : ℤ) by norm_num [worstCr420]]
    generalize (28785 * (b - r) - 24103 * (b - g) + 131071) / 262144 = k at h
    refine le_trans (le_of_eq ?_) (abs_le_div (L := 178755) (by norm_num) h)
    congr 1
    simp only [idealCr, lumaSignal, Kr, Kg, Kb, cScale, Std.fullRange]
    push_cast
    norm_num
    ring
  · have h := v709b_worst (p := b - r) (q := b - g) (by omega) (by omega) (by omega)
    have e : crAvgUp .bt709 r g b =
        128 - (28785 * (b - r) - 26145 * (b - g) + 131071) / 262144 := by
      simp only [crAvgUp, clamp, roundUp, dot, crCoef]
      omega
    rw [e, show worstCr420 .bt709 = ((504354 : ℤ) : ℚ) / (1003935 : ℤ) by norm_num [worstCr420]]
    generalize (28785 * (b - r) - 26145 * (b - g) + 131071) / 262144 = k at h
    refine le_trans (le_of_eq ?_) (abs_le_div (L := 1003935) (by norm_num) h)
    congr 1
    simp only [idealCr, lumaSignal, Kr, Kg, Kb, cScale, Std.fullRange]
    push_cast
    norm_num
    ring
  · have h := v601FRb_worst (p := b - r) (q := b - g) (by omega) (by omega) (by omega)
    have e : crAvgUp .bt601FR r g b =
        128 - (32767 * (b - r) - 27439 * (b - g) + 131071) / 262144 := by
      simp only [crAvgUp, clamp, roundUp, dot, crCoef]
      omega
    rw [e, show worstCr420 .bt601FR = ((2825 : ℤ) : ℚ) / (5608 : ℤ) by norm_num [worstCr420]]
    generalize (32767 * (b - r) - 27439 * (b - g) + 131071) / 262144 = k at h
    refine le_trans (le_of_eq ?_) (abs_le_div (L := 5608) (by norm_num) h)
    congr 1
    simp only [idealCr, lumaSignal, Kr, Kg, Kb, cScale, Std.fullRange]
    push_cast
    norm_num
    ring
  · have h := v709FRb_worst (p := b - r) (q := b - g) (by omega) (by omega) (by omega)
    have e : crAvgUp .bt709FR r g b =
        128 - (32767 * (b - r) - 29763 * (b - g) + 131071) / 262144 := by
      simp only [crAvgUp, clamp, roundUp, dot, crCoef]
      omega
    rw [e, show worstCr420 .bt709FR = ((15863 : ℤ) : ℚ) / (31496 : ℤ) by norm_num [worstCr420]]
    generalize (32767 * (b - r) - 29763 * (b - g) + 131071) / 262144 = k at h
    refine le_trans (le_of_eq ?_) (abs_le_div (L := 31496) (by norm_num) h)
    congr 1
    simp only [idealCr, lumaSignal, Kr, Kg, Kb, cScale, Std.fullRange]
    push_cast
    norm_num
    ring

end Verif
