import Mathlib.Tactic.NormNum
import Mathlib.Tactic.Ring
import Verif.Spec.Worst
import Verif.Lemmas.WorstLuma
import Verif.Props.Numeric
/-!
# Worst encoding errors, as distances from the exact values
-/

namespace Verif
open Spec Worst

theorem abs_le_div {a L M : ℤ} (hL : 0 < L) (h : -M ≤ a ∧ a ≤ M) : |(a : ℚ) / L| ≤ M / L := by
  have hL' : (0 : ℚ) < L := by exact_mod_cast hL
  rw [abs_div, abs_of_pos hL']
  apply div_le_div_of_nonneg_right _ hL'.le
  rw [abs_le]
  exact_mod_cast h

theorem worst_luma (s : Std) {r g b : ℤ} (hr : IsByte r) (hg : IsByte g) (hb : IsByte b) :
    |(luma s r g b : ℚ) - idealY s r g b| ≤ worstY s := by
  rw [abs_sub_comm]
  unfold IsByte at hr hg hb
  cases s
  · have h := y601_worst hr hg hb
    have e : luma .bt601 r g b = 16 + (16829 * r + 33039 * g + 6416 * b + 32768) / 65536 := by
      simp only [luma, lumaOffset, Std.fullRange, roundUp, dot, lumaCoef]
      simp only [Bool.false_eq_true, if_false]
      omega
    rw [e, show worstY .bt601 = ((42651 : ℤ) : ℚ) / (85000 : ℤ) by norm_num [worstY]]
    generalize (16829 * r + 33039 * g + 6416 * b + 32768) / 65536 = k at h
    refine le_trans (le_of_eq ?_) (abs_le_div (L := 85000) (by norm_num) h)
    congr 1
    simp only [idealY, lumaSignal, Kr, Kg, Kb, yScale, Std.fullRange, lumaOffset]
    push_cast
    norm_num
    ring
  · have h := y709_worst hr hg hb
    have e : luma .bt709 r g b = 16 + (11966 * r + 40254 * g + 4064 * b + 32768) / 65536 := by
      simp only [luma, lumaOffset, Std.fullRange, roundUp, dot, lumaCoef]
      simp only [Bool.false_eq_true, if_false]
      omega
    rw [e, show worstY .bt709 = ((213037 : ℤ) : ℚ) / (425000 : ℤ) by norm_num [worstY]]
    generalize (11966 * r + 40254 * g + 4064 * b + 32768) / 65536 = k at h
    refine le_trans (le_of_eq ?_) (abs_le_div (L := 425000) (by norm_num) h)
    congr 1
    simp only [idealY, lumaSignal, Kr, Kg, Kb, yScale, Std.fullRange, lumaOffset]
    push_cast
    norm_num
    ring
  · have h := y601FR_worst (p := r - b) (q := g - b) (by omega) (by omega) (by omega)
    have e : luma .bt601FR r g b = b + (19595 * (r - b) + 38470 * (g - b) + 32768) / 65536 := by
      simp only [luma, lumaOffset, Std.fullRange, roundUp, dot, lumaCoef]
      simp only [if_true]
      omega
    rw [e, show worstY .bt601FR = ((501 : ℤ) : ℚ) / (1000 : ℤ) by norm_num [worstY]]
    generalize (19595 * (r - b) + 38470 * (g - b) + 32768) / 65536 = k at h
    refine le_trans (le_of_eq ?_) (abs_le_div (L := 1000) (by norm_num) h)
    congr 1
    simp only [idealY, lumaSignal, Kr, Kg, Kb, yScale, Std.fullRange, lumaOffset]
    push_cast
    norm_num
    ring
  · have h := y709FR_worst (p := r - b) (q := g - b) (by omega) (by omega) (by omega)
    have e : luma .bt709FR r g b = b + (13933 * (r - b) + 46871 * (g - b) + 32768) / 65536 := by
      simp only [luma, lumaOffset, Std.fullRange, roundUp, dot, lumaCoef]
      simp only [if_true]
      omega
    rw [e, show worstY .bt709FR = ((2506 : ℤ) : ℚ) / (5000 : ℤ) by norm_num [worstY]]
    generalize (13933 * (r - b) + 46871 * (g - b) + 32768) / 65536 = k at h
    refine le_trans (le_of_eq ?_) (abs_le_div (L := 5000) (by norm_num) h)
    congr 1
    simp only [idealY, lumaSignal, Kr, Kg, Kb, yScale, Std.fullRange, lumaOffset]
    push_cast
    norm_num
    ring

theorem worst_cb (s : Std) {r g b : ℤ} (hr : IsByte r) (hg : IsByte g) (hb : IsByte b) :
    |(cb s r g b : ℚ) - idealCb s r g b| ≤ worstCb s := by
  rw [abs_sub_comm]
  unfold IsByte at hr hg hb
  cases s
  · have h := u601_worst (p := r - b) (q := g - b) (by omega) (by omega) (by omega)
    have e : cb .bt601 r g b = 128 + (-9714 * (r - b) - 19071 * (g - b) + 32767) / 65536 := by
      simp only [cb, roundDown, dot, cbCoef]
      omega
    rw [e, show worstCb .bt601 = ((56710 : ℤ) : ℚ) / (112965 : ℤ) by norm_num [worstCb]]
    generalize (-9714 * (r - b) - 19071 * (g - b) + 32767) / 65536 = k at h
    refine le_trans (le_of_eq ?_) (abs_le_div (L := 112965) (by norm_num) h)
    congr 1
    simp only [idealCb, lumaSignal, Kr, Kg, Kb, cScale, Std.fullRange]
    push_cast
    norm_num
    ring
  · have h := u709_worst (p := r - b) (q := g - b) (by omega) (by omega) (by omega)
    have e : cb .bt709 r g b = 128 + (-6596 * (r - b) - 22189 * (g - b) + 32767) / 65536 := by
      simp only [cb, roundDown, dot, cbCoef]
      omega
    rw [e, show worstCb .bt709 = ((593932 : ℤ) : ℚ) / (1182945 : ℤ) by norm_num [worstCb]]
    generalize (-6596 * (r - b) - 22189 * (g - b) + 32767) / 65536 = k at h
    refine le_trans (le_of_eq ?_) (abs_le_div (L := 1182945) (by norm_num) h)
    congr 1
    simp only [idealCb, lumaSignal, Kr, Kg, Kb, cScale, Std.fullRange]
    push_cast
    norm_num
    ring
  · have h := u601FR_worst (p := r - b) (q := g - b) (by omega) (by omega) (by omega)
    have e : cb .bt601FR r g b = 128 + (-11058 * (r - b) - 21709 * (g - b) + 32767) / 65536 := by
      simp only [cb, roundDown, dot, cbCoef]
      omega
    rw [e, show worstCb .bt601FR = ((890 : ℤ) : ℚ) / (1772 : ℤ) by norm_num [worstCb]]
    generalize (-11058 * (r - b) - 21709 * (g - b) + 32767) / 65536 = k at h
    refine le_trans (le_of_eq ?_) (abs_le_div (L := 1772) (by norm_num) h)
    congr 1
    simp only [idealCb, lumaSignal, Kr, Kg, Kb, cScale, Std.fullRange]
    push_cast
    norm_num
    ring
  · have h := u709FR_worst (p := r - b) (q := g - b) (by omega) (by omega) (by omega)
    have e : cb .bt709FR r g b = 128 + (-7508 * (r - b) - 25259 * (g - b) + 32767) / 65536 := by
      simp only [cb, roundDown, dot, cbCoef]
      omega
    rw [e, show worstCb .bt709FR = ((4654 : ℤ) : ℚ) / (9278 : ℤ) by norm_num [worstCb]]
    generalize (-7508 * (r - b) - 25259 * (g - b) + 32767) / 65536 = k at h
    refine le_trans (le_of_eq ?_) (abs_le_div (L := 9278) (by norm_num) h)
    congr 1
    simp only [idealCb, lumaSignal, Kr, Kg, Kb, cScale, Std.fullRange]
    push_cast
    norm_num
    ring

theorem worst_cr (s : Std) {r g b : ℤ} (hr : IsByte r) (hg : IsByte g) (hb : IsByte b) :
    |(cr s r g b : ℚ) - idealCr s r g b| ≤ worstCr s := by
  rw [abs_sub_comm]
  unfold IsByte at hr hg hb
  cases s
  · have h := v601_worst (p := r - b) (q := g - b) (by omega) (by omega) (by omega)
    have e : cr .bt601 r g b = 128 + (28785 * (r - b) - 24103 * (g - b) + 32767) / 65536 := by
      simp only [cr, roundDown, dot, crCoef]
      omega
    rw [e, show worstCr .bt601 = ((89981 : ℤ) : ℚ) / (178755 : ℤ) by norm_num [worstCr]]
    generalize (28785 * (r - b) - 24103 * (g - b) + 32767) / 65536 = k at h
    refine le_trans (le_of_eq ?_) (abs_le_div (L := 178755) (by norm_num) h)
    congr 1
    simp only [idealCr, lumaSignal, Kr, Kg, Kb, cScale, Std.fullRange]
    push_cast
    norm_num
    ring
  · have h := v709_worst (p := r - b) (q := g - b) (by omega) (by omega) (by omega)
    have e : cr .bt709 r g b = 128 + (28785 * (r - b) - 26145 * (g - b) + 32767) / 65536 := by
      simp only [cr, roundDown, dot, crCoef]
      omega
    rw [e, show worstCr .bt709 = ((504210 : ℤ) : ℚ) / (1003935 : ℤ) by norm_num [worstCr]]
    generalize (28785 * (r - b) - 26145 * (g - b) + 32767) / 65536 = k at h
    refine le_trans (le_of_eq ?_) (abs_le_div (L := 1003935) (by norm_num) h)
    congr 1
    simp only [idealCr, lumaSignal, Kr, Kg, Kb, cScale, Std.fullRange]
    push_cast
    norm_num
    ring
  · have h := v601FR_worst (p := r - b) (q := g - b) (by omega) (by omega) (by omega)
    have e : cr .bt601FR r g b = 128 + (32767 * (r - b) - 27439 * (g - b) + 32767) / 65536 := by
      simp only [cr, roundDown, dot, crCoef]
      omega
    rw [e, show worstCr .bt601FR = ((705 : ℤ) : ℚ) / (1402 : ℤ) by norm_num [worstCr]]
    generalize (32767 * (r - b) - 27439 * (g - b) + 32767) / 65536 = k at h
    refine le_trans (le_of_eq ?_) (abs_le_div (L := 1402) (by norm_num) h)
    congr 1
    simp only [idealCr, lumaSignal, Kr, Kg, Kb, cScale, Std.fullRange]
    push_cast
    norm_num
    ring
  · have h := v709FR_worst (p := r - b) (q := g - b) (by omega) (by omega) (by omega)
    have e : cr .bt709FR r g b = 128 + (32767 * (r - b) - 29763 * (g - b) + 32767) / 65536 := by
      simp only [cr, roundDown, dot, crCoef]
      omega
    rw [e, show worstCr .bt709FR = ((3958 : ℤ) : ℚ) / (7874 : ℤ) by norm_num [worstCr]]
    generalize (32767 * (r - b) - 29763 * (g - b) + 32767) / 65536 = k at h
    refine le_trans (le_of_eq ?_) (abs_le_div (L := 7874) (by norm_num) h)
    congr 1
    simp only [idealCr, lumaSignal, Kr, Kg, Kb, cScale, Std.fullRange]
    push_cast
    norm_num
    ring

theorem worst_cbUp (s : Std) {r g b : ℤ} (hr : IsByte r) (hg : IsByte g) (hb : IsByte b) :
    |(cbUp s r g b : ℚ) - idealCb s r g b| ≤ worstCb s := by
  unfold IsByte at hr hg hb
  cases s
  · have h := u601_worst (p := b - r) (q := b - g) (by omega) (by omega) (by omega)
    have e : cbUp .bt601 r g b = 128 - (-9714 * (b - r) - 19071 * (b - g) + 32767) / 65536 := by
      simp only [cbUp, clamp, roundUp, dot, cbCoef]
      omega
    rw [e, show worstCb .bt601 = ((56710 : ℤ) : ℚ) / (112965 : ℤ) by norm_num [worstCb]]
    generalize (-9714 * (b - r) - 19071 * (b - g) + 32767) / 65536 = k at h
    refine le_trans (le_of_eq ?_) (abs_le_div (L := 112965) (by norm_num) h)
    congr 1
    simp only [idealCb, lumaSignal, Kr, Kg, Kb, cScale, Std.fullRange]
    push_cast
    norm_num
    ring
  · have h := u709_worst (p := b - r) (q := b - g) (by omega) (by omega) (by omega)
    have e : cbUp .bt709 r g b = 128 - (-6596 * (b - r) - 22189 * (b - g) + 32767) / 65536 := by
      simp only [cbUp, clamp, roundUp, dot, cbCoef]
      omega
    rw [e, show worstCb .bt709 = ((593932 : ℤ) : ℚ) / (1182945 : ℤ) by norm_num [worstCb]]
    generalize (-6596 * (b - r) - 22189 * (b - g) + 32767) / 65536 = k at h
    refine le_trans (le_of_eq ?_) (abs_le_div (L := 1182945) (by norm_num) h)
    congr 1
    simp only [idealCb, lumaSignal, Kr, Kg, Kb, cScale, Std.fullRange]
    push_cast
    norm_num
    ring
  · have h := u601FR_worst (p := b - r) (q := b - g) (by omega) (by omega) (by omega)
    have e : cbUp .bt601FR r g b = 128 - (-11058 * (b - r) - 21709 * (b - g) + 32767) / 65536 := by
      simp only [cbUp, clamp, roundUp, dot, cbCoef]
      omega
    rw [e, show worstCb .bt601FR = ((890 : ℤ) : ℚ) / (1772 : ℤ) by norm_num [worstCb]]
    generalize (-11058 * (b - r) - 21709 * (b - g) + 32767) / 65536 = k at h
    refine le_trans (le_of_eq ?_) (abs_le_div (L := 1772) (by norm_num) h)
    congr 1
    simp only [idealCb, lumaSignal, Kr, Kg, Kb, cScale, Std.fullRange]
    push_cast
    norm_num
    ring
  · have h := u709FR_worst (p := b - r) (q := b - g) (by omega) (by omega) (by omega)
    have e : cbUp .bt709FR r g b = 128 - (-7508 * (b - r) - 25259 * (b - g) + 32767) / 65536 := by
      simp only [cbUp, clamp, roundUp, dot, cbCoef]
      omega
    rw [e, show worstCb .bt709FR = ((4654 : ℤ) : ℚ) / (9278 : ℤ) by norm_num [worstCb]]
    generalize (-7508 * (b - r) - 25259 * (b - g) + 32767) / 65536 = k at h
    refine le_trans (le_of_eq ?_) (abs_le_div (L := 9278) (by norm_num) h)
    congr 1
    simp only [idealCb, lumaSignal, Kr, Kg, Kb, cScale, Std.fullRange]
    push_cast
    norm_num
    ring

theorem worst_crUp (s : Std) {r g b : ℤ} (hr : IsByte r) (hg : IsByte g) (hb : IsByte b) :
    |(crUp s r g b : ℚ) - idealCr s r g b| ≤ worstCr s := by
  unfold IsByte at hr hg hb
  cases s
  · have h := v601_worst (p := b - r) (q := b - g) (by omega) (by omega) (by omega)
    have e : crUp .bt601 r g b = 128 - (28785 * (b - r) - 24103 * (b - g) + 32767) / 65536 := by
      simp only [crUp, clamp, roundUp, dot, crCoef]
      omega
    rw [e, show worstCr .bt601 = ((89981 : ℤ) : ℚ) / (178755 : ℤ) by norm_num [worstCr]]
    generalize (28785 * (b - r) - 24103 * (b - g) + 32767) / 65536 = k at h
    refine le_trans (le_of_eq ?_) (abs_le_div (L := 178755) (by norm_num) h)
    congr 1
    simp only [idealCr, lumaSignal, Kr, Kg, Kb, cScale, Std.fullRange]
    push_cast
    norm_num
    ring
  · have h := v709_worst (p := b - r) (q := b - g) (by omega) (by omega) (by omega)
    have e : crUp .bt709 r g b = 128 - (28785 * (b - r) - 26145 * (b - g) + 32767) / 65536 := by
      simp only [crUp, clamp, roundUp, dot, crCoef]
      omega
    rw [e, show worstCr .bt709 = ((504210 : ℤ) : ℚ) / (1003935 : ℤ) by norm_num [worstCr]]
    generalize (28785 * (b - r) - 26145 * (b - g) + 32767) / 65536 = k at h
    refine le_trans (le_of_eq ?_) (abs_le_div (L := 1003935) (by norm_num) h)
    congr 1
    simp only [idealCr, lumaSignal, Kr, Kg, Kb, cScale, Std.fullRange]
    push_cast
    norm_num
    ring
  · have h := v601FR_worst (p := b - r) (q := b - g) (by omega) (by omega) (by omega)
    have e : crUp .bt601FR r g b = 128 - (32767 * (b - r) - 27439 * (b - g) + 32767) / 65536 := by
      simp only [crUp, clamp, roundUp, dot, crCoef]
      omega
    rw [e, show worstCr .bt601FR = ((705 : ℤ) : ℚ) / (1402 : ℤ) by norm_num [worstCr]]
    generalize (32767 * (b - r) - 27439 * (b - g) + 32767) / 65536 = k at h
    refine le_trans (le_of_eq ?_) (abs_le_div (L := 1402) (by norm_num) h)
    congr 1
    simp only [idealCr, lumaSignal, Kr, Kg, Kb, cScale, Std.fullRange]
    push_cast
    norm_num
    ring
  · have h := v709FR_worst (p := b - r) (q := b - g) (by omega) (by omega) (by omega)
    have e : crUp .bt709FR r g b = 128 - (32767 * (b - r) - 29763 * (b - g) + 32767) / 65536 := by
      simp only [crUp, clamp, roundUp, dot, crCoef]
      omega
    rw [e, show worstCr .bt709FR = ((3958 : ℤ) : ℚ) / (7874 : ℤ) by norm_num [worstCr]]
    generalize (32767 * (b - r) - 29763 * (b - g) + 32767) / 65536 = k at h
    refine le_trans (le_of_eq ?_) (abs_le_div (L := 7874) (by norm_num) h)
    congr 1
    simp only [idealCr, lumaSignal, Kr, Kg, Kb, cScale, Std.fullRange]
    push_cast
    norm_num
    ring

end Verif
