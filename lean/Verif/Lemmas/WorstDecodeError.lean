import Verif.Lemmas.WorstDecode
import Verif.Lemmas.WorstError
import Verif.Spec.WorstDecode
/-!
# Worst decoding errors, as distances from the exact values
-/

namespace Verif
open Spec Worst

/-- Values outside the range are clamped to the same end as the exact ones. -/
theorem clamped_worst {v : ℤ} {i M e : ℚ} (hM : 0 ≤ M) (he : e < 1)
    (h : -e ≤ (v : ℚ) - i ∧ (v : ℚ) - i ≤ e)
    (hin : 0 ≤ v ∧ v ≤ 255 → |(v : ℚ) - i| ≤ M) : |((clamp v : ℤ) : ℚ) - clampQ i| ≤ M := by
  by_cases h1 : v < 0
  · have h2 : (v : ℚ) ≤ -1 := by exact_mod_cast (by omega : v ≤ -1)
    rw [show clamp v = 0 by unfold clamp; omega,
      show clampQ i = 0 from max_eq_left (min_le_of_right_le (by linarith))]
    simpa using hM
  · by_cases h2 : 255 < v
    · have h3 : (256 : ℚ) ≤ v := by exact_mod_cast (by omega : 256 ≤ v)
      rw [show clamp v = 255 by unfold clamp; omega, clampQ, min_eq_left (by linarith)]
      norm_num [hM]
    · rw [cast_clamp]
      exact (clampQ_sub _ _).trans (hin (by omega))

theorem clamped_worst_all {v : ℤ} {i M : ℚ} (h : |(v : ℚ) - i| ≤ M) :
    |((clamp v : ℤ) : ℚ) - clampQ i| ≤ M := by
  rw [cast_clamp]
  exact (clampQ_sub _ _).trans h

theorem worst_red (s : Std) {y c : ℤ} (hy : IsByte y) (hc : IsByte c) :
    |(red s y c : ℚ) - clampQ (idealR s y c)| ≤ worstR s := by
  have he := red_err s hy hc
  unfold IsByte at hy hc
  cases s
  · have e : redFix .bt601 y c / 64 = (y * 19077 / 256 + c * 26149 / 256 - 14234) / 64 := by
      simp only [redFix, dec]; omega
    refine clamped_worst (e := 0.54) (by norm_num [worstR]) (by norm_num) (by norm_num [errR] at he ⊢; exact he) fun hx => ?_
    rw [e] at hx ⊢
    have h := r601_worst hy hc hx
    generalize (y * 19077 / 256 + c * 26149 / 256 - 14234) / 64 = v at h
    rw [show worstR .bt601 = ((835217 : ℤ) : ℚ) / (1635200 : ℤ) by norm_num [worstR]]
    refine le_trans (le_of_eq ?_) (abs_le_div (L := 1635200) (by norm_num) h)
    congr 1
    simp only [idealR, signalY, Kr, yScale, cScale, Std.fullRange, lumaOffset]
    push_cast
    norm_num
    ring
  · have e : redFix .bt709 y c / 64 = (y * 19077 / 256 + c * 29372 / 256 - 15846) / 64 := by
      simp only [redFix, dec]; omega
    refine clamped_worst (e := 0.54) (by norm_num [worstR]) (by norm_num) (by norm_num [errR] at he ⊢; exact he) fun hx => ?_
    rw [e] at hx ⊢
    have h := r709_worst hy hc hx
    generalize (y * 19077 / 256 + c * 29372 / 256 - 15846) / 64 = v at h
    rw [show worstR .bt709 = ((4186274 : ℤ) : ℚ) / (8176000 : ℤ) by norm_num [worstR]]
    refine le_trans (le_of_eq ?_) (abs_le_div (L := 8176000) (by norm_num) h)
    congr 1
    simp only [idealR, signalY, Kr, yScale, cScale, Std.fullRange, lumaOffset]
    push_cast
    norm_num
    ring
  · have e : redFix .bt601FR y c / 64 = (y * 16384 / 256 + c * 22970 / 256 - 11363) / 64 := by
      simp only [redFix, dec]; omega
    refine clamped_worst_all ?_
    rw [e]
    have h := r601FR_worst hy hc
    generalize (y * 16384 / 256 + c * 22970 / 256 - 11363) / 64 = v at h
    rw [show worstR .bt601FR = ((952 : ℤ) : ℚ) / (500 : ℤ) by norm_num [worstR]]
    refine le_trans (le_of_eq ?_) (abs_le_div (L := 500) (by norm_num) h)
    congr 1
    simp only [idealR, signalY, Kr, yScale, cScale, Std.fullRange, lumaOffset]
    push_cast
    norm_num
    ring
  · have e : redFix .bt709FR y c / 64 = (y * 16384 / 256 + c * 25802 / 256 - 12768) / 64 := by
      simp only [redFix, dec]; omega
    refine clamped_worst_all ?_
    rw [e]
    have h := r709FR_worst hy hc
    generalize (y * 16384 / 256 + c * 25802 / 256 - 12768) / 64 = v at h
    rw [show worstR .bt709FR = ((5178 : ℤ) : ℚ) / (2500 : ℤ) by norm_num [worstR]]
    refine le_trans (le_of_eq ?_) (abs_le_div (L := 2500) (by norm_num) h)
    congr 1
    simp only [idealR, signalY, Kr, yScale, cScale, Std.fullRange, lumaOffset]
    push_cast
    norm_num
    ring

theorem worst_green (s : Std) {y u v : ℤ} (hy : IsByte y) (hu : IsByte u) (hv : IsByte v) :
    |(green s y u v : ℚ) - clampQ (idealG s y u v)| ≤ worstG s := by
  refine clamped_worst_all ?_
  unfold IsByte at hy hu hv
  cases s
  · have e : greenFix .bt601 y u v / 64 = (y * 19077 / 256 - u * 6419 / 256 - v * 13320 / 256 + 8709) / 64 := by
      simp only [greenFix, dec]
    have h := g601_worst hy hu hv
    rw [e]
    generalize (y * 19077 / 256 - u * 6419 / 256 - v * 13320 / 256 + 8709) / 64 = k at h
    rw [show worstG .bt601 = ((508794635 : ℤ) : ℚ) / (959862400 : ℤ) by norm_num [worstG]]
    refine le_trans (le_of_eq ?_) (abs_le_div (L := 959862400) (by norm_num) h)
    congr 1
    simp only [idealG, idealR, idealB, signalY, Kr, Kb, Kg, yScale, cScale, Std.fullRange, lumaOffset]
    push_cast
    norm_num
    ring
  · have e : greenFix .bt709 y u v / 64 = (y * 19077 / 256 - u * 3494 / 256 - v * 8731 / 256 + 4952) / 64 := by
      simp only [greenFix, dec]
    have h := g709_worst hy hu hv
    rw [e]
    generalize (y * 19077 / 256 - u * 3494 / 256 - v * 8731 / 256 + 4952) / 64 = k at h
    rw [show worstG .bt709 = ((5153754241 : ℤ) : ℚ) / (9745792000 : ℤ) by norm_num [worstG]]
    refine le_trans (le_of_eq ?_) (abs_le_div (L := 9745792000) (by norm_num) h)
    congr 1
    simp only [idealG, idealR, idealB, signalY, Kr, Kb, Kg, yScale, cScale, Std.fullRange, lumaOffset]
    push_cast
    norm_num
    ring
  · have e : greenFix .bt601FR y u v / 64 = (y * 16384 / 256 - u * 5638 / 256 - v * 11700 / 256 + 8633) / 64 := by
      simp only [greenFix, dec]
    have h := g601FR_worst (y := y) hu hv
    rw [e]
    generalize (y * 16384 / 256 - u * 5638 / 256 - v * 11700 / 256 + 8633) / 64 = k at h
    rw [show worstG .bt601FR = ((455027 : ℤ) : ℚ) / (293500 : ℤ) by norm_num [worstG]]
    refine le_trans (le_of_eq ?_) (abs_le_div (L := 293500) (by norm_num) h)
    congr 1
    simp only [idealG, idealR, idealB, signalY, Kr, Kb, Kg, yScale, cScale, Std.fullRange, lumaOffset]
    push_cast
    norm_num
    ring
  · have e : greenFix .bt709FR y u v / 64 = (y * 16384 / 256 - u * 3069 / 256 - v * 7670 / 256 + 5359) / 64 := by
      simp only [greenFix, dec]
    have h := g709FR_worst (y := y) hu hv
    rw [e]
    generalize (y * 16384 / 256 - u * 3069 / 256 - v * 7670 / 256 + 5359) / 64 = k at h
    rw [show worstG .bt709FR = ((10272424 : ℤ) : ℚ) / (8940000 : ℤ) by norm_num [worstG]]
    refine le_trans (le_of_eq ?_) (abs_le_div (L := 8940000) (by norm_num) h)
    congr 1
    simp only [idealG, idealR, idealB, signalY, Kr, Kb, Kg, yScale, cScale, Std.fullRange, lumaOffset]
    push_cast
    norm_num
    ring

theorem worst_blue (s : Std) {y c : ℤ} (hy : IsByte y) (hc : IsByte c) :
    |(blue s y c : ℚ) - clampQ (idealB s y c)| ≤ worstB s := by
  have he := blue_err s hy hc
  unfold IsByte at hy hc
  cases s
  · have e : blueFix .bt601 y c / 64 = (y * 19077 / 256 + c * 33050 / 256 - 17685) / 64 := by
      simp only [blueFix, dec]; omega
    refine clamped_worst (e := 0.54) (by norm_num [worstB]) (by norm_num) (by norm_num [errR] at he ⊢; exact he) fun hx => ?_
    rw [e] at hx ⊢
    have h := b601_worst hy hc hx
    generalize (y * 19077 / 256 + c * 33050 / 256 - 17685) / 64 = v at h
    rw [show worstB .bt601 = ((419302 : ℤ) : ℚ) / (817600 : ℤ) by norm_num [worstB]]
    refine le_trans (le_of_eq ?_) (abs_le_div (L := 817600) (by norm_num) h)
    congr 1
    simp only [idealB, signalY, Kb, yScale, cScale, Std.fullRange, lumaOffset]
    push_cast
    norm_num
    ring
  · have e : blueFix .bt709 y c / 64 = (y * 19077 / 256 + c * 34610 / 256 - 18465) / 64 := by
      simp only [blueFix, dec]; omega
    refine clamped_worst (e := 0.54) (by norm_num [worstB]) (by norm_num) (by norm_num [errR] at he ⊢; exact he) fun hx => ?_
    rw [e] at hx ⊢
    have h := b709_worst hy hc hx
    generalize (y * 19077 / 256 + c * 34610 / 256 - 18465) / 64 = v at h
    rw [show worstB .bt709 = ((4209123 : ℤ) : ℚ) / (8176000 : ℤ) by norm_num [worstB]]
    refine le_trans (le_of_eq ?_) (abs_le_div (L := 8176000) (by norm_num) h)
    congr 1
    simp only [idealB, signalY, Kb, yScale, cScale, Std.fullRange, lumaOffset]
    push_cast
    norm_num
    ring
  · have e : blueFix .bt601FR y c / 64 = (y * 16384 / 256 + c * 29032 / 256 - 14370) / 64 := by
      simp only [blueFix, dec]; omega
    refine clamped_worst_all ?_
    rw [e]
    have h := b601FR_worst hy hc
    generalize (y * 16384 / 256 + c * 29032 / 256 - 14370) / 64 = v at h
    rw [show worstB .bt601FR = ((570 : ℤ) : ℚ) / (250 : ℤ) by norm_num [worstB]]
    refine le_trans (le_of_eq ?_) (abs_le_div (L := 250) (by norm_num) h)
    congr 1
    simp only [idealB, signalY, Kb, yScale, cScale, Std.fullRange, lumaOffset]
    push_cast
    norm_num
    ring
  · have e : blueFix .bt709FR y c / 64 = (y * 16384 / 256 + c * 30402 / 256 - 15050) / 64 := by
      simp only [blueFix, dec]; omega
    refine clamped_worst_all ?_
    rw [e]
    have h := b709FR_worst hy hc
    generalize (y * 16384 / 256 + c * 30402 / 256 - 15050) / 64 = v at h
    rw [show worstB .bt709FR = ((5894 : ℤ) : ℚ) / (2500 : ℤ) by norm_num [worstB]]
    refine le_trans (le_of_eq ?_) (abs_le_div (L := 2500) (by norm_num) h)
    congr 1
    simp only [idealB, signalY, Kb, yScale, cScale, Std.fullRange, lumaOffset]
    push_cast
    norm_num
    ring

theorem worst_redShifted (s : Std) (hs : s.fullRange = true) {y c : ℤ} (hy : IsByte y) (hc : IsByte c) :
    |(red s y c : ℚ) - clampQ (idealR s y (c + 1))| ≤ shiftedR s := by
  unfold IsByte at hy hc
  cases s
  · cases hs
  · cases hs
  · have e : redFix .bt601FR y c / 64 = (y * 16384 / 256 + c * 22970 / 256 - 11363) / 64 := by
      simp only [redFix, dec]; omega
    refine clamped_worst_all ?_
    rw [e]
    have h := r601FRc_worst hy hc
    generalize (y * 16384 / 256 + c * 22970 / 256 - 11363) / 64 = v at h
    rw [show shiftedR .bt601FR = ((251 : ℤ) : ℚ) / (500 : ℤ) by norm_num [shiftedR]]
    refine le_trans (le_of_eq ?_) (abs_le_div (L := 500) (by norm_num) h)
    congr 1
    simp only [idealR, signalY, Kr, yScale, cScale, Std.fullRange, lumaOffset]
    push_cast
    norm_num
    ring
  · have e : redFix .bt709FR y c / 64 = (y * 16384 / 256 + c * 25802 / 256 - 12768) / 64 := by
      simp only [redFix, dec]; omega
    refine clamped_worst_all ?_
    rw [e]
    have h := r709FRc_worst hy hc
    generalize (y * 16384 / 256 + c * 25802 / 256 - 12768) / 64 = v at h
    rw [show shiftedR .bt709FR = ((1241 : ℤ) : ℚ) / (2500 : ℤ) by norm_num [shiftedR]]
    refine le_trans (le_of_eq ?_) (abs_le_div (L := 2500) (by norm_num) h)
    congr 1
    simp only [idealR, signalY, Kr, yScale, cScale, Std.fullRange, lumaOffset]
    push_cast
    norm_num
    ring

theorem worst_greenShifted (s : Std) (hs : s.fullRange = true) {y u v : ℤ} (hu : IsByte u) (hv : IsByte v) :
    |(green s y u v : ℚ) - clampQ (idealG s y (u + 1) (v + 1))| ≤ shiftedG s := by
  refine clamped_worst_all ?_
  unfold IsByte at  hu hv
  cases s
  · cases hs
  · cases hs
  · have e : greenFix .bt601FR y u v / 64 = (y * 16384 / 256 - u * 5638 / 256 - v * 11700 / 256 + 8633) / 64 := by
      simp only [greenFix, dec]
    have h := g601FRc_worst (y := y) hu hv
    rw [e]
    generalize (y * 16384 / 256 - u * 5638 / 256 - v * 11700 / 256 + 8633) / 64 = k at h
    rw [show shiftedG .bt601FR = ((155285 : ℤ) : ℚ) / (293500 : ℤ) by norm_num [shiftedG]]
    refine le_trans (le_of_eq ?_) (abs_le_div (L := 293500) (by norm_num) h)
    congr 1
    simp only [idealG, idealR, idealB, signalY, Kr, Kb, Kg, yScale, cScale, Std.fullRange, lumaOffset]
    push_cast
    norm_num
    ring
  · have e : greenFix .bt709FR y u v / 64 = (y * 16384 / 256 - u * 3069 / 256 - v * 7670 / 256 + 5359) / 64 := by
      simp only [greenFix, dec]
    have h := g709FRc_worst (y := y) hu hv
    rw [e]
    generalize (y * 16384 / 256 - u * 3069 / 256 - v * 7670 / 256 + 5359) / 64 = k at h
    rw [show shiftedG .bt709FR = ((4681782 : ℤ) : ℚ) / (8940000 : ℤ) by norm_num [shiftedG]]
    refine le_trans (le_of_eq ?_) (abs_le_div (L := 8940000) (by norm_num) h)
    congr 1
    simp only [idealG, idealR, idealB, signalY, Kr, Kb, Kg, yScale, cScale, Std.fullRange, lumaOffset]
    push_cast
    norm_num
    ring

theorem worst_blueShifted (s : Std) (hs : s.fullRange = true) {y c : ℤ} (hy : IsByte y) (hc : IsByte c) :
    |(blue s y c : ℚ) - clampQ (idealB s y (c + 1))| ≤ shiftedB s := by
  unfold IsByte at hy hc
  cases s
  · cases hs
  · cases hs
  · have e : blueFix .bt601FR y c / 64 = (y * 16384 / 256 + c * 29032 / 256 - 14370) / 64 := by
      simp only [blueFix, dec]; omega
    refine clamped_worst_all ?_
    rw [e]
    have h := b601FRc_worst hy hc
    generalize (y * 16384 / 256 + c * 29032 / 256 - 14370) / 64 = v at h
    rw [show shiftedB .bt601FR = ((127 : ℤ) : ℚ) / (250 : ℤ) by norm_num [shiftedB]]
    refine le_trans (le_of_eq ?_) (abs_le_div (L := 250) (by norm_num) h)
    congr 1
    simp only [idealB, signalY, Kb, yScale, cScale, Std.fullRange, lumaOffset]
    push_cast
    norm_num
    ring
  · have e : blueFix .bt709FR y c / 64 = (y * 16384 / 256 + c * 30402 / 256 - 15050) / 64 := by
      simp only [blueFix, dec]; omega
    refine clamped_worst_all ?_
    rw [e]
    have h := b709FRc_worst hy hc
    generalize (y * 16384 / 256 + c * 30402 / 256 - 15050) / 64 = v at h
    rw [show shiftedB .bt709FR = ((1255 : ℤ) : ℚ) / (2500 : ℤ) by norm_num [shiftedB]]
    refine le_trans (le_of_eq ?_) (abs_le_div (L := 2500) (by norm_num) h)
    congr 1
    simp only [idealB, signalY, Kb, yScale, cScale, Std.fullRange, lumaOffset]
    push_cast
    norm_num
    ring

end Verif
