import Verif.Model.GenWeights
import Verif.Props.Worst
/-!
# C95: the coefficient tables are those computed by genweights.py
-/

namespace Verif
open Spec GenWeights

theorem foldl_le_iff {σ : Type} (p : σ → ℚ) {F : σ → ℕ → σ} {Q : ℕ → Prop} {c : ℚ}
    (h : ∀ e x, p (F e x) ≤ c ↔ p e ≤ c ∧ Q x) (l : List ℕ) :
    ∀ e, p (l.foldl F e) ≤ c ↔ p e ≤ c ∧ ∀ x ∈ l, Q x := by
  induction l with
  | nil => intro e; simp
  | cons a l ih =>
    intro e
    rw [List.foldl_cons, ih, h]
    simp only [List.mem_cons, forall_eq_or_imp, and_assoc]

/-- What the loops of the script compute: the largest distance over all colours. -/
theorem eq_of_greatest {e w : ℚ} {f : ℤ → ℤ → ℤ → ℤ} {g : ℚ → ℚ → ℚ → ℚ}
    (h : ∀ c, e ≤ c ↔ 0 ≤ c ∧ ∀ r ∈ List.range 256, ∀ g' ∈ List.range 256, ∀ b ∈ List.range 256,
      |g r g' b - f r g' b| ≤ c)
    (hw : IsGreatest (Distances f g) w) : e = w := by
  apply le_antisymm
  · rw [h]
    obtain ⟨⟨r, g', b, -, -, -, h0⟩, hw⟩ := hw
    refine ⟨h0 ▸ abs_nonneg _, fun r hr g' hg b hb => ?_⟩
    rw [List.mem_range] at hr hg hb
    apply hw
    exact ⟨r, g', b, by omega, by omega, by omega, by rw [abs_sub_comm]; rfl⟩
  · obtain ⟨⟨r, g', b, hr, hg, hb, h0⟩, -⟩ := hw
    obtain ⟨r, rfl⟩ := Int.eq_ofNat_of_zero_le hr.1
    obtain ⟨g', rfl⟩ := Int.eq_ofNat_of_zero_le hg.1
    obtain ⟨b, rfl⟩ := Int.eq_ofNat_of_zero_le hb.1
    have h1 := ((h e).1 le_rfl).2 r (by rw [List.mem_range]; omega) g' (by rw [List.mem_range]; omega)
      b (by rw [List.mem_range]; omega)
    rw [h0, abs_sub_comm]
    exact h1

theorem max_y_error_le (xr xg xb : ℤ) (ar ag ab : ℚ) (m : ℤ) (c : ℚ) :
    max_y_error xr xg xb ar ag ab m ≤ c ↔ 0 ≤ c ∧ ∀ r ∈ List.range 256, ∀ g ∈ List.range 256,
      ∀ b ∈ List.range 256, |(ab * b + (ag * g + (ar * r + m))) -
        (((xb * b + (xg * g + (xr * r + (m * 2 ^ GenWeights.FIX16 + 2 ^ (GenWeights.FIX16 - 1))))) / 2 ^ GenWeights.FIX16 : ℤ) : ℚ)|
          ≤ c := by
  unfold max_y_error
  refine foldl_le_iff (fun e : ℚ => e) (fun e r => ?_) _ _
  refine foldl_le_iff (fun e : ℚ => e) (fun e g => ?_) _ _
  refine foldl_le_iff (fun e : ℚ => e) (fun e b => ?_) _ _
  exact max_le_iff

theorem max_u_error_le (yr yg zg : ℤ) (br bg bb cr cg cb : ℚ) (c : ℚ) :
    (max_uv_error yr yg zg br bg bb cr cg cb).1 ≤ c ↔ 0 ≤ c ∧ ∀ r ∈ List.range 256,
      ∀ g ∈ List.range 256, ∀ b ∈ List.range 256, |(bb * b + (bg * g + (br * r + 128))) -
        (((-(yr + yg) * b + (yg * g + (yr * r + (128 * 2 ^ GenWeights.FIX16 + 2 ^ (GenWeights.FIX16 - 1) - 1)))) /
          2 ^ GenWeights.FIX16 : ℤ) : ℚ)| ≤ c := by
  unfold max_uv_error
  refine foldl_le_iff (fun e : ℚ × ℚ => e.1) (fun e r => ?_) _ _
  refine foldl_le_iff (fun e : ℚ × ℚ => e.1) (fun e g => ?_) _ _
  refine foldl_le_iff (fun e : ℚ × ℚ => e.1) (fun e b => ?_) _ _
  exact max_le_iff

theorem max_v_error_le (yr yg zg : ℤ) (br bg bb cr cg cb : ℚ) (c : ℚ) :
    (max_uv_error yr yg zg br bg bb cr cg cb).2 ≤ c ↔ 0 ≤ c ∧ ∀ r ∈ List.range 256,
      ∀ g ∈ List.range 256, ∀ b ∈ List.range 256, |(cb * b + (cg * g + (cr * r + 128))) -
        (((-(-(yr + yg) + zg) * b + (zg * g + (-(yr + yg) * r +
          (128 * 2 ^ GenWeights.FIX16 + 2 ^ (GenWeights.FIX16 - 1) - 1)))) / 2 ^ GenWeights.FIX16 : ℤ) : ℚ)| ≤ c := by
  unfold max_uv_error
  refine foldl_le_iff (fun e : ℚ × ℚ => e.2) (fun e r => ?_) _ _
  refine foldl_le_iff (fun e : ℚ × ℚ => e.2) (fun e g => ?_) _ _
  refine foldl_le_iff (fun e : ℚ × ℚ => e.2) (fun e b => ?_) _ _
  exact max_le_iff

/-- The exact coefficients for a standard. -/
def real (s : Std) : Real := forward (Kr s) (Kg s) (Kb s) s.fullRange

theorem real_luma (s : Std) (r g b : ℚ) :
    (real s).ab * b + ((real s).ag * g + ((real s).ar * r + lumaOffset s)) = idealY s r g b := by
  cases s <;> norm_num [real, forward, ranges, idealY, lumaSignal, yScale, lumaOffset, Kr, Kg, Kb,
    Std.fullRange, FULL_RANGE] <;> ring

theorem real_cb (s : Std) (r g b : ℚ) :
    (real s).bb * b + ((real s).bg * g + ((real s).br * r + 128)) = idealCb s r g b := by
  cases s <;> norm_num [real, forward, ranges, idealCb, lumaSignal, cScale, Kr, Kg, Kb,
    Std.fullRange, FULL_RANGE] <;> ring

theorem real_cr (s : Std) (r g b : ℚ) :
    (real s).cb * b + ((real s).cg * g + ((real s).cr * r + 128)) = idealCr s r g b := by
  cases s <;> norm_num [real, forward, ranges, idealCr, lumaSignal, cScale, Kr, Kg, Kb,
    Std.fullRange, FULL_RANGE] <;> ring

theorem round_eq {x : ℚ} {n : ℤ} (h : |x - n| < 1 / 2) : GenWeights.round x = n := by
  rw [abs_lt] at h
  rw [GenWeights.round, Int.floor_eq_iff]
  constructor <;> linarith

theorem int_eq {x : ℚ} {n : ℤ} (h0 : 0 ≤ n) (h : |x - n| < 1 / 2) :
    GenWeights.int (x + 0.5) = n := by
  rw [abs_lt] at h
  have h0 : (0 : ℚ) ≤ n := by exact_mod_cast h0
  have e : (0.5 : ℚ) = 1 / 2 := by norm_num
  rw [e, GenWeights.int, if_pos (by linarith), Int.floor_eq_iff]
  constructor <;> linarith

/-- The nearest coefficients. -/
theorem nearest_luma (s : Std) :
    |FIX16_MULT * (real s).ar - (lumaCoef s).1| < 0.497 ∧
    |FIX16_MULT * (real s).ag - (lumaCoef s).2.1| < 0.497 ∧
    |FIX16_MULT * (real s).ab - (lumaCoef s).2.2| < 0.497 := by
  cases s <;> norm_num [real, forward, ranges, Kr, Kg, Kb, Std.fullRange, FULL_RANGE, FIX16_MULT,
    GenWeights.FIX16, lumaCoef, abs_lt]

theorem nearest_chroma (s : Std) :
    |FIX16_MULT * (real s).br - (cbNearest s).1| < 0.497 ∧
    |FIX16_MULT * (real s).bg - (cbNearest s).2| < 0.497 ∧
    |FIX16_MULT * (real s).cg - (crCoef s).2.1| < 0.497 := by
  cases s <;> norm_num [real, forward, ranges, Kr, Kg, Kb, Std.fullRange, FULL_RANGE, FIX16_MULT,
    GenWeights.FIX16, crCoef, cbNearest, abs_lt]

theorem half_of {x : ℚ} (h : x < 0.497) : x < 1 / 2 := by linarith

/-- The largest errors the script reports. -/
theorem y_err_eq (s : Std) :
    max_y_error (lumaCoef s).1 (lumaCoef s).2.1 (lumaCoef s).2.2 (real s).ar (real s).ag (real s).ab
      (lumaOffset s) = worstY s := by
  refine eq_of_greatest (fun c => ?_) (C89_greatest s).1
  rw [max_y_error_le]
  simp only [real_luma]
  have e : ∀ r g b : ℤ, ((lumaCoef s).2.2 * b + ((lumaCoef s).2.1 * g + ((lumaCoef s).1 * r +
      (lumaOffset s * 2 ^ GenWeights.FIX16 + 2 ^ (GenWeights.FIX16 - 1))))) / 2 ^ GenWeights.FIX16 = luma s r g b := by
    intro r g b
    simp only [luma, roundUp, dot, GenWeights.FIX16]
    omega
  simp only [e]

theorem cb_form (s : Std) (r g b : ℤ) :
    (-((cbCoef s).1 + (cbCoef s).2.1) * b + ((cbCoef s).2.1 * g + ((cbCoef s).1 * r +
      (128 * 2 ^ GenWeights.FIX16 + 2 ^ (GenWeights.FIX16 - 1) - 1)))) / 2 ^ GenWeights.FIX16 =
    cb s r g b := by
  cases s <;> simp only [cb, roundDown, dot, cbCoef, GenWeights.FIX16] <;> omega

theorem cr_form (s : Std) (r g b : ℤ) :
    (-(-((cbCoef s).1 + (cbCoef s).2.1) + (crCoef s).2.1) * b + ((crCoef s).2.1 * g +
      (-((cbCoef s).1 + (cbCoef s).2.1) * r +
      (128 * 2 ^ GenWeights.FIX16 + 2 ^ (GenWeights.FIX16 - 1) - 1)))) / 2 ^ GenWeights.FIX16 =
    cr s r g b := by
  cases s <;> simp only [cr, roundDown, dot, crCoef, cbCoef, GenWeights.FIX16] <;> omega

theorem uv_err_eq (s : Std) :
    max_uv_error (cbCoef s).1 (cbCoef s).2.1 (crCoef s).2.1 (real s).br (real s).bg (real s).bb
      (real s).cr (real s).cg (real s).cb = (worstCb s, worstCr s) := by
  refine Prod.ext ?_ ?_
  · refine eq_of_greatest (fun c => ?_) (C89_greatest s).2.1
    rw [max_u_error_le]
    simp only [real_cb, cb_form]
  · refine eq_of_greatest (fun c => ?_) (C89_greatest s).2.2.1
    rw [max_v_error_le]
    simp only [real_cr, cr_form]

/-- Errors of a single colour are at most the error the script finds. -/
theorem le_u_err (yr yg zg : ℤ) (br bg bb cr cg cb : ℚ) {r g b : ℕ} (hr : r < 256) (hg : g < 256)
    (hb : b < 256) :
    |(bb * b + (bg * g + (br * r + 128))) -
        (((-(yr + yg) * b + (yg * g + (yr * r + (128 * 2 ^ GenWeights.FIX16 +
          2 ^ (GenWeights.FIX16 - 1) - 1)))) / 2 ^ GenWeights.FIX16 : ℤ) : ℚ)| ≤
      (max_uv_error yr yg zg br bg bb cr cg cb).1 :=
  ((max_u_error_le yr yg zg br bg bb cr cg cb _).1 le_rfl).2 r (List.mem_range.2 hr) g
    (List.mem_range.2 hg) b (List.mem_range.2 hb)

/-- The other candidate of the script for the colour-difference coefficients, in full range. -/
def otherCb : Std → ℤ × ℤ
  | .bt601FR => (-11057, -21710)
  | .bt709FR => (-7509, -25258)
  | .bt601 => (0, 0)
  | .bt709 => (0, 0)

theorem other_worse (s : Std) (hs : s.fullRange = true) :
    max (worstCb s) (worstCr s) + 0.00002 <
      (max_uv_error (otherCb s).1 (otherCb s).2 (crCoef s).2.1 (real s).br (real s).bg (real s).bb
        (real s).cr (real s).cg (real s).cb).1 := by
  cases s <;> cases hs
  · refine lt_of_lt_of_le ?_ (le_u_err _ _ _ _ _ _ _ _ _ (r := 0) (g := 163) (b := 215) (by omega)
      (by omega) (by omega))
    rw [real_cb]
    norm_num [otherCb, GenWeights.FIX16, idealCb, lumaSignal, Kr, Kg, Kb, cScale, Std.fullRange,
      worstCb, worstCr, abs]
  · refine lt_of_lt_of_le ?_ (le_u_err _ _ _ _ _ _ _ _ _ (r := 0) (g := 240) (b := 0) (by omega)
      (by omega) (by omega))
    rw [real_cb]
    norm_num [otherCb, GenWeights.FIX16, idealCb, lumaSignal, Kr, Kg, Kb, cScale, Std.fullRange,
      worstCb, worstCr, abs]

attribute [local irreducible] max_uv_error max_y_error in
theorem chroma_eq (s : Std) :
    chroma (real s) = ((cbCoef s).1, (cbCoef s).2.1, (crCoef s).2.1, (worstCb s, worstCr s)) := by
  obtain ⟨h1, h2, h3⟩ := nearest_chroma s
  have u := uv_err_eq s
  have o := other_worse s
  unfold chroma
  rw [round_eq (half_of h1), round_eq (half_of h2), round_eq (half_of h3)]
  generalize real s = f at *
  cases s <;> simp only [cbNearest, cbCoef, crCoef, otherCb, Std.fullRange, forall_const,
    Int.reduceNeg, Int.reduceAdd, Int.reduceSub, gt_iff_lt, Int.reduceLT, if_true, if_false] at u o ⊢
  · rw [u]
  · rw [u]
  · simp only [u]
    rw [if_neg]
    refine fun h => absurd (le_trans (le_max_left _ _) h) (not_le.2 ?_)
    linarith
  · simp only [u]
    rw [if_pos]
    refine le_trans ?_ (le_max_left _ _)
    linarith

/-- The command line for a standard: `genweights.py 601 0` and so on. -/
def command : Std → ℤ × ℤ
  | .bt601 => (601, 0)
  | .bt709 => (709, 0)
  | .bt601FR => (601, 1)
  | .bt709FR => (709, 1)

theorem command_weights (s : Std) :
    weights (command s).1 = some (Kr s, Kg s, Kb s) ∧ ((command s).2 == 1) = s.fullRange := by
  cases s <;> norm_num [weights, command, Kr, Kg, Kb, Std.fullRange]

theorem nearest_backward (s : Std) :
    let w := backward (Kr s) (Kg s) (Kb s) s.fullRange
    |FIX8_14_MULT * w.1 - (dec s).ky| < 0.478 ∧ |FIX8_14_MULT * w.2.1 - (dec s).kr| < 0.478 ∧
    |FIX8_14_MULT * w.2.2.1 - (dec s).kgb| < 0.478 ∧
    |FIX8_14_MULT * w.2.2.2.1 - (dec s).kgr| < 0.478 ∧
    |FIX8_14_MULT * w.2.2.2.2 - (dec s).kb| < 0.478 := by
  cases s <;> norm_num [backward, ranges, Kr, Kg, Kb, Std.fullRange, FULL_RANGE, FIX8_14_MULT,
    FIX_8_14, dec, abs_lt]

theorem half_of' {x : ℚ} (h : x < 0.478) : x < 1 / 2 := by linarith

/-- What the script prints. -/
def printed (s : Std) : Gen :=
  ⟨worstY s, worstCb s, worstCr s, (lumaCoef s).1, (lumaCoef s).2.1, (lumaCoef s).2.2, (cbCoef s).1,
    (cbCoef s).2.1, (crCoef s).2.1, (dec s).ky, (dec s).kr, (dec s).kgr, (dec s).kgb, (dec s).kb,
    -(dec s).offR, (dec s).offG, -(dec s).offB⟩

attribute [local irreducible] max_uv_error max_y_error in
theorem main_eq (s : Std) : main (command s).1 (command s).2 = some (printed s) := by
  obtain ⟨c1, c2⟩ := command_weights s
  obtain ⟨l1, l2, l3⟩ := nearest_luma s
  obtain ⟨b1, b2, b3, b4, b5⟩ := nearest_backward s
  have y := y_err_eq s
  have o : (ranges s.fullRange).1 = lumaOffset s := by cases s <;> decide
  unfold main
  simp only [c1, c2]
  have r : forward (Kr s) (Kg s) (Kb s) s.fullRange = real s := rfl
  rw [r, chroma_eq, round_eq (half_of l1), round_eq (half_of l2), round_eq (half_of l3), o, y]
  rw [int_eq (by cases s <;> decide) (half_of' b1), int_eq (by cases s <;> decide) (half_of' b2),
    int_eq (by cases s <;> decide) (half_of' b3), int_eq (by cases s <;> decide) (half_of' b4),
    int_eq (by cases s <;> decide) (half_of' b5)]
  unfold printed
  congr 2 <;> cases s <;> decide

/-- C95: run with the model and range of a colour space, the script prints the tables the library
uses for it, and reports the largest errors of C89. -/
theorem C95_tables (k : Colorimetry) :
    ∃ w, main (command k.std).1 (command k.std).2 = some w ∧
      FORWARD_WEIGHTS k = ⟨w.xr, w.xg, w.xb, w.yr, w.yg, w.zg, (FORWARD_WEIGHTS k).yo⟩ ∧
      BACKWARD_WEIGHTS k = ⟨w.xxym, w.rcrm, w.gcrm, w.gcbm, w.bcbm, w.rn, w.gp, w.bn⟩ ∧
      IsGreatest (Distances (luma k.std) (idealY k.std)) w.y_err ∧
      IsGreatest (Distances (cb k.std) (idealCb k.std)) w.u_err ∧
      IsGreatest (Distances (cr k.std) (idealCr k.std)) w.v_err := by
  obtain ⟨g1, g2, g3, -⟩ := C89_greatest k.std
  refine ⟨_, main_eq k.std, ?_, ?_, g1, g2, g3⟩ <;> cases k <;> rfl

/-- The script prints nothing for other models. -/
theorem C95_refused {m : ℤ} (h1 : m ≠ 601) (h2 : m ≠ 709) (full : ℤ) : main m full = none := by
  unfold main weights
  rw [if_neg h1, if_neg h2]

/-- The numbers the script rounds. -/
def rounded (s : Std) : List ℚ :=
  let w := backward (Kr s) (Kg s) (Kb s) s.fullRange
  [FIX16_MULT * (real s).ar, FIX16_MULT * (real s).ag, FIX16_MULT * (real s).ab,
    FIX16_MULT * (real s).br, FIX16_MULT * (real s).bg, FIX16_MULT * (real s).cg,
    FIX8_14_MULT * w.1, FIX8_14_MULT * w.2.1, FIX8_14_MULT * w.2.2.1, FIX8_14_MULT * w.2.2.2.1,
    FIX8_14_MULT * w.2.2.2.2]

theorem off_half {x : ℚ} {m : ℤ} (h : |x - m| < 0.497) (n : ℤ) : 0.003 < |x - (n + 1 / 2)| := by
  rw [abs_lt] at h
  rw [lt_abs]
  rcases le_or_gt m n with hn | hn
  · have : (m : ℚ) ≤ n := by exact_mod_cast hn
    right; linarith
  · have : (n : ℚ) + 1 ≤ m := by exact_mod_cast hn
    left; linarith

theorem rounded_off (s : Std) {x : ℚ} (hx : x ∈ rounded s) : ∃ m : ℤ, |x - m| < 0.497 := by
  obtain ⟨l1, l2, l3⟩ := nearest_luma s
  obtain ⟨d1, d2, d3⟩ := nearest_chroma s
  obtain ⟨b1, b2, b3, b4, b5⟩ := nearest_backward s
  have w : ∀ {x : ℚ}, x < 0.478 → x < 0.497 := fun h => by linarith
  simp only [rounded, List.mem_cons, List.not_mem_nil, or_false] at hx
  rcases hx with h | h | h | h | h | h | h | h | h | h | h <;> rw [h]
  exacts [⟨_, l1⟩, ⟨_, l2⟩, ⟨_, l3⟩, ⟨_, d1⟩, ⟨_, d2⟩, ⟨_, d3⟩, ⟨_, w b1⟩, ⟨_, w b2⟩, ⟨_, w b3⟩,
    ⟨_, w b4⟩, ⟨_, w b5⟩]

/-- The larger of the errors of the colour differences with given coefficients. -/
def uvError (s : Std) (k : ℤ × ℤ) : ℚ :=
  let e := max_uv_error k.1 k.2 (crCoef s).2.1 (real s).br (real s).bg (real s).bb (real s).cr
    (real s).cg (real s).cb
  max e.1 e.2

/-- Floating point errors have no influence on the tables: no number that is rounded is within 0.003
of a half, and where the script chooses between two tables (full range), the larger error is that
of the table it does not choose, by at least 0.00002. -/
theorem C95_margins (s : Std) :
    (∀ x ∈ rounded s, ∀ n : ℤ, 0.003 < |x - (n + 1 / 2)|) ∧
    (s.fullRange = true →
      uvError s ((cbCoef s).1, (cbCoef s).2.1) + 0.00002 < uvError s (otherCb s)) := by
  refine ⟨fun x hx => (rounded_off s hx).elim fun m h => off_half h, fun hs => ?_⟩
  unfold uvError
  simp only [uv_err_eq]
  exact lt_of_lt_of_le (other_worse s hs) (le_max_left _ _)

theorem round_down_eq (t : ℤ) : (t + (128 * 2 ^ 16 + 2 ^ (16 - 1) - 1)) / 2 ^ 16 =
    128 + roundDown t 65536 := by
  unfold roundDown; omega

theorem round_down_eq4 (t : ℤ) : (t + (128 * 2 ^ 18 + 2 ^ (18 - 1) - 1)) / 2 ^ 18 =
    128 + roundDown t (4 * 65536) := by
  unfold roundDown; omega

/-- The reference samples the script computes for regression tests are those of C20, C22 and C21,
for all pixels and blocks. -/
theorem C95_reference (s : Std) {w : Gen} (h : main (command s).1 (command s).2 = some w)
    (r g b : ℤ) :
    w.reference (command s).2 r g b = (luma s r g b, cb s r g b, cr s r g b) ∧
    w.reference2 r g b = (cbAvg s r g b, crAvg s r g b) := by
  rw [main_eq] at h
  cases h
  refine ⟨Prod.ext ?_ (Prod.ext ?_ ?_), Prod.ext ?_ ?_⟩
  · simp only [Gen.reference, printed, luma, roundUp, dot, (command_weights s).2, GenWeights.FIX16]
    rw [show (ranges s.fullRange).1 = lumaOffset s by cases s <;> decide]
    omega
  · simp only [Gen.reference, printed, cb, GenWeights.FIX16]
    rw [round_down_eq]
    congr 2
    cases s <;> simp only [dot, cbCoef] <;> ring
  · simp only [Gen.reference, printed, cr, GenWeights.FIX16]
    rw [round_down_eq]
    congr 2
    cases s <;> simp only [dot, cbCoef, crCoef] <;> ring
  · simp only [Gen.reference2, printed, cbAvg, GenWeights.FIX18]
    rw [round_down_eq4]
    congr 2
    cases s <;> simp only [dot, cbCoef] <;> ring
  · simp only [Gen.reference2, printed, crAvg, GenWeights.FIX18]
    rw [round_down_eq4]
    congr 2
    cases s <;> simp only [dot, cbCoef, crCoef] <;> ring

/-- C95 of whole conversions: what is stored is what the script computes as reference, on every
processor without NEON. -/
theorem C95_stored {t : Target} {cpu : Cpu} {c : Call} {out : List Buf} (hv : Valid t c)
    (hk : c.Encodes) (hn : cpu.set ≠ .neon) (ho : Stores t crate cpu c out) {x y : Nat}
    (hp : c.Pixel x y) {w : Gen}
    (hw : main (command (std c.dst_format.color_space)).1
      (command (std c.dst_format.color_space)).2 = some w) :
    let p := w.reference (command (std c.dst_format.color_space)).2 (val (c.rgbIn.r x y))
      (val (c.rgbIn.g x y)) (val (c.rgbIn.b x y))
    let p4 := w.reference2 (sum4 c.rgbIn.r (x / 2) (y / 2)) (sum4 c.rgbIn.g (x / 2) (y / 2))
      (sum4 c.rgbIn.b (x / 2) (y / 2))
    val ((c.yuvOut out).y x y) = p.1 ∧
    (c.dst_format.pixel_format = .i444 →
      val ((c.yuvOut out).cb x y) = p.2.1 ∧ val ((c.yuvOut out).cr x y) = p.2.2) ∧
    (c.dst_format.pixel_format = .i420 ∨ c.dst_format.pixel_format = .nv12 →
      val ((c.yuvOut out).cb x y) = p4.1 ∧ val ((c.yuvOut out).cr x y) = p4.2) := by
  intro p p4
  have hr := isByte_val (c.rgbIn.r x y)
  have hg := isByte_val (c.rgbIn.g x y)
  have hb := isByte_val (c.rgbIn.b x y)
  obtain ⟨e1, e2, e3, e4, e5⟩ := C35_no_truncation (std c.dst_format.color_space) hr hg hb
    (isSum4 c.rgbIn.r (x / 2) (y / 2)) (isSum4 c.rgbIn.g (x / 2) (y / 2))
    (isSum4 c.rgbIn.b (x / 2) (y / 2))
  have q : p = _ := (C95_reference _ hw _ _ _).1
  have q4 : p4 = _ := (C95_reference _ hw _ _ _).2
  rw [q, q4]
  refine ⟨by rw [C20_luma hv hk ho hp]; exact e1, fun hd => ?_, fun hd => ?_⟩
  · obtain ⟨h1, h2⟩ := C22_chroma_444_partial hv hk hn hd ho hp
    rw [h1, h2]
    exact ⟨e2, e3⟩
  · obtain ⟨h1, h2⟩ := C21_chroma_420_partial hv hk hn hd ho hp
    rw [h1, h2]
    exact ⟨e4, e5⟩

/-- `genweights.py 709 1`: the coefficients, and the references of the first pixel of its picture. -/
example : ∃ w, main 709 1 = some w ∧ (w.xr, w.yr, w.yg, w.bcbm, w.bn) =
      (13933, -7508, -25259, 30402, 15050) ∧
    w.reference 1 161 24 44 = (55, 122, 196) := by
  refine ⟨_, main_eq .bt709FR, by decide, ?_⟩
  exact (C95_reference .bt709FR (main_eq .bt709FR) 161 24 44).1.trans (by decide)

end Verif
