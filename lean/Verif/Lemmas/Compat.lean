import Mathlib.Data.Nat.Prime.Basic
import Mathlib.Tactic.NormNum
import Mathlib.Tactic.Ring
import Verif.Spec.Api
/-! # Format checks: `is_compatible`, colour-space compatibility -/

namespace Verif

theorem u32_or_eq_zero (a b : UInt32) : (a ||| b) = 0 ↔ a = 0 ∧ b = 0 := by
  simp only [← UInt32.toNat_inj, UInt32.toNat_or]
  show (a.toNat ||| b.toNat) = 0 ↔ a.toNat = 0 ∧ b.toNat = 0
  exact Nat.or_eq_zero_iff

theorem u32_and_one (a : UInt32) : (a &&& 1) = 0 ↔ a.toNat % 2 = 0 := by
  rw [← UInt32.toNat_inj, UInt32.toNat_and]
  show a.toNat &&& 1 = 0 ↔ _
  rw [Nat.and_one_is_mod]

theorem u32_and_zero (a : UInt32) : a &&& 0 = 0 := by simp

/-- Two consecutive numbers whose product is a multiple of `2^k`. -/
theorem consecutive_dvd {k m : Nat} (h : 2 ^ k ∣ (m + 1) * m) : 2 ^ k ∣ m + 1 ∨ 2 ^ k ∣ m := by
  rcases Nat.even_or_odd m with he | ho
  · right
    have : Nat.Coprime (2 ^ k) (m + 1) := by
      apply Nat.Coprime.pow_left
      rw [Nat.coprime_two_left]
      exact he.add_one
    exact this.dvd_of_dvd_mul_left h
  · left
    have : Nat.Coprime (2 ^ k) m := by
      apply Nat.Coprime.pow_left
      rw [Nat.coprime_two_left]
      exact ho
    exact this.dvd_of_dvd_mul_right h

theorem u32_consecutive (m : UInt32) : m * (m - 1) = 0 ↔ m = 0 ∨ m = 1 := by
  constructor
  · intro h
    have h' := congrArg UInt32.toNat h
    rw [UInt32.toNat_mul] at h'
    simp only [UInt32.toNat_zero] at h'
    by_cases h0 : m = 0
    · exact .inl h0
    · right
      have hpos : 1 ≤ m.toNat := by
        rcases Nat.eq_zero_or_pos m.toNat with e | e
        · exact absurd (UInt32.toNat_inj.1 e) h0
        · exact e
      have hs : (m - 1).toNat = m.toNat - 1 := UInt32.toNat_sub_of_le m 1 (UInt32.le_iff_toNat_le.2 hpos)
      rw [hs] at h'
      have hd : 2 ^ 32 ∣ ((m.toNat - 1) + 1) * (m.toNat - 1) := by
        rw [Nat.sub_add_cancel hpos]; exact Nat.dvd_of_mod_eq_zero h'
      have hlt := m.toNat_lt
      rcases consecutive_dvd hd with h1 | h1
      · rw [Nat.sub_add_cancel hpos] at h1
        have := Nat.le_of_dvd (by omega) h1
        omega
      · by_cases h2 : m.toNat - 1 = 0
        · apply UInt32.toNat_inj.1
          show m.toNat = 1
          omega
        · have := Nat.le_of_dvd (by omega) h1
          omega
  · rintro (rfl | rfl) <;> decide

theorem u32_pred_eq (n k : UInt32) : n - 1 = k ↔ n = k + 1 := by
  constructor
  · rintro rfl; simp
  · rintro rfl; simp

/-- pixel_format.rs:174-188 decides the documented constraints. -/
theorem is_compatible_eq (pf : PixelFormat) (w h n : UInt32) :
    PixFmt.is_compatible pf.toU32 w h (n - 1) =
      .ok (decide (Spec.SizeOk pf w.toNat h.toNat ∧ Spec.PlanesOk pf n.toNat)) := by
  have key : ∀ a b c d : UInt32, ∀ P : Prop, [Decidable P] →
      (((w &&& a) ||| (h &&& b) ||| (c * d)) = 0 ↔ P) →
      ((.ok (((w &&& a) ||| (h &&& b) ||| (c * d)) == 0) : R Bool) = .ok (decide P)) := by
    intro a b c d P _ hP
    congr 1
    rw [Bool.eq_iff_iff]
    simp only [beq_iff_eq, decide_eq_true_eq]
    exact hP
  have e1 : (n - 1 - 0 = 0) ↔ n.toNat = 1 := by
    rw [UInt32.sub_zero, u32_pred_eq, ← UInt32.toNat_inj]; rfl
  have e3 : (n - 1 - 2 = 0) ↔ n.toNat = 3 := by
    rw [UInt32.sub_eq_iff_eq_add, u32_pred_eq, ← UInt32.toNat_inj]; rfl
  have e2 : ((n - 1) * (n - 1 - 1) = 0) ↔ n.toNat = 1 ∨ n.toNat = 2 := by
    rw [u32_consecutive, u32_pred_eq, u32_pred_eq, ← UInt32.toNat_inj, ← UInt32.toNat_inj]; rfl
  cases pf
  all_goals
    refine key _ _ _ _ _ ?_
  case argb | bgra | bgr | rgba | rgb =>
    show (w &&& 0 ||| h &&& 0 ||| 1 * (n - 1 - 0)) = 0 ↔ True ∧ n.toNat = 1
    simp only [u32_or_eq_zero, u32_and_zero, UInt32.one_mul, e1, true_and, and_true]
  case i444 =>
    show (w &&& 0 ||| h &&& 0 ||| 1 * (n - 1 - 2)) = 0 ↔ True ∧ n.toNat = 3
    simp only [u32_or_eq_zero, u32_and_zero, UInt32.one_mul, e3, true_and, and_true]
  case i422 =>
    show (w &&& 1 ||| h &&& 0 ||| 1 * (n - 1 - 2)) = 0 ↔ w.toNat % 2 = 0 ∧ n.toNat = 3
    simp only [u32_or_eq_zero, u32_and_zero, u32_and_one, UInt32.one_mul, e3, and_true]
  case i420 =>
    show (w &&& 1 ||| h &&& 1 ||| 1 * (n - 1 - 2)) = 0 ↔
      (w.toNat % 2 = 0 ∧ h.toNat % 2 = 0) ∧ n.toNat = 3
    simp only [u32_or_eq_zero, u32_and_one, UInt32.one_mul, e3]
  case nv12 =>
    show (w &&& 1 ||| h &&& 1 ||| (n - 1) * (n - 1 - 1)) = 0 ↔
      (w.toNat % 2 = 0 ∧ h.toNat % 2 = 0) ∧ (n.toNat = 1 ∨ n.toNat = 2)
    simp only [u32_or_eq_zero, u32_and_one, e2]

theorem pf_mode (pf : PixelFormat) :
    Dispatcher.get_pixel_format_mode pf.toU32 = Spec.isRgb pf := by
  cases pf <;> decide

theorem cs_mode (cs : ColorSpace) :
    Dispatcher.get_color_space_mode cs.toU32 = (cs == .rgb) := by
  cases cs <;> decide

theorem mode_xor (f : ImageFormat) :
    (Dispatcher.get_pixel_format_mode f.pixel_format.toU32 ^^
      Dispatcher.get_color_space_mode f.color_space.toU32) = !decide (Spec.CsOk f) := by
  rw [pf_mode, cs_mode]
  rcases f with ⟨pf, cs, n⟩
  cases pf <;> cases cs <;> simp [Spec.CsOk, Spec.isRgb]

end Verif
