import Verif.Lemmas.K
/-! # Rectangles of writes -/

namespace Verif

/-- Writes filling `h` lines of `row` bytes of a destination slice with `f j y`. -/
def Rect (d : Dst) (stride row h : Nat) (f : Nat → Nat → UInt8) (p : Write) : Prop :=
  ∃ y, y < h ∧ ∃ j, j < row ∧ p = ⟨d.plane, d.off + (stride * y + j), f j y⟩

/-- Distinct positions of a rectangle have distinct addresses. -/
theorem addr_inj {stride row y j y' j' : Nat} (hr : row ≤ stride) (hj : j < row) (hj' : j' < row)
    (h : stride * y + j = stride * y' + j') : y = y' ∧ j = j' := by
  have hs : 0 < stride := by omega
  have e1 : (stride * y + j) / stride = y := by
    rw [Nat.mul_add_div hs, Nat.div_eq_of_lt (by omega)]; rfl
  have e2 : (stride * y' + j') / stride = y' := by
    rw [Nat.mul_add_div hs, Nat.div_eq_of_lt (by omega)]; rfl
  have hy : y = y' := by rw [← e1, ← e2, h]
  subst hy
  exact ⟨rfl, by omega⟩

theorem Rect.congr {d : Dst} {stride row h : Nat} {f g : Nat → Nat → UInt8}
    (hfg : ∀ y, y < h → ∀ j, j < row → f j y = g j y) (p : Write) :
    Rect d stride row h f p ↔ Rect d stride row h g p := by
  constructor
  · rintro ⟨y, hy, j, hj, rfl⟩
    exact ⟨y, hy, j, hj, by rw [hfg y hy j hj]⟩
  · rintro ⟨y, hy, j, hj, rfl⟩
    exact ⟨y, hy, j, hj, by rw [hfg y hy j hj]⟩

/-- Two-line blocks cover an even number of lines. -/
theorem exists_even {n : Nat} (hn : n % 2 = 0) (P : Nat → Prop) :
    (∃ y, y < n ∧ P y) ↔ ∃ y, y < n / 2 ∧ (P (2 * y) ∨ P (2 * y + 1)) := by
  constructor
  · rintro ⟨y, hy, h⟩
    refine ⟨y / 2, by omega, ?_⟩
    rcases Nat.mod_two_eq_zero_or_one y with e | e
    · left; rwa [show 2 * (y / 2) = y by omega]
    · right; rwa [show 2 * (y / 2) + 1 = y by omega]
  · rintro ⟨y, hy, h | h⟩
    · exact ⟨2 * y, by omega, h⟩
    · exact ⟨2 * y + 1, by omega, h⟩

theorem exists_even' {m : Nat} (P : Nat → Prop) :
    (∃ y, y < 2 * m ∧ P y) ↔ ∃ y, y < m ∧ (P (2 * y) ∨ P (2 * y + 1)) := by
  rw [exists_even (by omega), show 2 * m / 2 = m by omega]

theorem exists_three {m : Nat} (P : Nat → Prop) :
    (∃ y, y < 3 * m ∧ P y) ↔ ∃ y, y < m ∧ (P (3 * y) ∨ P (3 * y + 1) ∨ P (3 * y + 2)) := by
  constructor
  · rintro ⟨y, hy, h⟩
    refine ⟨y / 3, by omega, ?_⟩
    rcases (by omega : y % 3 = 0 ∨ y % 3 = 1 ∨ y % 3 = 2) with e | e | e
    · left; rwa [show 3 * (y / 3) = y by omega]
    · right; left; rwa [show 3 * (y / 3) + 1 = y by omega]
    · right; right; rwa [show 3 * (y / 3) + 2 = y by omega]
  · rintro ⟨y, hy, h | h | h⟩
    · exact ⟨3 * y, by omega, h⟩
    · exact ⟨3 * y + 1, by omega, h⟩
    · exact ⟨3 * y + 2, by omega, h⟩

theorem exists_four {m : Nat} (P : Nat → Prop) :
    (∃ y, y < 4 * m ∧ P y) ↔
      ∃ y, y < m ∧ (P (4 * y) ∨ P (4 * y + 1) ∨ P (4 * y + 2) ∨ P (4 * y + 3)) := by
  constructor
  · rintro ⟨y, hy, h⟩
    refine ⟨y / 4, by omega, ?_⟩
    rcases (by omega : y % 4 = 0 ∨ y % 4 = 1 ∨ y % 4 = 2 ∨ y % 4 = 3) with e | e | e | e
    · left; rwa [show 4 * (y / 4) = y by omega]
    · right; left; rwa [show 4 * (y / 4) + 1 = y by omega]
    · right; right; left; rwa [show 4 * (y / 4) + 2 = y by omega]
    · right; right; right; rwa [show 4 * (y / 4) + 3 = y by omega]
  · rintro ⟨y, hy, h | h | h | h⟩
    · exact ⟨4 * y, by omega, h⟩
    · exact ⟨4 * y + 1, by omega, h⟩
    · exact ⟨4 * y + 2, by omega, h⟩
    · exact ⟨4 * y + 3, by omega, h⟩

/-- The single write of position `(j, y)` of a rectangle. -/
abbrev cell (d : Dst) (stride : Nat) (f : Nat → Nat → UInt8) (j y : Nat) : Write :=
  ⟨d.plane, d.off + (stride * y + j), f j y⟩

/-- A rectangle of even size as a union of 2x2 blocks. -/
theorem rect_blocks {d : Dst} {stride w h : Nat} {f : Nat → Nat → UInt8} (hw : w % 2 = 0)
    (hh : h % 2 = 0) (p : Write) :
    Rect d stride w h f p ↔ ∃ y, y < h / 2 ∧ ∃ x, x < w / 2 ∧
      ((p = cell d stride f (2 * x) (2 * y) ∨ p = cell d stride f (2 * x + 1) (2 * y)) ∨
       (p = cell d stride f (2 * x) (2 * y + 1) ∨ p = cell d stride f (2 * x + 1) (2 * y + 1))) := by
  unfold Rect
  rw [exists_even hh]
  constructor
  · rintro ⟨y, hy, h | h⟩
    · rw [exists_even hw] at h
      obtain ⟨x, hx, h⟩ := h
      exact ⟨y, hy, x, hx, .inl h⟩
    · rw [exists_even hw] at h
      obtain ⟨x, hx, h⟩ := h
      exact ⟨y, hy, x, hx, .inr h⟩
  · rintro ⟨y, hy, x, hx, h | h⟩
    · exact ⟨y, hy, .inl ((exists_even hw _).2 ⟨x, hx, h⟩)⟩
    · exact ⟨y, hy, .inr ((exists_even hw _).2 ⟨x, hx, h⟩)⟩

/-- A rectangle of even width as a union of horizontal pairs. -/
theorem rect_pairs {d : Dst} {stride w h : Nat} {f : Nat → Nat → UInt8} (hw : w % 2 = 0)
    (p : Write) :
    Rect d stride w h f p ↔ ∃ y, y < h ∧ ∃ x, x < w / 2 ∧
      (p = cell d stride f (2 * x) y ∨ p = cell d stride f (2 * x + 1) y) := by
  unfold Rect
  simp only [exists_even hw]

/-- Writes of a list of consecutive bytes. -/
def Bytes (d : Dst) (i : Nat) (bs : List UInt8) (p : Write) : Prop :=
  ∃ k, k < bs.length ∧ p = ⟨d.plane, d.off + (i + k), bs.getD k 0⟩

theorem Bytes_three {d : Dst} {i : Nat} {a b c : UInt8} (p : Write) :
    Bytes d i [a, b, c] p ↔ p = ⟨d.plane, d.off + i, a⟩ ∨ p = ⟨d.plane, d.off + (i + 1), b⟩ ∨
      p = ⟨d.plane, d.off + (i + 2), c⟩ := by
  constructor
  · rintro ⟨k, hk, h⟩
    simp only [List.length_cons, List.length_nil] at hk
    rcases (by omega : k = 0 ∨ k = 1 ∨ k = 2) with rfl | rfl | rfl <;> simp_all
  · rintro (h | h | h)
    · exact ⟨0, by simp, by simpa using h⟩
    · exact ⟨1, by simp, by simpa using h⟩
    · exact ⟨2, by simp, by simpa using h⟩

theorem Bytes_four {d : Dst} {i : Nat} {a b c e : UInt8} (p : Write) :
    Bytes d i [a, b, c, e] p ↔ p = ⟨d.plane, d.off + i, a⟩ ∨
      p = ⟨d.plane, d.off + (i + 1), b⟩ ∨
      p = ⟨d.plane, d.off + (i + 2), c⟩ ∨ p = ⟨d.plane, d.off + (i + 3), e⟩ := by
  constructor
  · rintro ⟨k, hk, h⟩
    simp only [List.length_cons, List.length_nil] at hk
    rcases (by omega : k = 0 ∨ k = 1 ∨ k = 2 ∨ k = 3) with rfl | rfl | rfl | rfl <;> simp_all
  · rintro (h | h | h | h)
    · exact ⟨0, by simp, by simpa using h⟩
    · exact ⟨1, by simp, by simpa using h⟩
    · exact ⟨2, by simp, by simpa using h⟩
    · exact ⟨3, by simp, by simpa using h⟩

/-- Pixels of `n` bytes each. -/
theorem exists_mul {n m : Nat} (hn : 0 < n) (P : Nat → Prop) :
    (∃ j, j < n * m ∧ P j) ↔ ∃ x, x < m ∧ ∃ k, k < n ∧ P (n * x + k) := by
  constructor
  · rintro ⟨j, hj, h⟩
    refine ⟨j / n, Nat.div_lt_of_lt_mul hj, j % n, Nat.mod_lt _ hn, ?_⟩
    rwa [Nat.div_add_mod]
  · rintro ⟨x, hx, k, hk, h⟩
    refine ⟨n * x + k, ?_, h⟩
    calc n * x + k < n * x + n := by omega
      _ = n * (x + 1) := by rw [Nat.mul_add, Nat.mul_one]
      _ ≤ n * m := Nat.mul_le_mul_left n hx

/-- A rectangle of packed pixels. -/
theorem rect_pixels {d : Dst} {stride n w h : Nat} {f : Nat → Nat → UInt8}
    {px : Nat → Nat → List UInt8} (hn : 0 < n) (hl : ∀ x y, (px x y).length = n)
    (hf : ∀ x y k, k < n → f (n * x + k) y = (px x y).getD k 0) (p : Write) :
    Rect d stride (n * w) h f p ↔ ∃ y, y < h ∧ ∃ x, x < w ∧
      Bytes d (stride * y + n * x) (px x y) p := by
  unfold Rect Bytes
  simp only [exists_mul hn, hl]
  constructor
  · rintro ⟨y, hy, x, hx, k, hk, h⟩
    exact ⟨y, hy, x, hx, k, hk, by rw [h, hf x y k hk, Nat.add_assoc]⟩
  · rintro ⟨y, hy, x, hx, k, hk, h⟩
    exact ⟨y, hy, x, hx, k, hk, by rw [h, hf x y k hk, Nat.add_assoc]⟩

end Verif
