import Verif.Lemmas.Sse2Dec
import Verif.Lemmas.Lines
/-! # SSE2 RGB to BGRA -/

namespace Verif.Sse2

open Spec (byte val PlaneFits)
open Verif.Simd

/-- Swapping the bytes of each 16-bit lane. -/
theorem swap16 (a : Reg) (k : Nat) :
    or_si (slli_epi16 a 8) (srli_epi16 a 8) (2 * k) = a (2 * k + 1) ∧
    or_si (slli_epi16 a 8) (srli_epi16 a 8) (2 * k + 1) = a (2 * k) := by
  obtain ⟨⟨h1, h2⟩, h3, h4⟩ := shift16 a k
  simp only [or_si, h1, h2, h3, h4, X86.u8_0_or, X86.u8_or_0, and_self]

/-- The four pixels, one per 32-bit lane, in bytes 1 to 3. -/
def alignRgb (a : Reg) : Reg :=
  unpacklo_epi64 (unpacklo_epi32 (slli_si a 1) (srli_si a 2))
    (unpacklo_epi32 (srli_si a 5) (srli_si a 8))

theorem alignRgb_byte (a : Reg) {k b : Nat} (hk : k < 4) (hb : b < 3) :
    alignRgb a (4 * k + (b + 1)) = a (3 * k + b) := by
  interval_cases k <;> interval_cases b <;> rfl

theorem masked_byte (a : Reg) {k b : Nat} (hk : k < 4) (hb : b < 3) :
    or_si (alignRgb a) (set1_epi32 0xff) (4 * k + (b + 1)) = a (3 * k + b) ∧
    or_si (alignRgb a) (set1_epi32 0xff) (4 * k) = 255 := by
  have m0 : set1_epi32 255 (4 * k) = 255 := by rw [set1_epi32, ofW32_0]; rfl
  have m1 : set1_epi32 255 (4 * k + 1) = 0 := by rw [set1_epi32, ofW32_1]; rfl
  have m2 : set1_epi32 255 (4 * k + 2) = 0 := by rw [set1_epi32, ofW32_2]; rfl
  have m3 : set1_epi32 255 (4 * k + 3) = 0 := by rw [set1_epi32, ofW32_3]; rfl
  constructor
  · have m : set1_epi32 255 (4 * k + (b + 1)) = 0 := by interval_cases b <;> assumption
    rw [or_si, m, X86.u8_or_0, alignRgb_byte a hk hb]
  · rw [or_si, m0]; exact X86.u8_or_ff _

theorem rgb_to_bgra_4x_byte (a : Reg) {k b : Nat} (hk : k < 4) (hb : b < 4) :
    rgb_to_bgra_4x_reg a (4 * k + b) = if b = 3 then 255 else a (3 * k + (2 - b)) := by
  have e : rgb_to_bgra_4x_reg a (4 * k + b) =
      or_si (slli_epi16 (or_si (alignRgb a) (set1_epi32 0xff)) 8)
        (srli_epi16 (or_si (alignRgb a) (set1_epi32 0xff)) 8) (4 * k + [2, 3, 0, 1].getD b 0) := by
    interval_cases k <;> interval_cases b <;> rfl
  rw [e]
  have s0 := swap16 (or_si (alignRgb a) (set1_epi32 0xff)) (2 * k)
  have s1 := swap16 (or_si (alignRgb a) (set1_epi32 0xff)) (2 * k + 1)
  rw [← Nat.mul_assoc] at s0
  rw [show 2 * (2 * k + 1) = 4 * k + 2 by omega] at s1
  interval_cases b
  · exact s1.1.trans (masked_byte a (b := 2) hk (by omega)).1
  · exact s1.2.trans (masked_byte a (b := 1) hk (by omega)).1
  · exact s0.1.trans (masked_byte a (b := 0) hk (by omega)).1
  · exact s0.2.trans (masked_byte a (b := 0) hk (by omega)).2

theorem rgb_to_bgra_4x_emits {a : Reg} {d : Dst} {i : Nat} {f : Nat → UInt8} (hd : i + 16 ≤ d.len)
    (ha : ∀ j, j < 12 → a j = f j) :
    Emits (rgb_to_bgra_4x a d i) ()
      (Row d i 16 (fun j => if j % 4 = 3 then 255 else f (3 * (j / 4) + (2 - j % 4)))) := by
  refine store_row hd fun j hj => ?_
  have := rgb_to_bgra_4x_byte a (k := j / 4) (b := j % 4) (by omega) (by omega)
  rw [show 4 * (j / 4) + j % 4 = j by omega] at this
  rw [this]
  split
  · rfl
  · exact ha _ (by omega)

/-- Selection of bytes by the masks. -/
theorem select_byte (m a b : Reg) (i : Nat) :
    or_si (and_si a m) (andnot_si m b) i = (a i &&& m i) ||| (~~~ (m i) &&& b i) := rfl

theorem sel_ff (x y : UInt8) : (x &&& 255) ||| (~~~ (255 : UInt8) &&& y) = x := by
  have h1 : x &&& 255 = x := X86.u8_and_ff x
  have h2 : ~~~ (255 : UInt8) &&& y = 0 := X86.u8_0_and y
  rw [h1, h2]
  exact X86.u8_or_0 x

theorem sel_00 (x y : UInt8) : (x &&& 0) ||| (~~~ (0 : UInt8) &&& y) = y := by
  have h1 : x &&& 0 = 0 := X86.u8_and_00 x
  have h2 : ~~~ (0 : UInt8) &&& y = y := (UInt8.and_comm _ _).trans (X86.u8_and_ff y)
  rw [h1, h2]
  exact X86.u8_0_or y

theorem mask1 {i : Nat} (hi : i < 16) :
    set_epi32 [0, 0, 0, -1] i = if i < 4 then 255 else 0 := by
  interval_cases i <;> decide

theorem mask2 {i : Nat} (hi : i < 16) :
    set_epi32 [0, 0, -1, -1] i = if i < 8 then 255 else 0 := by
  interval_cases i <;> decide

theorem rgb_to_bgra_16_emits {src : Buf} {so : Nat} {dst : Dst} {d : Nat}
    (hs : so + 48 ≤ src.len) (hd : d + 64 ≤ dst.len) :
    Emits (rgb_to_bgra_16 src so dst d) () (Row dst d 64 (X86.rev4 src so)) := by
  unfold rgb_to_bgra_16
  rw [load_eq (by omega), pure_bind, load_eq (by omega), pure_bind, load_eq (by omega), pure_bind]
  have g0 := rgb_to_bgra_4x_emits (a := fun j => if j < 16 then src.bytes (so + j) else 0)
    (d := dst) (i := d) (f := fun j => src.bytes (so + j)) (by omega)
    (fun j hj => if_pos (by omega))
  have g1 := rgb_to_bgra_4x_emits
    (a := or_si (and_si (shuffle_epi32 (fun j => if j < 16 then src.bytes (so + j) else 0)
        (mm_shuffle 0 0 0 3)) (set_epi32 [0, 0, 0, -1]))
      (andnot_si (set_epi32 [0, 0, 0, -1]) (shuffle_epi32
        (fun j => if j < 16 then src.bytes (so + 16 + j) else 0) (mm_shuffle 0 1 0 0))))
    (d := dst) (i := d + 16) (f := fun j => src.bytes (so + (12 + j))) (by omega) (by
      intro j hj
      rw [select_byte, mask1 (by omega)]
      split
      · rw [sel_ff]
        interval_cases j <;> rfl
      · rw [sel_00]
        interval_cases j <;> first | omega | rfl)
  have g2 := rgb_to_bgra_4x_emits
    (a := or_si (and_si (shuffle_epi32 (fun j => if j < 16 then src.bytes (so + 16 + j) else 0)
        (mm_shuffle 0 0 3 2)) (set_epi32 [0, 0, -1, -1]))
      (andnot_si (set_epi32 [0, 0, -1, -1]) (shuffle_epi32
        (fun j => if j < 16 then src.bytes (so + 32 + j) else 0) (mm_shuffle 1 0 0 0))))
    (d := dst) (i := d + 32) (f := fun j => src.bytes (so + (24 + j))) (by omega) (by
      intro j hj
      rw [select_byte, mask2 (by omega)]
      split
      · rw [sel_ff]
        interval_cases j <;> rfl
      · rw [sel_00]
        interval_cases j <;> first | omega | rfl)
  have g3 := rgb_to_bgra_4x_emits
    (a := shuffle_epi32 (fun j => if j < 16 then src.bytes (so + 32 + j) else 0)
        (mm_shuffle 0 3 2 1))
    (d := dst) (i := d + 48) (f := fun j => src.bytes (so + (36 + j))) (by omega) (by
      intro j hj
      interval_cases j <;> rfl)
  refine (g0.seq (g1.seq (g2.seq g3))).congr fun p => ?_
  rw [show (64 : Nat) = 16 * 4 from rfl, Row.chunks (by omega)]
  have row : ∀ q : Nat, ∀ r, r = 12 * q → (Row dst (d + 16 * q) 16 (fun j => if j % 4 = 3 then 255
      else src.bytes (so + (r + (3 * (j / 4) + (2 - j % 4))))) p ↔
      Row dst (d + 16 * q) 16 (fun j => X86.rev4 src so (16 * q + j)) p) := by
    rintro q r rfl
    refine Row.congr (fun j hj => ?_) p
    unfold X86.rev4
    rw [show (16 * q + j) % 4 = j % 4 by omega]
    split
    · rfl
    · congr 1; omega
  have r0 := row 0 0 rfl
  have r1 := row 1 12 rfl
  have r2 := row 2 24 rfl
  have r3 := row 3 36 rfl
  simp only [Nat.zero_add, Nat.mul_zero, Nat.add_zero, Nat.mul_one, Nat.reduceMul] at r0 r1 r2 r3
  rw [r0, r1, r2, r3]
  constructor
  · rintro (h | h | h | h)
    · exact ⟨0, by omega, by simpa using h⟩
    · exact ⟨1, by omega, h⟩
    · exact ⟨2, by omega, h⟩
    · exact ⟨3, by omega, h⟩
  · rintro ⟨i, hi, h⟩
    interval_cases i
    · exact .inl (by simpa using h)
    · exact .inr (.inl h)
    · exact .inr (.inr (.inl h))
    · exact .inr (.inr (.inr h))

theorem rgb_to_bgra_sse2_emits {t : Target} {w h ss ds : Nat} {src : Buf} {d : Dst}
    (hw : w % 16 = 0) (hsb : 3 * w ≤ ss) (hdb : 4 * w ≤ ds)
    (hsl : src.len + ss < 2 ^ t.bits) (hdl : d.len + ds < 2 ^ t.bits)
    (hs : ∀ y, y < h → ss * y + 3 * w ≤ src.len)
    (hd : ∀ y, y < h → ds * y + 4 * w ≤ d.len) :
    Emits (rgb_to_bgra_sse2 t w h ss src ds d) () (X86.GRgb .rgb .bgra src ss w h ds d) := by
  obtain ⟨m, hm⟩ : ∃ m, w = 16 * m := ⟨w / 16, by omega⟩
  have e1 : 3 * w = 48 * m := by omega
  have e2 : 4 * w = 64 * m := by omega
  unfold rgb_to_bgra_sse2
  rw [X86.mul_ok (t := t) (show 3 * w < 2 ^ t.bits by omega),
    X86.mul_ok (t := t) (show 4 * w < 2 ^ t.bits by omega)]
  simp only [K.liftM_eq, K.lift_ok, pure_bind]
  rw [X86.sub_ok hsb, X86.sub_ok hdb]
  rw [K.lift_ok, pure_bind, K.lift_ok, pure_bind,
    show (w + (LANE_COUNT - 1)) / LANE_COUNT = m by unfold LANE_COUNT; omega]
  rw [e1] at hsb hs ⊢
  rw [e2] at hdb hd ⊢
  unfold X86.GRgb
  refine running_emits (a := 48) (b := 64) (m := m) (len := src.len)
    (g := fun so e => rgb_to_bgra_16 src so d e) (by omega) (show 4 * w = 64 * m by omega)
    hsb hdb hsl hdl hs hd fun y hy i hi => ?_
  have h1 := hs y hy
  have h2 := hd y hy
  refine (rgb_to_bgra_16_emits (src := src) (so := ss * y + 48 * i) (dst := d)
            (d := ds * y + 64 * i) (by omega) (by omega)).congr fun p => Row.congr (fun j hj => ?_) p
  rw [← X86.rev4_rgb]
  unfold X86.rev4
  rw [show (64 * i + j) % 4 = j % 4 by omega]
  split
  · rfl
  · congr 1; omega

end Verif.Sse2
