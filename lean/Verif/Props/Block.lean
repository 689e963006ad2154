import Verif.Spec.Block
import Verif.Props.Trip
/-!
# C97: pictures through 4:2:0
-/

namespace Verif
open Spec

theorem clampQ_mono {a b : ℚ} (h : a ≤ b) : clampQ a ≤ clampQ b := by
  unfold clampQ
  exact max_le_max le_rfl (min_le_min le_rfl h)

/-- Clamping moves no two values apart. -/
theorem clampQ_add {a d : ℚ} (hd : 0 ≤ d) : clampQ (a + d) ≤ clampQ a + d := by
  have h := clampQ_sub (a + d) a
  rw [show a + d - a = d by ring, abs_of_nonneg hd] at h
  linarith [(abs_le.1 h).2]

theorem low_of {v i p w d : ℚ} (h : |v - clampQ i| ≤ w) (hi : p - d ≤ i) (hd : 0 ≤ d) :
    clampQ p - (d + w) ≤ v := by
  have h1 := (abs_le.1 h).1
  have h2 := clampQ_mono (show p ≤ i + d by linarith)
  have h3 := clampQ_add (a := i) hd
  linarith

theorem high_of {v i p w d : ℚ} (h : |v - clampQ i| ≤ w) (hi : i ≤ p + d) (hd : 0 ≤ d) :
    v ≤ clampQ p + (d + w) := by
  have h1 := (abs_le.1 h).2
  have h2 := clampQ_mono hi
  have h3 := clampQ_add (a := p) hd
  linarith

/-- Luma of the pixel with chroma of the block. -/
theorem ideal_block (s : Std) (r g b ra ga ba : ℚ) :
    idealR s (idealY s r g b) (idealCr s ra ga ba) = blockR s r g b ra ga ba ∧
    idealG s (idealY s r g b) (idealCb s ra ga ba) (idealCr s ra ga ba) =
      blockG s r g b ra ga ba ∧
    idealB s (idealY s r g b) (idealCb s ra ga ba) = blockB s r g b ra ga ba := by
  cases s <;> simp only [idealR, idealG, idealB, idealY, idealCb, idealCr, signalY, lumaSignal,
    blockR, blockG, blockB, yScale, cScale, lumaOffset, Kr, Kb, Kg, Std.fullRange] <;> norm_num <;>
  refine ⟨?_, ?_, ?_⟩ <;> linarith

theorem block_red (s : Std) {p : ℚ} {y v : ℤ} (hy : IsByte y) (hv : IsByte v)
    (m : p - moveR s ≤ idealR s y v ∧ idealR s y v ≤ p + moveR s) :
    clampQ p - (lossR s).1 ≤ red s y v ∧ red s y v ≤ clampQ p + (lossR s).2 := by
  have q : 0 ≤ moveR s := by cases s <;> norm_num [moveR]
  have w := worst_red s hy hv
  have l := low_of w m.1 q
  have uu := high_of w m.2 q
  clear w
  cases hs : s.fullRange
  · cases s <;> simp only [Std.fullRange, Bool.true_eq_false] at hs <;>
      simp only [moveR, worstR, lossR] at l uu ⊢ <;> norm_num at l uu ⊢ <;> constructor <;> linarith
  · have z' := worst_redShifted s hs hy hv
    rw [(ideal_shift s hs y 0 v).1] at z'
    have z := low_of (p := p) (d := 0) z' (by
      cases s <;> simp only [Std.fullRange, Bool.false_eq_true] at hs <;>
        simp only [moveR, Kr] at m ⊢ <;> norm_num at m ⊢ <;> linarith) le_rfl
    clear z' m
    cases s <;> simp only [Std.fullRange, Bool.false_eq_true] at hs <;>
      simp only [moveR, worstR, lossR, shiftedR] at l uu z ⊢ <;> norm_num at l uu z ⊢ <;>
      constructor <;> linarith

theorem block_green (s : Std) {p : ℚ} {y u v : ℤ} (hy : IsByte y) (hu : IsByte u) (hv : IsByte v)
    (m : p - moveG s ≤ idealG s y u v ∧ idealG s y u v ≤ p + moveG s) :
    clampQ p - (lossG s).1 ≤ green s y u v ∧ green s y u v ≤ clampQ p + (lossG s).2 := by
  have q : 0 ≤ moveG s := by cases s <;> norm_num [moveG]
  have w := worst_green s hy hu hv
  have l := low_of w m.1 q
  have uu := high_of w m.2 q
  clear w
  cases hs : s.fullRange
  · cases s <;> simp only [Std.fullRange, Bool.true_eq_false] at hs <;>
      simp only [moveG, worstG, lossG] at l uu ⊢ <;> norm_num at l uu ⊢ <;> constructor <;> linarith
  · have z' := worst_greenShifted s hs (y := y) hu hv
    rw [(ideal_shift s hs y u v).2.2] at z'
    have z := high_of (p := p) (d := 0.2) z' (by
      cases s <;> simp only [Std.fullRange, Bool.false_eq_true] at hs <;>
        simp only [moveG, Kr, Kb, Kg] at m ⊢ <;> norm_num at m ⊢ <;> linarith) (by norm_num)
    clear z' m
    cases s <;> simp only [Std.fullRange, Bool.false_eq_true] at hs <;>
      simp only [moveG, worstG, lossG, shiftedG] at l uu z ⊢ <;> norm_num at l uu z ⊢ <;>
      constructor <;> linarith

theorem block_blue (s : Std) {p : ℚ} {y u : ℤ} (hy : IsByte y) (hu : IsByte u)
    (m : p - moveB s ≤ idealB s y u ∧ idealB s y u ≤ p + moveB s) :
    clampQ p - (lossB s).1 ≤ blue s y u ∧ blue s y u ≤ clampQ p + (lossB s).2 := by
  have q : 0 ≤ moveB s := by cases s <;> norm_num [moveB]
  have w := worst_blue s hy hu
  have l := low_of w m.1 q
  have uu := high_of w m.2 q
  clear w
  cases hs : s.fullRange
  · cases s <;> simp only [Std.fullRange, Bool.true_eq_false] at hs <;>
      simp only [moveB, worstB, lossB] at l uu ⊢ <;> norm_num at l uu ⊢ <;> constructor <;> linarith
  · have z' := worst_blueShifted s hs hy hu
    rw [(ideal_shift s hs y u 0).2.1] at z'
    have z := low_of (p := p) (d := 0) z' (by
      cases s <;> simp only [Std.fullRange, Bool.false_eq_true] at hs <;>
        simp only [moveB, Kb] at m ⊢ <;> norm_num at m ⊢ <;> linarith) le_rfl
    clear z' m
    cases s <;> simp only [Std.fullRange, Bool.false_eq_true] at hs <;>
      simp only [moveB, worstB, lossB, shiftedB] at l uu z ⊢ <;> norm_num at l uu z ⊢ <;>
      constructor <;> linarith

/-- **C97.** A picture encoded to I420 or Nv12 and decoded in the same colour space, on any processors:
every pixel becomes the average colour of its block, moved to its own luma and clamped, up to
rounding. -/
theorem C97_block {t : Target} {cpu cpu' : Cpu} {c c' : Call}
    {out out' : List Buf} (hv : Valid t c) (hv' : Valid t c')
    (hk : c.Encodes) (hk' : c'.Decodes)
    (hd : c.dst_format.pixel_format = .i420 ∨ c.dst_format.pixel_format = .nv12)
    (ho : Stores t crate cpu c out) (ho' : Stores t crate cpu' c' out')
    (hc : Decodes_of c c' out) {x y : Nat} (hp : c.Pixel x y) :
    let s := std c.dst_format.color_space
    let r : ℚ := val (c.rgbIn.r x y)
    let g : ℚ := val (c.rgbIn.g x y)
    let b : ℚ := val (c.rgbIn.b x y)
    let ra : ℚ := (sum4 c.rgbIn.r (x / 2) (y / 2) : ℚ) / 4
    let ga : ℚ := (sum4 c.rgbIn.g (x / 2) (y / 2) : ℚ) / 4
    let ba : ℚ := (sum4 c.rgbIn.b (x / 2) (y / 2) : ℚ) / 4
    (clampQ (blockR s r g b ra ga ba) - (lossR s).1 ≤ val ((c'.rgbOut out').r x y) ∧
      val ((c'.rgbOut out').r x y) ≤ clampQ (blockR s r g b ra ga ba) + (lossR s).2) ∧
    (clampQ (blockG s r g b ra ga ba) - (lossG s).1 ≤ val ((c'.rgbOut out').g x y) ∧
      val ((c'.rgbOut out').g x y) ≤ clampQ (blockG s r g b ra ga ba) + (lossG s).2) ∧
    (clampQ (blockB s r g b ra ga ba) - (lossB s).1 ≤ val ((c'.rgbOut out').b x y) ∧
      val ((c'.rgbOut out').b x y) ≤ clampQ (blockB s r g b ra ga ba) + (lossB s).2) := by
  intro s r g b ra ga ba
  have hp' : c'.Pixel x y := by unfold Call.Pixel at *; rw [hc.width, hc.height]; exact hp
  obtain ⟨d1, d2, d3⟩ := C23_decode_partial hv' hk' ho' hp' (stored_blue hv hk ho hc hp)
  have e : ∀ v, val (byte (clamp v)) = clamp v := fun v => val_byte (by unfold IsByte clamp; omega)
  have a1 := (C89_stored hv hk ho hp).1
  obtain ⟨a2, a3⟩ := C92_stored hv hk hd ho hp
  obtain ⟨i1, i2, i3⟩ := ideal_block s r g b ra ga ba
  have m1 := moved_red s a1 a3
  have m2 := moved_green s a1 a2 a3
  have m3 := moved_blue s a1 a2
  rw [i1] at m1
  rw [i2] at m2
  rw [i3] at m3
  rw [d1, d2, d3, hc.format, hc.image, red, green, blue, e, e, e]
  exact ⟨block_red s (isByte_val _) (isByte_val _) m1,
    block_green s (isByte_val _) (isByte_val _) (isByte_val _) m2,
    block_blue s (isByte_val _) (isByte_val _) m3⟩

/-- The average of a smooth block: the pixel itself is one of the four. -/
theorem smooth_avg {p : Plane} {d : ℤ} {x y : Nat} (h : Smooth p d x y) :
    |(sum4 p (x / 2) (y / 2) : ℚ) / 4 - val (p x y)| ≤ 3 / 4 * d := by
  have h0 := h (2 * (x / 2)) (2 * (y / 2)) (by omega) (by omega)
  have h1 := h (2 * (x / 2) + 1) (2 * (y / 2)) (by omega) (by omega)
  have h2 := h (2 * (x / 2)) (2 * (y / 2) + 1) (by omega) (by omega)
  have h3 := h (2 * (x / 2) + 1) (2 * (y / 2) + 1) (by omega) (by omega)
  have hd : |sum4 p (x / 2) (y / 2) - 4 * val (p x y)| ≤ 3 * d := by
    unfold sum4
    rw [abs_le] at *
    rcases Nat.mod_two_eq_zero_or_one x with ex | ex <;>
      rcases Nat.mod_two_eq_zero_or_one y with ey | ey
    · rw [show 2 * (x / 2) = x by omega, show 2 * (y / 2) = y by omega] at *; omega
    · rw [show 2 * (x / 2) = x by omega, show 2 * (y / 2) + 1 = y by omega] at *; omega
    · rw [show 2 * (x / 2) + 1 = x by omega, show 2 * (y / 2) = y by omega] at *; omega
    · rw [show 2 * (x / 2) + 1 = x by omega, show 2 * (y / 2) + 1 = y by omega] at *; omega
  have hq : |(sum4 p (x / 2) (y / 2) : ℚ) - 4 * val (p x y)| ≤ 3 * d := by exact_mod_cast hd
  rw [abs_le] at hq ⊢
  constructor <;> linarith [hq.1, hq.2]

/-- No two bytes differ by more than 255. -/
theorem smooth_any (p : Plane) (x y : Nat) : Smooth p 255 x y := by
  intro x' y' _ _
  have h1 := isByte_val (p x' y')
  have h2 := isByte_val (p x y)
  unfold IsByte at h1 h2
  rw [abs_le]
  omega

/-- How far the luma-corrected average is from the pixel. -/
theorem block_close (s : Std) {r g b ra ga ba e : ℚ} (h1 : |ra - r| ≤ e) (h2 : |ga - g| ≤ e)
    (h3 : |ba - b| ≤ e) :
    |blockR s r g b ra ga ba - r| ≤ 2 * (1 - Kr s) * e ∧
    |blockG s r g b ra ga ba - g| ≤ 2 * (1 - Kg s) * e ∧
    |blockB s r g b ra ga ba - b| ≤ 2 * (1 - Kb s) * e := by
  rw [abs_le] at h1 h2 h3
  obtain ⟨a1, a2⟩ := h1
  obtain ⟨b1, b2⟩ := h2
  obtain ⟨c1, c2⟩ := h3
  simp only [abs_le]
  cases s <;> simp only [blockR, blockG, blockB, lumaSignal, Kr, Kg, Kb] <;> norm_num <;>
    refine ⟨⟨?_, ?_⟩, ⟨?_, ?_⟩, ?_, ?_⟩ <;> linarith

theorem clampQ_close {a : ℚ} {r : UInt8} {e : ℚ} (h : |a - val r| ≤ e) : |clampQ a - val r| ≤ e := by
  have hr := cast_byte (isByte_val r)
  have h' := clampQ_sub a (val r)
  rw [show clampQ (val r : ℚ) = val r by
    unfold clampQ; rw [min_eq_right hr.2, max_eq_right hr.1]] at h'
  exact h'.trans h

/-- **C97**, smooth pictures: where the colours of a block differ by at most `d`, a pixel that is encoded
to I420 or Nv12 and decoded changes by little more than a multiple of `d`. -/
theorem C97_smooth {t : Target} {cpu cpu' : Cpu} {c c' : Call}
    {out out' : List Buf} (hv : Valid t c) (hv' : Valid t c')
    (hk : c.Encodes) (hk' : c'.Decodes)
    (hd : c.dst_format.pixel_format = .i420 ∨ c.dst_format.pixel_format = .nv12)
    (ho : Stores t crate cpu c out) (ho' : Stores t crate cpu' c' out')
    (hc : Decodes_of c c' out) {x y : Nat} (hp : c.Pixel x y) {d : ℤ}
    (hr : Smooth c.rgbIn.r d x y) (hg : Smooth c.rgbIn.g d x y) (hb : Smooth c.rgbIn.b d x y) :
    let s := std c.dst_format.color_space
    |(val ((c'.rgbOut out').r x y) : ℚ) - val (c.rgbIn.r x y)| ≤
      max (lossR s).1 (lossR s).2 + 3 / 2 * (1 - Kr s) * d ∧
    |(val ((c'.rgbOut out').g x y) : ℚ) - val (c.rgbIn.g x y)| ≤
      max (lossG s).1 (lossG s).2 + 3 / 2 * (1 - Kg s) * d ∧
    |(val ((c'.rgbOut out').b x y) : ℚ) - val (c.rgbIn.b x y)| ≤
      max (lossB s).1 (lossB s).2 + 3 / 2 * (1 - Kb s) * d := by
  intro s
  obtain ⟨⟨a1, a2⟩, ⟨b1, b2⟩, c1, c2⟩ := C97_block hv hv' hk hk' hd ho ho' hc hp
  obtain ⟨k1, k2, k3⟩ := block_close s (smooth_avg hr) (smooth_avg hg) (smooth_avg hb)
  have k1 := abs_le.1 (clampQ_close k1)
  have k2 := abs_le.1 (clampQ_close k2)
  have k3 := abs_le.1 (clampQ_close k3)
  have close : ∀ {q v r l h k : ℚ}, q - l ≤ v → v ≤ q + h → -k ≤ q - r ∧ q - r ≤ k →
      |v - r| ≤ max l h + k := by
    intro q v r l h k h1 h2 h3
    have m1 := le_max_left l h
    have m2 := le_max_right l h
    rw [abs_le]
    constructor <;> linarith [h3.1, h3.2]
  refine ⟨(close a1 a2 k1).trans (le_of_eq ?_), (close b1 b2 k2).trans (le_of_eq ?_),
    (close c1 c2 k3).trans (le_of_eq ?_)⟩ <;> ring

/-- A red pixel in a block with three blue ones, encoded as Nv12. -/
def exEdge : Call where
  width := 2
  height := 2
  src_format := ⟨.bgra, .rgb, 1⟩
  src_strides := none
  src_buffers := [⟨16, fun i => [0, 0, 255, 255, 255, 0, 0, 255, 255, 0, 0, 255, 255, 0, 0, 255].getD i 0⟩]
  dst_format := ⟨.nv12, .bt709, 2⟩
  dst_strides := none
  dst_buffers := [noise 4 2, noise 2 3]

/-- Its decoding. -/
def exEdgeBack (out : List Buf) : Call where
  width := 2
  height := 2
  src_format := ⟨.nv12, .bt709, 2⟩
  src_strides := none
  src_buffers := out
  dst_format := ⟨.bgra, .rgb, 1⟩
  dst_strides := none
  dst_buffers := [noise 16 5]

/-- Between the two colours the chroma is that of the average: the red pixel becomes (91, 27, 219). The
luma-corrected average is (90.6, 26.9, 218.1). -/
example : ∃ out out', Stores .x64 crate avx2Cpu exEdge out ∧
    Stores .x64 crate sse2Cpu (exEdgeBack out) out' ∧
    val (((exEdgeBack out).rgbOut out').r 0 0) = 91 ∧
    val (((exEdgeBack out).rgbOut out').g 0 0) = 27 ∧
    val (((exEdgeBack out).rgbOut out').b 0 0) = 219 ∧
    blockR .bt709 255 0 0 (255 / 4) 0 (765 / 4) = 181203 / 2000 ∧
    |(val (((exEdgeBack out).rgbOut out').r 0 0) : ℚ) - val (exEdge.rgbIn.r 0 0)| ≤
      max 2 2 + 3 / 2 * (1 - Kr .bt709) * (255 : ℤ) := by
  have hv : Valid .x64 exEdge := valid_of_check (by decide +kernel)
  have hr : VectorRoom avx2Cpu.set exEdge := .of_ne (by decide)
  have hv' : Valid .x64 (exEdgeBack ((semOf avx2Cpu.set).out exEdge)) :=
    valid_of_check (by decide +kernel)
  refine ⟨_, _, (Runs.crate hv hr).stores, (Runs.crate hv' (.of_rgb (by decide))).stores, ?_, ?_, ?_, ?_, ?_⟩
  · decide +kernel
  · decide +kernel
  · decide +kernel
  · norm_num [blockR, lumaSignal, Kr, Kg, Kb]
  · exact (C97_smooth (x := 0) (y := 0) (d := 255) hv hv' (by decide) ⟨rfl, rfl⟩ (.inr rfl)
      (Runs.crate hv hr).stores (Runs.crate hv' (.of_rgb (by decide))).stores ⟨rfl, rfl, rfl, rfl, rfl⟩
      (by unfold Call.Pixel; decide) (smooth_any _ _ _) (smooth_any _ _ _) (smooth_any _ _ _)).1

end Verif
