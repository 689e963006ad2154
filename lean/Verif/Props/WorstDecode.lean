import Verif.Lemmas.WorstDecodeError
import Verif.Props.Worst
import Verif.Props.Simd
/-!
# C90: the largest errors of decoding
-/

namespace Verif
open Spec

theorem isByte_clamp (v : ℤ) : IsByte (clamp v) := by unfold IsByte clamp; omega

theorem val_red (s : Std) (y cr : ℤ) : val (byte (red s y cr)) = red s y cr :=
  val_byte (isByte_clamp _)

theorem val_green (s : Std) (y cb cr : ℤ) : val (byte (green s y cb cr)) = green s y cb cr :=
  val_byte (isByte_clamp _)

theorem val_blue (s : Std) (y cb : ℤ) : val (byte (blue s y cb)) = blue s y cb :=
  val_byte (isByte_clamp _)

theorem at_worst_decode (s : Std) :
    |((at3 (fun y _ cr => red s y cr) (worstRAt s) : ℤ) : ℚ) -
      clampQ (idealR s (worstRAt s).1 (worstRAt s).2.2)| = worstR s ∧
    |((at3 (green s) (worstGAt s) : ℤ) : ℚ) -
      clampQ (idealG s (worstGAt s).1 (worstGAt s).2.1 (worstGAt s).2.2)| = worstG s ∧
    |((at3 (fun y cb _ => blue s y cb) (worstBAt s) : ℤ) : ℚ) -
      clampQ (idealB s (worstBAt s).1 (worstBAt s).2.1)| = worstB s := by
  cases s <;> refine ⟨?_, ?_, ?_⟩ <;>
    simp only [at3, worstRAt, worstGAt, worstBAt, red, green, blue, redFix, greenFix, blueFix, dec,
      clamp] <;>
    norm_num [idealR, idealG, idealB, signalY, Kr, Kg, Kb, yScale, cScale, Std.fullRange, lumaOffset,
      clampQ, worstR, worstG, worstB, abs]

theorem at_shifted_decode (s : Std) (hs : s.fullRange = true) :
    |((at3 (fun y _ cr => red s y cr) (shiftedAt s).1 : ℤ) : ℚ) -
      clampQ (idealR s (shiftedAt s).1.1 ((shiftedAt s).1.2.2 + 1))| = shiftedR s ∧
    |((at3 (green s) (shiftedAt s).2.1 : ℤ) : ℚ) -
      clampQ (idealG s (shiftedAt s).2.1.1 ((shiftedAt s).2.1.2.1 + 1) ((shiftedAt s).2.1.2.2 + 1))| =
        shiftedG s ∧
    |((at3 (fun y cb _ => blue s y cb) (shiftedAt s).2.2 : ℤ) : ℚ) -
      clampQ (idealB s (shiftedAt s).2.2.1 ((shiftedAt s).2.2.2.1 + 1))| = shiftedB s := by
  cases s <;> cases hs <;> refine ⟨?_, ?_, ?_⟩ <;>
    simp only [at3, shiftedAt, red, green, blue, redFix, greenFix, blueFix, dec, clamp] <;>
    norm_num [idealR, idealG, idealB, signalY, Kr, Kg, Kb, yScale, cScale, Std.fullRange, lumaOffset,
      clampQ, shiftedR, shiftedG, shiftedB, abs]

/-- The three numbers are bytes. -/
def Bytes3 (c : ℤ × ℤ × ℤ) : Prop := IsByte c.1 ∧ IsByte c.2.1 ∧ IsByte c.2.2

instance (c : ℤ × ℤ × ℤ) : Decidable (Bytes3 c) := by unfold Bytes3 IsByte; infer_instance

theorem worst_decode_bytes (s : Std) :
    Bytes3 (worstRAt s) ∧ Bytes3 (worstGAt s) ∧ Bytes3 (worstBAt s) ∧
    Bytes3 (shiftedAt s).1 ∧ Bytes3 (shiftedAt s).2.1 ∧ Bytes3 (shiftedAt s).2.2 := by
  cases s <;> decide

/-- C90: the largest errors over all samples, relative to the documented formulas. -/
theorem C90_greatest (s : Std) :
    IsGreatest (Distances (fun y _ cr => red s y cr) fun y _ cr => clampQ (idealR s y cr))
      (worstR s) ∧
    IsGreatest (Distances (green s) fun y cb cr => clampQ (idealG s y cb cr)) (worstG s) ∧
    IsGreatest (Distances (fun y cb _ => blue s y cb) fun y cb _ => clampQ (idealB s y cb))
      (worstB s) := by
  obtain ⟨⟨r1, r2, r3⟩, ⟨g1, g2, g3⟩, ⟨b1, b2, b3⟩, -⟩ := worst_decode_bytes s
  obtain ⟨h1, h2, h3⟩ := at_worst_decode s
  refine ⟨⟨⟨_, _, _, r1, r2, r3, h1.symm⟩, ?_⟩, ⟨⟨_, _, _, g1, g2, g3, h2.symm⟩, ?_⟩,
    ⟨⟨_, _, _, b1, b2, b3, h3.symm⟩, ?_⟩⟩
  · rintro _ ⟨y, cb, cr, hy, hb, hr, rfl⟩; exact worst_red s hy hr
  · rintro _ ⟨y, cb, cr, hy, hb, hr, rfl⟩; exact worst_green s hy hb hr
  · rintro _ ⟨y, cb, cr, hy, hb, hr, rfl⟩; exact worst_blue s hy hb

/-- C90: in full range, relative to the formulas with chroma centred at 127 instead of 128. -/
theorem C90_shifted (s : Std) (hs : s.fullRange = true) :
    IsGreatest (Distances (fun y _ cr => red s y cr) fun y _ cr => clampQ (idealR s y (cr + 1)))
      (shiftedR s) ∧
    IsGreatest (Distances (green s) fun y cb cr => clampQ (idealG s y (cb + 1) (cr + 1)))
      (shiftedG s) ∧
    IsGreatest (Distances (fun y cb _ => blue s y cb) fun y cb _ => clampQ (idealB s y (cb + 1)))
      (shiftedB s) := by
  obtain ⟨-, -, -, ⟨r1, r2, r3⟩, ⟨g1, g2, g3⟩, ⟨b1, b2, b3⟩⟩ := worst_decode_bytes s
  obtain ⟨h1, h2, h3⟩ := at_shifted_decode s hs
  refine ⟨⟨⟨_, _, _, r1, r2, r3, h1.symm⟩, ?_⟩, ⟨⟨_, _, _, g1, g2, g3, h2.symm⟩, ?_⟩,
    ⟨⟨_, _, _, b1, b2, b3, h3.symm⟩, ?_⟩⟩
  · rintro _ ⟨y, cb, cr, hy, hb, hr, rfl⟩; exact worst_redShifted s hs hy hr
  · rintro _ ⟨y, cb, cr, hy, hb, hr, rfl⟩; exact worst_greenShifted s hs hb hr
  · rintro _ ⟨y, cb, cr, hy, hb, hr, rfl⟩; exact worst_blueShifted s hs hy hb

/-- Blue decoded as 3 where the formula of Bt709FR gives 0.6424. -/
example : blue .bt709FR 86 82 = 3 ∧ clampQ (idealB .bt709FR 86 82) = 0.6424 := by
  constructor
  · decide
  · norm_num [idealB, signalY, Kb, yScale, cScale, Std.fullRange, lumaOffset, clampQ]

variable {t : Target} {cpu : Cpu} {c : Call} {out : List Buf}

/-- C90 of the stored pixels: no red and no green is further from the exact value than the greatest
error, on every processor; no blue either, except where the blue of the vector code overflows 16
bits: that is stored as 0 although the exact value is 255. -/
theorem C90_stored (hv : Valid t c) (hk : c.Decodes) (ho : Stores t crate cpu c out) {x y : Nat}
    (hp : c.Pixel x y) :
    let s := std c.src_format.color_space
    let Y := val (c.yuvIn.y x y)
    let Cb := val (c.yuvIn.cb x y)
    let Cr := val (c.yuvIn.cr x y)
    |val ((c.rgbOut out).r x y) - clampQ (idealR s Y Cr)| ≤ worstR s ∧
    |val ((c.rgbOut out).g x y) - clampQ (idealG s Y Cb Cr)| ≤ worstG s ∧
    if x < vectorColumns cpu.set c.src_format.pixel_format c.dst_format.pixel_format
        c.width.toNat ∧ blueFix s Y Cb > 32767 then
      val ((c.rgbOut out).b x y) = 0 ∧ clampQ (idealB s Y Cb) = 255
    else |val ((c.rgbOut out).b x y) - clampQ (idealB s Y Cb)| ≤ worstB s := by
  intro s Y Cb Cr
  obtain ⟨h1, h2, h3⟩ := C46_exact hv hk ho hp
  have by1 : IsByte Y := isByte_val _
  have by2 : IsByte Cb := isByte_val _
  have by3 : IsByte Cr := isByte_val _
  rw [h1, h2, h3, val_red, val_green]
  refine ⟨worst_red s by1 by3, worst_green s by1 by2 by3, ?_⟩
  split
  · next h =>
    refine ⟨rfl, ?_⟩
    have h4 := (blue_err s by1 by2).2
    have h5 : (511 : ℚ) ≤ ((blueFix s Y Cb / 64 : ℤ) : ℚ) := by
      exact_mod_cast (by omega : (511 : ℤ) ≤ blueFix s Y Cb / 64)
    have h6 : (errR s).2 ≤ 3 := by cases s <;> norm_num [errR]
    rw [clampQ, min_eq_left (by linarith)]
    norm_num
  · rw [val_blue]
    exact worst_blue s by1 by2

/-- C90: the bounds are met by every conversion, on every processor, of an image with a pixel of the
worst samples. -/
theorem C90_attained (hv : Valid t c) (hk : c.Decodes) (ho : Stores t crate cpu c out) {x y : Nat}
    (hp : c.Pixel x y) :
    let s := std c.src_format.color_space
    let yuv := (val (c.yuvIn.y x y), val (c.yuvIn.cb x y), val (c.yuvIn.cr x y))
    (yuv = worstRAt s →
      |val ((c.rgbOut out).r x y) - clampQ (idealR s yuv.1 yuv.2.2)| = worstR s) ∧
    (yuv = worstGAt s →
      |val ((c.rgbOut out).g x y) - clampQ (idealG s yuv.1 yuv.2.1 yuv.2.2)| = worstG s) ∧
    (yuv = worstBAt s →
      |val ((c.rgbOut out).b x y) - clampQ (idealB s yuv.1 yuv.2.1)| = worstB s) := by
  intro s yuv
  obtain ⟨h1, h2, h3⟩ := C46_exact hv hk ho hp
  obtain ⟨a1, a2, a3⟩ := at_worst_decode s
  refine ⟨fun h => ?_, fun h => ?_, fun h => ?_⟩
  · rw [h1, val_red, ← a1, ← h]
  · rw [h2, val_green, ← a2, ← h]
  · have hb : ¬ blueFix s yuv.1 yuv.2.1 > 32767 := by
      rw [h]; generalize s = s'; cases s' <;> decide
    rw [h3, if_neg fun h' => hb h'.2, val_blue, ← a3, ← h]

/-- The worst samples of Bt709FR side by side. -/
def exWorst : Call := exDecode444 [⟨6, fun i => [0, 40, 86].getD i 0⟩,
  ⟨6, fun i => [128, 83, 82].getD i 0⟩, ⟨6, fun i => [234, 229, 128].getD i 0⟩]

/-- Decoded on AVX2. -/
example : ∃ out, Stores .x64 crate avx2Cpu exWorst out ∧
    |val ((exWorst.rgbOut out).r 0 0) - clampQ (idealR .bt709FR (0 : ℤ) (234 : ℤ))| = 2.0712 ∧
    |val ((exWorst.rgbOut out).b 2 0) - clampQ (idealB .bt709FR (86 : ℤ) (82 : ℤ))| = 2.3576 := by
  have hv : Valid .x64 exWorst := valid_of_check (by decide +kernel)
  obtain ⟨out, ho⟩ := valid_stores (cpu := avx2Cpu) hv (.of_ne (by decide))
  exact ⟨out, ho, (C90_attained hv (by decide) ho (x := 0) (y := 0) ⟨by decide, by decide⟩).1
    (by decide), (C90_attained hv (by decide) ho (x := 2) (y := 0) ⟨by decide, by decide⟩).2.2
    (by decide)⟩

end Verif
