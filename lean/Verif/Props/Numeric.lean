import Verif.Spec.Ideal
import Verif.Spec.Vector
import Verif.Lemmas.Pixel
import Verif.Props.Pixels
import Mathlib.Tactic.Linarith
import Mathlib.Tactic.NormNum
import Mathlib.Algebra.Order.Ring.Abs
import Mathlib.Data.Rat.Cast.Order
import Mathlib.Data.Rat.Floor
/-!
# C34-C44, C60, C61: the arithmetic of the conversions

The results stored by the conversions are `Spec.luma`, `Spec.cb`, ... applied to the source bytes
(theorems C20-C23).  Here these integer functions are related to the exact formulas of the
standards (`Spec.Ideal`), to the documentation, and to each other.
-/

namespace Verif

open Spec

/-- A byte value. -/
def IsByte (x : ℤ) : Prop := 0 ≤ x ∧ x ≤ 255

theorem isByte_val (b : UInt8) : IsByte (val b) := val_range b

/-- The sum of four byte values. -/
def IsSum4 (x : ℤ) : Prop := 0 ≤ x ∧ x ≤ 1020

theorem isSum4 (p : Plane) (x y : Nat) : IsSum4 (sum4 p x y) := by
  have h1 := val_range (p (2 * x) (2 * y))
  have h2 := val_range (p (2 * x + 1) (2 * y))
  have h3 := val_range (p (2 * x) (2 * y + 1))
  have h4 := val_range (p (2 * x + 1) (2 * y + 1))
  unfold IsSum4 sum4
  omega

/-! ## C34: no overflow -/

/-- C34, forward: the 32-bit operations of the RGB to YCbCr transforms do not overflow (in the model
an overflowing `i32` operation is a fault in every build). -/
theorem C34_forward (k : Colorimetry) {r g b : ℤ} (hr : IsByte r) (hg : IsByte g) (hb : IsByte b)
    {r4 g4 b4 : ℤ} (hr4 : IsSum4 r4) (hg4 : IsSum4 g4) (hb4 : IsSum4 b4) :
    let w := FORWARD_WEIGHTS k
    ∃ yb zb, X86.derived w = .ok (yb, zb) ∧
      (∃ v, X86.affine_transform r g b w.xr w.xg w.xb w.yo = .ok v) ∧
      (∃ v, X86.affine_transform r g b w.yr w.yg yb X86.co16 = .ok v) ∧
      (∃ v, X86.affine_transform r g b yb w.zg zb X86.co16 = .ok v) ∧
      (∃ v, X86.affine_transform r4 g4 b4 w.yr w.yg yb X86.co18 = .ok v) ∧
      (∃ v, X86.affine_transform r4 g4 b4 yb w.zg zb X86.co18 = .ok v) := by
  refine ⟨_, _, X86.derived_ok k, ?_, ?_, ?_, ?_, ?_⟩
  · obtain ⟨v, h, _⟩ := X86.luma_ok k hr hg hb; exact ⟨v, h⟩
  · obtain ⟨v, h, _⟩ := X86.cb444_ok k hr hg hb; exact ⟨v, h⟩
  · obtain ⟨v, h, _⟩ := X86.cr444_ok k hr hg hb; exact ⟨v, h⟩
  · obtain ⟨v, h, _⟩ := X86.cb420_ok k hr4 hg4 hb4; exact ⟨v, h⟩
  · obtain ⟨v, h, _⟩ := X86.cr420_ok k hr4 hg4 hb4; exact ⟨v, h⟩

/-- The largest inputs. -/
example : ∃ v, X86.affine_transform 255 255 255 16829 33039 6416 Y_OFFSET = .ok v ∧ v / 65536 = 235 :=
  ⟨_, rfl, by decide⟩

/-- C34, backward: the 32-bit operations of the YCbCr to RGB transforms do not overflow. -/
theorem C34_backward (k : Colorimetry) {y cb cr : ℤ} (hy : IsByte y) (hb : IsByte cb)
    (hr : IsByte cr) :
    ∃ tr tg tb rgb, X86.chroma_terms (BACKWARD_WEIGHTS k) cb cr = .ok (tr, tg, tb) ∧
      X86.decode_px (BACKWARD_WEIGHTS k) y tr tg tb = .ok rgb :=
  ⟨_, _, _, _, X86.chroma_terms_ok k hb hr, X86.decode_px_ok k hy hb hr⟩

/-- The largest inputs. -/
example : ∃ tr tg tb rgb, X86.chroma_terms (BACKWARD_WEIGHTS .bt601) 255 255 = .ok (tr, tg, tb) ∧
    X86.decode_px (BACKWARD_WEIGHTS .bt601) 255 tr tg tb = .ok rgb :=
  C34_backward .bt601 ⟨by decide, by decide⟩ ⟨by decide, by decide⟩ ⟨by decide, by decide⟩

/-- C34: no valid call faults, in particular not by an overflow. -/
theorem C34_no_overflow {t : Target} {cpu : Cpu} {c : Call}
    (hv : Valid t c) (hm : VectorRoom cpu.set c) :
    convert t crate cpu c ≠ .error .overflow := by
  obtain ⟨out, h⟩ := valid_stores (cpu := cpu) hv hm
  rw [Stores] at h
  rw [h]
  exact nofun

example : IsByte 255 ∧ IsByte 0 ∧ IsSum4 1020 := by unfold IsByte IsSum4; omega

/-! ## C35: legal range -/

/-- C35, limited range: luma codes are in `[16, 235]`, chroma codes in `[16, 240]`. -/
theorem C35_limited (s : Std) (hs : s.fullRange = false) {r g b : ℤ} (hr : IsByte r) (hg : IsByte g)
    (hb : IsByte b) {r4 g4 b4 : ℤ} (hr4 : IsSum4 r4) (hg4 : IsSum4 g4) (hb4 : IsSum4 b4) :
    (16 ≤ luma s r g b ∧ luma s r g b ≤ 235) ∧ (16 ≤ cb s r g b ∧ cb s r g b ≤ 240) ∧
    (16 ≤ cr s r g b ∧ cr s r g b ≤ 240) ∧ (16 ≤ cbAvg s r4 g4 b4 ∧ cbAvg s r4 g4 b4 ≤ 240) ∧
    (16 ≤ crAvg s r4 g4 b4 ∧ crAvg s r4 g4 b4 ≤ 240) := by
  unfold IsByte IsSum4 at *
  cases s <;> simp [Std.fullRange] at hs <;>
  simp only [luma, cb, cr, cbAvg, crAvg, lumaOffset, Std.fullRange, roundUp, roundDown, dot,
    lumaCoef, cbCoef, crCoef] <;>
  refine ⟨⟨?_, ?_⟩, ⟨?_, ?_⟩, ⟨?_, ?_⟩, ⟨?_, ?_⟩, ?_, ?_⟩ <;> simp <;> omega

/-- The extremes of Cr in Bt601. -/
example : cr .bt601 255 0 0 = 240 ∧ cr .bt601 0 255 255 = 16 ∧ crAvg .bt601 1020 0 0 = 240 := by decide

/-- C35, full range: codes fit into a byte. -/
theorem C35_full (s : Std) {r g b : ℤ} (hr : IsByte r) (hg : IsByte g)
    (hb : IsByte b) {r4 g4 b4 : ℤ} (hr4 : IsSum4 r4) (hg4 : IsSum4 g4) (hb4 : IsSum4 b4) :
    IsByte (luma s r g b) ∧ IsByte (cb s r g b) ∧ IsByte (cr s r g b) ∧ IsByte (cbAvg s r4 g4 b4) ∧
    IsByte (crAvg s r4 g4 b4) := by
  unfold IsByte IsSum4 at *
  cases s <;>
  simp only [luma, cb, cr, cbAvg, crAvg, lumaOffset, Std.fullRange, roundUp, roundDown, dot,
    lumaCoef, cbCoef, crCoef] <;>
  refine ⟨⟨?_, ?_⟩, ⟨?_, ?_⟩, ⟨?_, ?_⟩, ⟨?_, ?_⟩, ?_, ?_⟩ <;> simp <;> omega

/-- The extremes of Cb and Cr in Bt601FR. -/
example : cb .bt601FR 0 0 255 = 255 ∧ cr .bt601FR 255 0 0 = 255 ∧ cr .bt601FR 0 255 255 = 1 := by decide

/-- C35 for chroma with ties rounded up (NEON): same ranges. -/
theorem C35_ties (s : Std) {r g b : ℤ} (hr : IsByte r) (hg : IsByte g)
    (hb : IsByte b) {r4 g4 b4 : ℤ} (hr4 : IsSum4 r4) (hg4 : IsSum4 g4) (hb4 : IsSum4 b4) :
    (IsByte (cbUp s r g b) ∧ IsByte (crUp s r g b) ∧ IsByte (cbAvgUp s r4 g4 b4) ∧
      IsByte (crAvgUp s r4 g4 b4)) ∧
    (s.fullRange = false → (16 ≤ cbUp s r g b ∧ cbUp s r g b ≤ 240) ∧
      (16 ≤ crUp s r g b ∧ crUp s r g b ≤ 240) ∧ (16 ≤ cbAvgUp s r4 g4 b4 ∧ cbAvgUp s r4 g4 b4 ≤ 240) ∧
      (16 ≤ crAvgUp s r4 g4 b4 ∧ crAvgUp s r4 g4 b4 ≤ 240)) := by
  have hc : ∀ v, IsByte (clamp v) := fun v => by unfold IsByte clamp; omega
  refine ⟨⟨hc _, hc _, hc _, hc _⟩, fun hs => ?_⟩
  unfold IsByte IsSum4 at *
  cases s <;> simp [Std.fullRange] at hs <;>
  simp only [cbUp, crUp, cbAvgUp, crAvgUp, roundUp, dot, cbCoef, crCoef, clamp] <;>
  refine ⟨⟨?_, ?_⟩, ⟨?_, ?_⟩, ⟨?_, ?_⟩, ?_, ?_⟩ <;> simp <;> omega

example : cbUp .bt601FR 0 0 255 = 255 ∧ crUp .bt601 255 0 0 = 240 := by decide

theorem val_byte {x : ℤ} (h : IsByte x) : val (byte x) = x := by
  unfold IsByte at h
  unfold val byte
  rw [UInt8.toNat_ofNat']
  omega

/-- C35: hence storing a code in a byte loses nothing. -/
theorem C35_no_truncation (s : Std) {r g b : ℤ} (hr : IsByte r) (hg : IsByte g)
    (hb : IsByte b) {r4 g4 b4 : ℤ} (hr4 : IsSum4 r4) (hg4 : IsSum4 g4) (hb4 : IsSum4 b4) :
    val (byte (luma s r g b)) = luma s r g b ∧ val (byte (cb s r g b)) = cb s r g b ∧
    val (byte (cr s r g b)) = cr s r g b ∧ val (byte (cbAvg s r4 g4 b4)) = cbAvg s r4 g4 b4 ∧
    val (byte (crAvg s r4 g4 b4)) = crAvg s r4 g4 b4 := by
  obtain ⟨h1, h2, h3, h4, h5⟩ := C35_full s hr hg hb hr4 hg4 hb4
  exact ⟨val_byte h1, val_byte h2, val_byte h3, val_byte h4, val_byte h5⟩

example : val (byte (cr .bt601 255 0 0)) = 240 := by decide

/-! ## C36: accuracy of the forward transform -/

theorem roundUp_bounds (t : ℤ) : 65536 * (roundUp t 65536 : ℚ) ≤ t + 32768 ∧
    (t : ℚ) + 32768 < 65536 * (roundUp t 65536 : ℚ) + 65536 := by
  have h : 65536 * roundUp t 65536 ≤ t + 32768 ∧ t + 32768 < 65536 * roundUp t 65536 + 65536 := by
    unfold roundUp; omega
  exact_mod_cast h

theorem roundDown_bounds (t : ℤ) : 65536 * (roundDown t 65536 : ℚ) < t + 32768 ∧
    (t : ℚ) + 32768 ≤ 65536 * (roundDown t 65536 : ℚ) + 65536 := by
  have h : 65536 * roundDown t 65536 < t + 32768 ∧ t + 32768 ≤ 65536 * roundDown t 65536 + 65536 := by
    unfold roundDown; omega
  exact_mod_cast h

theorem roundDown4_bounds (t : ℤ) : 262144 * (roundDown t (4 * 65536) : ℚ) < t + 131072 ∧
    (t : ℚ) + 131072 ≤ 262144 * (roundDown t (4 * 65536) : ℚ) + 262144 := by
  have h : 262144 * roundDown t (4 * 65536) < t + 131072 ∧
      t + 131072 ≤ 262144 * roundDown t (4 * 65536) + 262144 := by
    unfold roundDown; omega
  exact_mod_cast h

theorem roundUp4_bounds (t : ℤ) : 262144 * (roundUp t (4 * 65536) : ℚ) ≤ t + 131072 ∧
    (t : ℚ) + 131072 < 262144 * (roundUp t (4 * 65536) : ℚ) + 262144 := by
  have h : 262144 * roundUp t (4 * 65536) ≤ t + 131072 ∧
      t + 131072 < 262144 * roundUp t (4 * 65536) + 262144 := by
    unfold roundUp; omega
  exact_mod_cast h

/-- An encoding whose destination is not I444 is to a 4:2:0 format. -/
theorem dst_420 {t : Target} {c : Call} (hv : Valid t c) (hk : c.Encodes)
    (hd : ¬ c.dst_format.pixel_format = .i444) :
    c.dst_format.pixel_format = .i420 ∨ c.dst_format.pixel_format = .nv12 := by
  have h1 := hv.supported
  have h2 := hk.2
  revert h1 h2 hd
  cases c.src_format.pixel_format <;> cases c.dst_format.pixel_format <;> decide

theorem cast_byte {x : ℤ} (h : IsByte x) : (0 : ℚ) ≤ x ∧ (x : ℚ) ≤ 255 := by exact_mod_cast h
theorem cast_sum4 {x : ℤ} (h : IsSum4 x) : (0 : ℚ) ≤ x ∧ (x : ℚ) ≤ 1020 := by exact_mod_cast h

theorem cast_dot (k : ℤ × ℤ × ℤ) (r g b : ℤ) :
    ((dot k r g b : ℤ) : ℚ) = k.1 * r + k.2.1 * g + k.2.2 * b := by
  unfold dot; push_cast; rfl

/-- C36, luma. -/
theorem C36_luma (s : Std) {r g b : ℤ} (hr : IsByte r) (hg : IsByte g) (hb : IsByte b) :
    |(luma s r g b : ℚ) - idealY s r g b| ≤ 0.504 := by
  obtain ⟨h1, h2⟩ := roundUp_bounds (dot (lumaCoef s) r g b)
  obtain ⟨r1, r2⟩ := cast_byte hr
  obtain ⟨g1, g2⟩ := cast_byte hg
  obtain ⟨b1, b2⟩ := cast_byte hb
  rw [abs_le, luma]
  push_cast
  rw [cast_dot] at h1 h2
  generalize (roundUp (dot (lumaCoef s) r g b) 65536 : ℚ) = q at *
  generalize (r : ℚ) = R at *
  generalize (g : ℚ) = G at *
  generalize (b : ℚ) = B at *
  cases s <;> simp only [idealY, lumaSignal, Kr, Kg, Kb, yScale, Std.fullRange, lumaOffset,
    lumaCoef] at * <;> norm_num at * <;> constructor <;> linarith

/-- Orange: code 126 for the exact luma 125.84 in Bt601. -/
example : luma .bt601 255 88 0 = 126 ∧ idealY .bt601 255 88 0 = 10696773 / 85000 := by
  constructor
  · decide
  · norm_num [idealY, lumaSignal, Kr, Kb, Kg, yScale, lumaOffset, Std.fullRange]

/-- C36, chroma of a pixel (4:4:4). -/
theorem C36_chroma (s : Std) {r g b : ℤ} (hr : IsByte r) (hg : IsByte g) (hb : IsByte b) :
    |(cb s r g b : ℚ) - idealCb s r g b| ≤ 0.51 ∧ |(cr s r g b : ℚ) - idealCr s r g b| ≤ 0.51 := by
  obtain ⟨h1, h2⟩ := roundDown_bounds (dot (cbCoef s) r g b)
  obtain ⟨h3, h4⟩ := roundDown_bounds (dot (crCoef s) r g b)
  obtain ⟨r1, r2⟩ := cast_byte hr
  obtain ⟨g1, g2⟩ := cast_byte hg
  obtain ⟨b1, b2⟩ := cast_byte hb
  rw [abs_le, abs_le, cb, cr]
  push_cast
  rw [cast_dot] at h1 h2 h3 h4
  generalize (roundDown (dot (cbCoef s) r g b) 65536 : ℚ) = q at *
  generalize (roundDown (dot (crCoef s) r g b) 65536 : ℚ) = q' at *
  generalize (r : ℚ) = R at *
  generalize (g : ℚ) = G at *
  generalize (b : ℚ) = B at *
  cases s <;> simp only [idealCb, idealCr, lumaSignal, Kr, Kg, Kb, cScale, Std.fullRange,
    cbCoef, crCoef] at * <;> norm_num at * <;> refine ⟨⟨?_, ?_⟩, ?_, ?_⟩ <;> linarith

/-- Orange: codes 65 and 208. -/
example : cb .bt601 255 88 0 = 65 ∧ cr .bt601 255 88 0 = 208 := by decide

/-- C36, chroma of a 2x2 block (4:2:0): the average of the block is a quarter of the sums. -/
theorem C36_chroma_block (s : Std) {r4 g4 b4 : ℤ} (hr : IsSum4 r4) (hg : IsSum4 g4)
    (hb : IsSum4 b4) :
    |(cbAvg s r4 g4 b4 : ℚ) - idealCb s (r4 / 4) (g4 / 4) (b4 / 4)| ≤ 0.51 ∧
    |(crAvg s r4 g4 b4 : ℚ) - idealCr s (r4 / 4) (g4 / 4) (b4 / 4)| ≤ 0.51 := by
  obtain ⟨h1, h2⟩ := roundDown4_bounds (dot (cbCoef s) r4 g4 b4)
  obtain ⟨h3, h4⟩ := roundDown4_bounds (dot (crCoef s) r4 g4 b4)
  obtain ⟨r1, r2⟩ := cast_sum4 hr
  obtain ⟨g1, g2⟩ := cast_sum4 hg
  obtain ⟨b1, b2⟩ := cast_sum4 hb
  rw [abs_le, abs_le, cbAvg, crAvg]
  rw [cast_dot] at h1 h2 h3 h4
  generalize roundDown (dot (cbCoef s) r4 g4 b4) (4 * 65536) = q at *
  generalize roundDown (dot (crCoef s) r4 g4 b4) (4 * 65536) = q' at *
  push_cast
  generalize (q : ℚ) = q at *
  generalize (q' : ℚ) = q' at *
  generalize (r4 : ℚ) = R at *
  generalize (g4 : ℚ) = G at *
  generalize (b4 : ℚ) = B at *
  cases s <;> simp only [idealCb, idealCr, lumaSignal, Kr, Kg, Kb, cScale, Std.fullRange,
    cbCoef, crCoef] at * <;> norm_num at * <;> refine ⟨⟨?_, ?_⟩, ?_, ?_⟩ <;> linarith

/-- A block of four different colours. -/
example : cbAvg .bt709 600 352 17 = 85 ∧ crAvg .bt709 600 352 17 = 159 := by decide

/-- C36 for chroma with ties rounded up (NEON): same accuracy. -/
theorem C36_chroma_ties (s : Std) {r g b : ℤ} (hr : IsByte r) (hg : IsByte g) (hb : IsByte b) :
    |(cbUp s r g b : ℚ) - idealCb s r g b| ≤ 0.51 ∧ |(crUp s r g b : ℚ) - idealCr s r g b| ≤ 0.51 := by
  obtain ⟨h1, h2⟩ := roundUp_bounds (dot (cbCoef s) r g b)
  obtain ⟨h3, h4⟩ := roundUp_bounds (dot (crCoef s) r g b)
  obtain ⟨r1, r2⟩ := cast_byte hr
  obtain ⟨g1, g2⟩ := cast_byte hg
  obtain ⟨b1, b2⟩ := cast_byte hb
  have e1 : cbUp s r g b = 128 + roundUp (dot (cbCoef s) r g b) 65536 := by
    unfold IsByte at *
    cases s <;> simp only [cbUp, clamp, roundUp, dot, cbCoef] <;> omega
  have e2 : crUp s r g b = 128 + roundUp (dot (crCoef s) r g b) 65536 := by
    unfold IsByte at *
    cases s <;> simp only [crUp, clamp, roundUp, dot, crCoef] <;> omega
  rw [abs_le, abs_le, e1, e2]
  push_cast
  rw [cast_dot] at h1 h2 h3 h4
  generalize (roundUp (dot (cbCoef s) r g b) 65536 : ℚ) = q at *
  generalize (roundUp (dot (crCoef s) r g b) 65536 : ℚ) = q' at *
  generalize (r : ℚ) = R at *
  generalize (g : ℚ) = G at *
  generalize (b : ℚ) = B at *
  cases s <;> simp only [idealCb, idealCr, lumaSignal, Kr, Kg, Kb, cScale, Std.fullRange,
    cbCoef, crCoef] at * <;> norm_num at * <;> refine ⟨⟨?_, ?_⟩, ?_, ?_⟩ <;> linarith

/-- A tie. -/
example : cbUp .bt709FR 16 64 0 = cb .bt709FR 16 64 0 + 1 := by decide

/-- C36 for chroma of a 2x2 block with ties rounded up (NEON): same accuracy. -/
theorem C36_chroma_block_ties (s : Std) {r4 g4 b4 : ℤ} (hr : IsSum4 r4) (hg : IsSum4 g4)
    (hb : IsSum4 b4) :
    |(cbAvgUp s r4 g4 b4 : ℚ) - idealCb s (r4 / 4) (g4 / 4) (b4 / 4)| ≤ 0.51 ∧
    |(crAvgUp s r4 g4 b4 : ℚ) - idealCr s (r4 / 4) (g4 / 4) (b4 / 4)| ≤ 0.51 := by
  obtain ⟨h1, h2⟩ := roundUp4_bounds (dot (cbCoef s) r4 g4 b4)
  obtain ⟨h3, h4⟩ := roundUp4_bounds (dot (crCoef s) r4 g4 b4)
  obtain ⟨r1, r2⟩ := cast_sum4 hr
  obtain ⟨g1, g2⟩ := cast_sum4 hg
  obtain ⟨b1, b2⟩ := cast_sum4 hb
  have e1 : cbAvgUp s r4 g4 b4 = 128 + roundUp (dot (cbCoef s) r4 g4 b4) (4 * 65536) := by
    unfold IsSum4 at *
    cases s <;> simp only [cbAvgUp, clamp, roundUp, dot, cbCoef] <;> omega
  have e2 : crAvgUp s r4 g4 b4 = 128 + roundUp (dot (crCoef s) r4 g4 b4) (4 * 65536) := by
    unfold IsSum4 at *
    cases s <;> simp only [crAvgUp, clamp, roundUp, dot, crCoef] <;> omega
  rw [abs_le, abs_le, e1, e2]
  rw [cast_dot] at h1 h2 h3 h4
  generalize roundUp (dot (cbCoef s) r4 g4 b4) (4 * 65536) = q at *
  generalize roundUp (dot (crCoef s) r4 g4 b4) (4 * 65536) = q' at *
  push_cast
  generalize (q : ℚ) = q at *
  generalize (q' : ℚ) = q' at *
  generalize (r4 : ℚ) = R at *
  generalize (g4 : ℚ) = G at *
  generalize (b4 : ℚ) = B at *
  cases s <;> simp only [idealCb, idealCr, lumaSignal, Kr, Kg, Kb, cScale, Std.fullRange,
    cbCoef, crCoef] at * <;> norm_num at * <;> refine ⟨⟨?_, ?_⟩, ?_, ?_⟩ <;> linarith

/-- A tie. -/
example : cbAvgUp .bt709FR 64 256 0 = cbAvg .bt709FR 64 256 0 + 1 := by decide

/-- C35, C36 of the stored samples of a 4:4:4 image, on every processor: all codes are in the legal
range and accurate. -/
theorem C36_forward_accuracy_444 {t : Target} {cpu : Cpu} {c : Call}
    {out : List Buf} (hv : Valid t c) (hk : c.Encodes)
    (hd : c.dst_format.pixel_format = .i444)
    (ho : Stores t crate cpu c out) {x y : Nat} (hp : c.Pixel x y) :
    let s := std c.dst_format.color_space
    let r : ℚ := val (c.rgbIn.r x y)
    let g : ℚ := val (c.rgbIn.g x y)
    let b : ℚ := val (c.rgbIn.b x y)
    |val ((c.yuvOut out).y x y) - idealY s r g b| ≤ 0.504 ∧
    |val ((c.yuvOut out).cb x y) - idealCb s r g b| ≤ 0.51 ∧
    |val ((c.yuvOut out).cr x y) - idealCr s r g b| ≤ 0.51 := by
  have hr := isByte_val (c.rgbIn.r x y)
  have hg := isByte_val (c.rgbIn.g x y)
  have hb := isByte_val (c.rgbIn.b x y)
  obtain ⟨e1, e2, e3, -, -⟩ := C35_no_truncation (std c.dst_format.color_space) hr hg hb
    (isSum4 c.rgbIn.r 0 0) (isSum4 c.rgbIn.g 0 0) (isSum4 c.rgbIn.b 0 0)
  obtain ⟨⟨u2, u3, -, -⟩, -⟩ := C35_ties (std c.dst_format.color_space) hr hg hb
    (isSum4 c.rgbIn.r 0 0) (isSum4 c.rgbIn.g 0 0) (isSum4 c.rgbIn.b 0 0)
  obtain ⟨h2, h3⟩ := C22_chroma_444_ties hv hk hd ho hp
  intro s r g b
  refine ⟨?_, ?_, ?_⟩
  · rw [C20_luma hv hk ho hp, e1]
    exact C36_luma _ hr hg hb
  · rcases h2 with h2 | h2 <;> rw [h2]
    · rw [e2]; exact (C36_chroma _ hr hg hb).1
    · rw [val_byte u2]; exact (C36_chroma_ties _ hr hg hb).1
  · rcases h3 with h3 | h3 <;> rw [h3]
    · rw [e3]; exact (C36_chroma _ hr hg hb).2
    · rw [val_byte u3]; exact (C36_chroma_ties _ hr hg hb).2

example : ∃ out, Stores .x64 crate neonCpu exEncode444 out ∧
    |val ((exEncode444.yuvOut out).y 2 1) - idealY .bt709FR ((118 : ℤ) : ℚ) ((81 : ℤ) : ℚ) ((44 : ℤ) : ℚ)|
      ≤ 0.504 := by
  obtain ⟨out, ho⟩ := valid_stores (cpu := neonCpu) exEncode444_valid fun _ _ _ _ => trivial
  exact ⟨out, ho, (C36_forward_accuracy_444 exEncode444_valid (by decide) rfl ho
    (x := 2) (y := 1) ⟨by decide, by decide⟩).1⟩

/-- C36 of the stored samples of a 4:2:0 image: luma is that of the pixel, chroma that of the
average colour of the 2x2 block. -/
theorem C36_forward_accuracy_420 {t : Target} {cpu : Cpu} {c : Call}
    {out : List Buf} (hv : Valid t c) (hk : c.Encodes)
    (hd : c.dst_format.pixel_format = .i420 ∨ c.dst_format.pixel_format = .nv12)
    (ho : Stores t crate cpu c out) {x y : Nat} (hp : c.Pixel x y) :
    let s := std c.dst_format.color_space
    let r : ℚ := val (c.rgbIn.r x y)
    let g : ℚ := val (c.rgbIn.g x y)
    let b : ℚ := val (c.rgbIn.b x y)
    let ra : ℚ := (sum4 c.rgbIn.r (x / 2) (y / 2) : ℚ) / 4
    let ga : ℚ := (sum4 c.rgbIn.g (x / 2) (y / 2) : ℚ) / 4
    let ba : ℚ := (sum4 c.rgbIn.b (x / 2) (y / 2) : ℚ) / 4
    |val ((c.yuvOut out).y x y) - idealY s r g b| ≤ 0.504 ∧
    |val ((c.yuvOut out).cb x y) - idealCb s ra ga ba| ≤ 0.51 ∧
    |val ((c.yuvOut out).cr x y) - idealCr s ra ga ba| ≤ 0.51 := by
  have hr := isByte_val (c.rgbIn.r x y)
  have hg := isByte_val (c.rgbIn.g x y)
  have hb := isByte_val (c.rgbIn.b x y)
  have hr4 := isSum4 c.rgbIn.r (x / 2) (y / 2)
  have hg4 := isSum4 c.rgbIn.g (x / 2) (y / 2)
  have hb4 := isSum4 c.rgbIn.b (x / 2) (y / 2)
  obtain ⟨e1, -, -, e2, e3⟩ := C35_no_truncation (std c.dst_format.color_space) hr hg hb hr4 hg4 hb4
  obtain ⟨⟨-, -, u2, u3⟩, -⟩ := C35_ties (std c.dst_format.color_space) hr hg hb hr4 hg4 hb4
  obtain ⟨h2, h3⟩ := C21_chroma_420_ties hv hk hd ho hp
  intro s r g b ra ga ba
  refine ⟨?_, ?_, ?_⟩
  · rw [C20_luma hv hk ho hp, e1]
    exact C36_luma _ hr hg hb
  · rcases h2 with h2 | h2 <;> rw [h2]
    · rw [e2]; exact (C36_chroma_block _ hr4 hg4 hb4).1
    · rw [val_byte u2]; exact (C36_chroma_block_ties _ hr4 hg4 hb4).1
  · rcases h3 with h3 | h3 <;> rw [h3]
    · rw [e3]; exact (C36_chroma_block _ hr4 hg4 hb4).2
    · rw [val_byte u3]; exact (C36_chroma_block_ties _ hr4 hg4 hb4).2

example : ∃ out, Stores .x64 crate neonCpu exEncode out ∧
    (exEncode.yuvOut out).y 3 1 = 192 ∧
    |((192 : ℤ) : ℚ) - idealY .bt601 (val (exEncode.rgbIn.r 3 1)) (val (exEncode.rgbIn.g 3 1))
      (val (exEncode.rgbIn.b 3 1))| ≤ 0.504 := by
  obtain ⟨out, ho⟩ := valid_stores (cpu := neonCpu) exEncode_valid fun _ _ _ _ => trivial
  have hp : exEncode.Pixel 3 1 := ⟨by decide, by decide⟩
  have e : (exEncode.yuvOut out).y 3 1 = 192 := by
    rw [C20_luma exEncode_valid (by decide) ho hp]; decide +kernel
  refine ⟨out, ho, e, ?_⟩
  have h := (C36_forward_accuracy_420 exEncode_valid (by decide) (.inl rfl) ho hp).1
  rw [e] at h
  exact h

/-- C35 of the stored samples, on every processor: limited-range destinations only contain luma in
`[16, 235]` and chroma in `[16, 240]`. -/
theorem C35_stored {t : Target} {cpu : Cpu} {c : Call}
    {out : List Buf} (hv : Valid t c) (hk : c.Encodes)
    (hs : (std c.dst_format.color_space).fullRange = false)
    (ho : Stores t crate cpu c out) {x y : Nat} (hp : c.Pixel x y) :
    (16 ≤ (c.yuvOut out).y x y ∧ (c.yuvOut out).y x y ≤ 235) ∧
    (16 ≤ (c.yuvOut out).cb x y ∧ (c.yuvOut out).cb x y ≤ 240) ∧
    (16 ≤ (c.yuvOut out).cr x y ∧ (c.yuvOut out).cr x y ≤ 240) := by
  have v : ∀ {z : ℤ} {m n : UInt8}, val m ≤ z ∧ z ≤ val n → m ≤ byte z ∧ byte z ≤ n := by
    intro z m n h
    have h0 := val_range m
    have h1 := val_range n
    have e : val (byte z) = z := val_byte ⟨by omega, by omega⟩
    unfold val at h e
    rw [UInt8.le_iff_toNat_le, UInt8.le_iff_toNat_le]
    omega
  have hr := isByte_val (c.rgbIn.r x y)
  have hg := isByte_val (c.rgbIn.g x y)
  have hb := isByte_val (c.rgbIn.b x y)
  have hr4 := isSum4 c.rgbIn.r (x / 2) (y / 2)
  have hg4 := isSum4 c.rgbIn.g (x / 2) (y / 2)
  have hb4 := isSum4 c.rgbIn.b (x / 2) (y / 2)
  obtain ⟨l1, l2, l3, l4, l5⟩ := C35_limited _ hs hr hg hb hr4 hg4 hb4
  obtain ⟨u2, u3, u4, u5⟩ := (C35_ties _ hr hg hb hr4 hg4 hb4).2 hs
  refine ⟨by rw [C20_luma hv hk ho hp]; exact v l1, ?_⟩
  by_cases hd : c.dst_format.pixel_format = .i444
  · obtain ⟨h2, h3⟩ := C22_chroma_444_ties hv hk hd ho hp
    constructor
    · rcases h2 with h2 | h2 <;> rw [h2]
      · exact v l2
      · exact v u2
    · rcases h3 with h3 | h3 <;> rw [h3]
      · exact v l3
      · exact v u3
  · obtain ⟨h2, h3⟩ := C21_chroma_420_ties hv hk (dst_420 hv hk hd) ho hp
    constructor
    · rcases h2 with h2 | h2 <;> rw [h2]
      · exact v l4
      · exact v u4
    · rcases h3 with h3 | h3 <;> rw [h3]
      · exact v l5
      · exact v u5

/-- Orange: exact luma 125.84 in Bt601. -/
example : luma .bt601 255 88 0 = 126 ∧ idealY .bt601 255 88 0 = 10696773 / 85000 := by
  constructor
  · decide
  · norm_num [idealY, lumaSignal, Kr, Kb, Kg, yScale, lumaOffset, Std.fullRange]

/-! ## C37: the documented formulas -/

/-- C37, all spaces but Bt709: the stored code is within 1 of any nearest integer to the printed
formula. -/
theorem C37_documented_partial (s : Std) (hs : s ≠ .bt709) {r g b : ℤ} (hr : IsByte r)
    (hg : IsByte g) (hb : IsByte b) (n : ℤ) :
    (|(n : ℚ) - (lumaOffset s + dotQ (docY s) r g b)| ≤ 1 / 2 → |luma s r g b - n| ≤ 1) ∧
    (|(n : ℚ) - (128 + dotQ (docCb s) r g b)| ≤ 1 / 2 → |cb s r g b - n| ≤ 1) ∧
    (|(n : ℚ) - (128 + dotQ (docCr s) r g b)| ≤ 1 / 2 → |cr s r g b - n| ≤ 1) := by
  have key : ∀ m : ℤ, -2 < (m : ℚ) - n → (m : ℚ) - n < 2 → |m - n| ≤ 1 := by
    intro m h1 h2
    have h1' : (-2 : ℤ) < m - n := by exact_mod_cast h1
    have h2' : m - n < 2 := by exact_mod_cast h2
    rw [abs_le]; omega
  obtain ⟨u1, u2⟩ := roundUp_bounds (dot (lumaCoef s) r g b)
  obtain ⟨h1, h2⟩ := roundDown_bounds (dot (cbCoef s) r g b)
  obtain ⟨h3, h4⟩ := roundDown_bounds (dot (crCoef s) r g b)
  obtain ⟨r1, r2⟩ := cast_byte hr
  obtain ⟨g1, g2⟩ := cast_byte hg
  obtain ⟨b1, b2⟩ := cast_byte hb
  rw [cast_dot] at u1 u2 h1 h2 h3 h4
  rw [luma, cb, cr]
  have keyL := key (lumaOffset s + roundUp (dot (lumaCoef s) r g b) 65536)
  have keyB := key (128 + roundDown (dot (cbCoef s) r g b) 65536)
  have keyR := key (128 + roundDown (dot (crCoef s) r g b) 65536)
  push_cast at keyL keyB keyR
  generalize roundUp (dot (lumaCoef s) r g b) 65536 = l at *
  generalize roundDown (dot (cbCoef s) r g b) 65536 = q at *
  generalize roundDown (dot (crCoef s) r g b) 65536 = q' at *
  simp only [abs_le (a := (n : ℚ) - _)]
  refine ⟨fun ⟨n1, n2⟩ => keyL ?_ ?_, fun ⟨n1, n2⟩ => keyB ?_ ?_, fun ⟨n1, n2⟩ => keyR ?_ ?_⟩ <;>
  clear keyL keyB keyR key <;>
  generalize (l : ℚ) = l at * <;>
  generalize (q : ℚ) = q at * <;>
  generalize (q' : ℚ) = q' at * <;>
  generalize (r : ℚ) = R at * <;>
  generalize (g : ℚ) = G at * <;>
  generalize (b : ℚ) = B at * <;>
  generalize (n : ℚ) = N at * <;>
  cases s <;> simp only [dotQ, docY, docCb, docCr, Std.fullRange, lumaOffset,
    lumaCoef, cbCoef, crCoef, ne_eq, not_true_eq_false] at hs n1 n2 u1 u2 h1 h2 h3 h4 ⊢ <;>
  norm_num at n1 n2 u1 u2 h1 h2 h3 h4 ⊢ <;> linarith

/-- C37 fails for Bt709: the printed formula gives 271 for white, the library stores 235. -/
theorem C37_counterexample :
    (lumaOffset .bt709 + dotQ (docY .bt709) 255 255 255 = 271) ∧ luma .bt709 255 255 255 = 235 := by
  constructor
  · norm_num [lumaOffset, dotQ, docY, Std.fullRange]
  · decide

/-- Nearest integer 126 to the printed 125.887 for orange in Bt601. -/
example : |((126 : ℤ) : ℚ) - (lumaOffset .bt601 + dotQ (docY .bt601) 255 88 0)| ≤ 1 / 2 := by
  norm_num [lumaOffset, dotQ, docY, Std.fullRange, abs_le]

/-! ## C38: accuracy of the backward transform -/

theorem clampQ_sub (a b : ℚ) : |clampQ a - clampQ b| ≤ |a - b| := by
  unfold clampQ
  rw [abs_le]
  have h1 := le_abs_self (a - b)
  have h2 := neg_abs_le (a - b)
  rcases le_total 255 a with ha | ha <;> rcases le_total 255 b with hb | hb <;>
  rcases le_total 0 a with ha' | ha' <;> rcases le_total 0 b with hb' | hb' <;>
  simp [ha, hb, ha', hb'] <;>
  constructor <;> linarith

theorem cast_clamp (v : ℤ) : ((clamp v : ℤ) : ℚ) = clampQ v := by
  unfold clamp clampQ; push_cast; rfl

theorem floor_bounds (a k : ℤ) (hk : 0 < k) :
    (k : ℚ) * ((a / k : ℤ) : ℚ) ≤ a ∧ (a : ℚ) ≤ k * ((a / k : ℤ) : ℚ) + (k - 1) := by
  have h1 := Int.mul_ediv_add_emod a k
  have h2 := Int.emod_nonneg a hk.ne'
  have h3 := Int.emod_lt_of_pos a hk
  have : k * (a / k) ≤ a ∧ a ≤ k * (a / k) + (k - 1) := by omega
  exact_mod_cast this

/-- The unclamped decoded red lies between the given distances of the exact value. -/
def errR : Std → ℚ × ℚ
  | .bt601 | .bt709 => (-0.54, 0.54)
  | .bt601FR | .bt709FR => (-0.001, 2.4)

def errG : Std → ℚ × ℚ
  | .bt601 | .bt709 => (-0.54, 0.54)
  | .bt601FR | .bt709FR => (-1.6, 0.001)

theorem red_err (s : Std) {y c : ℤ} (hy : IsByte y) (hc : IsByte c) :
    (errR s).1 ≤ ((redFix s y c / 64 : ℤ) : ℚ) - idealR s y c ∧
    ((redFix s y c / 64 : ℤ) : ℚ) - idealR s y c ≤ (errR s).2 := by
  obtain ⟨f1, f2⟩ := floor_bounds (redFix s y c) 64 (by decide)
  obtain ⟨a1, a2⟩ := floor_bounds (y * (dec s).ky) 256 (by decide)
  obtain ⟨c1, c2⟩ := floor_bounds (c * (dec s).kr) 256 (by decide)
  obtain ⟨y1, y2⟩ := cast_byte hy
  obtain ⟨r1, r2⟩ := cast_byte hc
  generalize redFix s y c / 64 = v at *
  rw [redFix] at f1 f2
  push_cast at f1 f2 a1 a2 c1 c2
  generalize y * (dec s).ky / 256 = a at *
  generalize c * (dec s).kr / 256 = b at *
  clear hy hc
  generalize (v : ℚ) = V at *
  generalize (a : ℚ) = A at *
  generalize (b : ℚ) = B at *
  generalize (y : ℚ) = Y at *
  generalize (c : ℚ) = C at *
  cases s <;> simp only [dec, errR, idealR, signalY, yScale, cScale, lumaOffset, Kr, Std.fullRange]
    at * <;> norm_num at * <;> constructor <;> linarith

theorem blue_err (s : Std) {y c : ℤ} (hy : IsByte y) (hc : IsByte c) :
    (errR s).1 ≤ ((blueFix s y c / 64 : ℤ) : ℚ) - idealB s y c ∧
    ((blueFix s y c / 64 : ℤ) : ℚ) - idealB s y c ≤ (errR s).2 := by
  obtain ⟨f1, f2⟩ := floor_bounds (blueFix s y c) 64 (by decide)
  obtain ⟨a1, a2⟩ := floor_bounds (y * (dec s).ky) 256 (by decide)
  obtain ⟨c1, c2⟩ := floor_bounds (c * (dec s).kb) 256 (by decide)
  obtain ⟨y1, y2⟩ := cast_byte hy
  obtain ⟨r1, r2⟩ := cast_byte hc
  generalize blueFix s y c / 64 = v at *
  rw [blueFix] at f1 f2
  push_cast at f1 f2 a1 a2 c1 c2
  generalize y * (dec s).ky / 256 = a at *
  generalize c * (dec s).kb / 256 = b at *
  clear hy hc
  generalize (v : ℚ) = V at *
  generalize (a : ℚ) = A at *
  generalize (b : ℚ) = B at *
  generalize (y : ℚ) = Y at *
  generalize (c : ℚ) = C at *
  cases s <;> simp only [dec, errR, idealB, signalY, yScale, cScale, lumaOffset, Kb, Std.fullRange]
    at * <;> norm_num at * <;> constructor <;> linarith

theorem green_err (s : Std) {y cb cr : ℤ} (hy : IsByte y) (hb : IsByte cb) (hr : IsByte cr) :
    (errG s).1 ≤ ((greenFix s y cb cr / 64 : ℤ) : ℚ) - idealG s y cb cr ∧
    ((greenFix s y cb cr / 64 : ℤ) : ℚ) - idealG s y cb cr ≤ (errG s).2 := by
  obtain ⟨f1, f2⟩ := floor_bounds (greenFix s y cb cr) 64 (by decide)
  obtain ⟨a1, a2⟩ := floor_bounds (y * (dec s).ky) 256 (by decide)
  obtain ⟨b1, b2⟩ := floor_bounds (cb * (dec s).kgb) 256 (by decide)
  obtain ⟨c1, c2⟩ := floor_bounds (cr * (dec s).kgr) 256 (by decide)
  obtain ⟨y1, y2⟩ := cast_byte hy
  obtain ⟨p1, p2⟩ := cast_byte hb
  obtain ⟨r1, r2⟩ := cast_byte hr
  generalize greenFix s y cb cr / 64 = v at *
  rw [greenFix] at f1 f2
  push_cast at f1 f2 a1 a2 b1 b2 c1 c2
  generalize y * (dec s).ky / 256 = a at *
  generalize cb * (dec s).kgb / 256 = b at *
  generalize cr * (dec s).kgr / 256 = d at *
  clear hy hb hr
  generalize (v : ℚ) = V at *
  generalize (a : ℚ) = A at *
  generalize (b : ℚ) = B at *
  generalize (d : ℚ) = D at *
  generalize (y : ℚ) = Y at *
  generalize (cb : ℚ) = Cb at *
  generalize (cr : ℚ) = Cr at *
  cases s <;> simp only [dec, errG, idealG, idealR, idealB, signalY, yScale, cScale, lumaOffset,
    Kr, Kb, Kg, Std.fullRange] at * <;> norm_num at * <;> constructor <;> linarith

theorem clamped_err {e : ℚ × ℚ} {v : ℤ} {i m : ℚ} (h : e.1 ≤ (v : ℚ) - i ∧ (v : ℚ) - i ≤ e.2)
    (h1 : -m ≤ e.1) (h2 : e.2 ≤ m) : |((clamp v : ℤ) : ℚ) - clampQ i| ≤ m := by
  rw [cast_clamp]
  exact (clampQ_sub _ _).trans (abs_le.2 ⟨h1.trans h.1, h.2.trans h2⟩)

/-- C38, limited range: every decoded component is within 0.54 of the clamped exact value. -/
theorem C38_accuracy_partial (s : Std) (hs : s.fullRange = false) {y cb cr : ℤ} (hy : IsByte y)
    (hb : IsByte cb) (hr : IsByte cr) :
    |(red s y cr : ℚ) - clampQ (idealR s y cr)| ≤ 0.54 ∧
    |(green s y cb cr : ℚ) - clampQ (idealG s y cb cr)| ≤ 0.54 ∧
    |(blue s y cb : ℚ) - clampQ (idealB s y cb)| ≤ 0.54 := by
  refine ⟨clamped_err (red_err s hy hr) ?_ ?_, clamped_err (green_err s hy hb hr) ?_ ?_,
    clamped_err (blue_err s hy hb) ?_ ?_⟩ <;>
  cases s <;> simp [Std.fullRange] at hs <;> norm_num [errR, errG]

/-- The codes of orange in Bt601. -/
example : red .bt601 126 201 = 245 ∧ green .bt601 126 63 201 = 94 ∧ blue .bt601 126 63 = 0 := by decide

/-- C38, full range: the error stays below 2.4 (red, blue) and 1.6 (green). -/
theorem C38_full_range_partial (s : Std) {y cb cr : ℤ} (hy : IsByte y)
    (hb : IsByte cb) (hr : IsByte cr) :
    |(red s y cr : ℚ) - clampQ (idealR s y cr)| ≤ 2.4 ∧
    |(green s y cb cr : ℚ) - clampQ (idealG s y cb cr)| ≤ 1.6 ∧
    |(blue s y cb : ℚ) - clampQ (idealB s y cb)| ≤ 2.4 := by
  refine ⟨clamped_err (red_err s hy hr) ?_ ?_, clamped_err (green_err s hy hb hr) ?_ ?_,
    clamped_err (blue_err s hy hb) ?_ ?_⟩ <;>
  cases s <;> norm_num [errR, errG]

example : red .bt601FR 126 201 = 230 ∧ green .bt601FR 126 63 201 = 95 ∧ blue .bt601FR 126 63 = 13 := by
  decide

/-- C38 fails in full range: for `Y = 100` and neutral chroma the exact blue is 100, the decoded
blue 102, in both full-range spaces. -/
theorem C38_counterexample :
    idealB .bt601FR 100 128 = 100 ∧ blue .bt601FR 100 128 = 102 ∧
    idealB .bt709FR 100 128 = 100 ∧ blue .bt709FR 100 128 = 102 := by
  refine ⟨?_, by decide, ?_, by decide⟩ <;>
  norm_num [idealB, signalY, yScale, cScale, lumaOffset, Kb, Std.fullRange]

/-- C38 of the stored samples. -/
theorem C38_stored_partial {t : Target} {cpu : Cpu} {c : Call}
    {out : List Buf} (hv : Valid t c) (hk : c.Decodes)
    (hs : (std c.src_format.color_space).fullRange = false)
    (ho : Stores t crate cpu c out) {x y : Nat} (hp : c.Pixel x y)
    (hblue : cpu.set = .x86 ∨ cpu.set = .neon ∨ blueFix (std c.src_format.color_space)
      (val (c.yuvIn.y x y)) (val (c.yuvIn.cb x y)) ≤ 32767) :
    let s := std c.src_format.color_space
    let l : ℚ := val (c.yuvIn.y x y)
    let cb : ℚ := val (c.yuvIn.cb x y)
    let cr : ℚ := val (c.yuvIn.cr x y)
    |val ((c.rgbOut out).r x y) - clampQ (idealR s l cr)| ≤ 0.54 ∧
    |val ((c.rgbOut out).g x y) - clampQ (idealG s l cb cr)| ≤ 0.54 ∧
    |val ((c.rgbOut out).b x y) - clampQ (idealB s l cb)| ≤ 0.54 := by
  intro s l cb cr
  obtain ⟨h1, h2, h3⟩ := C23_decode_partial hv hk ho hp hblue
  have e : ∀ v, val (byte (clamp v)) = clamp v := fun v => val_byte (by unfold IsByte clamp; omega)
  rw [h1, h2, h3, red, green, blue, e, e, e]
  exact C38_accuracy_partial s hs (isByte_val _) (isByte_val _) (isByte_val _)

example : ∃ out, Stores .x64 crate sse2Cpu exDecode out ∧
    |val ((exDecode.rgbOut out).r 1 1) - clampQ (idealR .bt709 ((112 : ℤ) : ℚ) ((186 : ℤ) : ℚ))| ≤ 0.54 := by
  obtain ⟨out, ho⟩ := valid_stores (cpu := sse2Cpu) exDecode_valid (.of_ne (by decide))
  exact ⟨out, ho, (C38_stored_partial exDecode_valid (by decide) rfl ho (x := 1) (y := 1)
    ⟨by decide, by decide⟩ (.inr (.inr (by decide +kernel)))).1⟩

/-- C38 of the stored samples, full range. -/
theorem C38_stored_full_range_partial {t : Target} {cpu : Cpu} {c : Call}
    {out : List Buf} (hv : Valid t c) (hk : c.Decodes)
    (ho : Stores t crate cpu c out) {x y : Nat} (hp : c.Pixel x y)
    (hblue : cpu.set = .x86 ∨ cpu.set = .neon ∨ blueFix (std c.src_format.color_space)
      (val (c.yuvIn.y x y)) (val (c.yuvIn.cb x y)) ≤ 32767) :
    let s := std c.src_format.color_space
    let l : ℚ := val (c.yuvIn.y x y)
    let cb : ℚ := val (c.yuvIn.cb x y)
    let cr : ℚ := val (c.yuvIn.cr x y)
    |val ((c.rgbOut out).r x y) - clampQ (idealR s l cr)| ≤ 2.4 ∧
    |val ((c.rgbOut out).g x y) - clampQ (idealG s l cb cr)| ≤ 1.6 ∧
    |val ((c.rgbOut out).b x y) - clampQ (idealB s l cb)| ≤ 2.4 := by
  intro s l cb cr
  obtain ⟨h1, h2, h3⟩ := C23_decode_partial hv hk ho hp hblue
  have e : ∀ v, val (byte (clamp v)) = clamp v := fun v => val_byte (by unfold IsByte clamp; omega)
  rw [h1, h2, h3, red, green, blue, e, e, e]
  exact C38_full_range_partial s (isByte_val _) (isByte_val _) (isByte_val _)

/-- A grey pixel in full range. -/
def exFullGrey : Call where
  width := 1
  height := 1
  src_format := ⟨.i444, .bt601FR, 3⟩
  src_strides := none
  src_buffers := [⟨1, fun _ => 100⟩, ⟨1, fun _ => 128⟩, ⟨1, fun _ => 128⟩]
  dst_format := ⟨.bgra, .rgb, 1⟩
  dst_strides := none
  dst_buffers := [noise 4 1]

theorem exFullGrey_valid : Valid .x64 exFullGrey := valid_of_check (by decide +kernel)

/-- C38 fails of stored samples in full range: on every processor the grey with `Y = 100` is stored with
blue 102 instead of 100. -/
theorem C38_counterexample_stored (cpu : Cpu) : ∃ out, Stores .x64 crate cpu exFullGrey out ∧
    val ((exFullGrey.rgbOut out).b 0 0) = 102 ∧ clampQ (idealB .bt601FR 100 128) = 100 := by
  obtain ⟨out, ho⟩ := valid_stores (cpu := cpu) exFullGrey_valid (.of_ne (by decide))
  obtain ⟨-, -, h3⟩ := C23_decode_partial exFullGrey_valid (by decide) ho (x := 0) (y := 0)
    ⟨by decide, by decide⟩ (.inr (.inr (by decide +kernel)))
  refine ⟨out, ho, ?_, ?_⟩
  · rw [h3]; decide +kernel
  · rw [C38_counterexample.1]; norm_num [clampQ]

/-! ## C39: greys have neutral chroma -/

/-- C39: a grey pixel has chroma 128 in 4:4:4. -/
theorem C39_grey_pixel (s : Std) (v : ℤ) : cb s v v v = 128 ∧ cr s v v v = 128 := by
  cases s <;> simp only [cb, cr, dot, cbCoef, crCoef, roundDown] <;> omega

example : cb .bt709 90 90 90 = 128 ∧ cr .bt601FR 7 7 7 = 128 := by decide

/-- C39: a 2x2 block of grey pixels (not necessarily the same grey) has chroma 128. -/
theorem C39_grey_block (s : Std) (v1 v2 v3 v4 : ℤ) :
    cbAvg s (v1 + v2 + v3 + v4) (v1 + v2 + v3 + v4) (v1 + v2 + v3 + v4) = 128 ∧
    crAvg s (v1 + v2 + v3 + v4) (v1 + v2 + v3 + v4) (v1 + v2 + v3 + v4) = 128 := by
  cases s <;> simp only [cbAvg, crAvg, dot, cbCoef, crCoef, roundDown] <;> omega

/-- Four different greys. -/
example : cbAvg .bt709 (1 + 90 + 200 + 255) (1 + 90 + 200 + 255) (1 + 90 + 200 + 255) = 128 := by decide

/-- C39 with ties rounded up (NEON). -/
theorem C39_grey_pixel_ties (s : Std) (v : ℤ) : cbUp s v v v = 128 ∧ crUp s v v v = 128 := by
  cases s <;> simp only [cbUp, crUp, dot, cbCoef, crCoef, roundUp, clamp] <;> omega

example : cbUp .bt709 90 90 90 = 128 := by decide

theorem C39_grey_block_ties (s : Std) (v1 v2 v3 v4 : ℤ) :
    cbAvgUp s (v1 + v2 + v3 + v4) (v1 + v2 + v3 + v4) (v1 + v2 + v3 + v4) = 128 ∧
    crAvgUp s (v1 + v2 + v3 + v4) (v1 + v2 + v3 + v4) (v1 + v2 + v3 + v4) = 128 := by
  cases s <;> simp only [cbAvgUp, crAvgUp, dot, cbCoef, crCoef, roundUp, clamp] <;> omega

example : crAvgUp .bt709 (1 + 90 + 200 + 255) (1 + 90 + 200 + 255) (1 + 90 + 200 + 255) = 128 := by decide

/-- C39: in full range the luma of a grey is the grey. -/
theorem C39_grey_luma (s : Std) (hs : s.fullRange = true) (v : ℤ) : luma s v v v = v := by
  cases s <;> simp [Std.fullRange] at hs <;>
  simp only [luma, dot, lumaCoef, roundUp, lumaOffset, Std.fullRange, if_true] <;> omega

example : luma .bt709FR 90 90 90 = 90 ∧ luma .bt709 90 90 90 = 93 := by decide

/-- C39 of the stored samples: if the source pixels around `(x, y)` (its 2x2 block) are greys, the
stored chroma is 128 in every destination format; in full range the stored luma is the grey. -/
theorem C39_grey_stored {t : Target} {cpu : Cpu} {c : Call}
    {out : List Buf} (hv : Valid t c) (hk : c.Encodes)
    (ho : Stores t crate cpu c out) {x y : Nat} (hp : c.Pixel x y)
    (hgrey : ∀ x' y', x' / 2 = x / 2 → y' / 2 = y / 2 →
      c.rgbIn.r x' y' = c.rgbIn.g x' y' ∧ c.rgbIn.g x' y' = c.rgbIn.b x' y') :
    (c.yuvOut out).cb x y = 128 ∧ (c.yuvOut out).cr x y = 128 ∧
    ((std c.dst_format.color_space).fullRange = true → (c.yuvOut out).y x y = c.rgbIn.r x y) := by
  obtain ⟨e1, e2⟩ := hgrey x y rfl rfl
  have hy := C20_luma hv hk ho hp
  have hl : (std c.dst_format.color_space).fullRange = true →
      (c.yuvOut out).y x y = c.rgbIn.r x y := by
    intro hf
    rw [hy, ← e2, ← e1, C39_grey_luma _ hf]
    simp [byte, val]
  rw [← and_assoc]
  refine ⟨?_, hl⟩
  by_cases hd : c.dst_format.pixel_format = .i444
  · obtain ⟨h1, h2⟩ := C22_chroma_444_ties hv hk hd ho hp
    rw [← e2, ← e1, (C39_grey_pixel _ _).1, (C39_grey_pixel_ties _ _).1, or_self] at h1
    rw [← e2, ← e1, (C39_grey_pixel _ _).2, (C39_grey_pixel_ties _ _).2, or_self] at h2
    exact ⟨h1, h2⟩
  · obtain ⟨h1, h2⟩ := C21_chroma_420_ties hv hk (dst_420 hv hk hd) ho hp
    have hs : sum4 c.rgbIn.g (x / 2) (y / 2) = sum4 c.rgbIn.r (x / 2) (y / 2) ∧
        sum4 c.rgbIn.b (x / 2) (y / 2) = sum4 c.rgbIn.r (x / 2) (y / 2) := by
      have q1 := hgrey (2 * (x / 2)) (2 * (y / 2)) (by omega) (by omega)
      have q2 := hgrey (2 * (x / 2) + 1) (2 * (y / 2)) (by omega) (by omega)
      have q3 := hgrey (2 * (x / 2)) (2 * (y / 2) + 1) (by omega) (by omega)
      have q4 := hgrey (2 * (x / 2) + 1) (2 * (y / 2) + 1) (by omega) (by omega)
      unfold sum4
      simp only [q1.1, q1.2, q2.1, q2.2, q3.1, q3.2, q4.1, q4.2, and_self]
    simp only [hs.1, hs.2] at h1 h2
    unfold sum4 at h1 h2
    rw [(C39_grey_block _ _ _ _ _).1, (C39_grey_block_ties _ _ _ _ _).1, or_self] at h1
    rw [(C39_grey_block _ _ _ _ _).2, (C39_grey_block_ties _ _ _ _ _).2, or_self] at h2
    exact ⟨h1, h2⟩

/-- Mid grey. -/
example : cb .bt709 90 90 90 = 128 ∧ luma .bt709FR 90 90 90 = 90 := by decide

/-! ## C40: neutral chroma decodes to grey -/

/-- C40, limited range. -/
theorem C40_neutral_partial (s : Std) (hs : s.fullRange = false) (y : ℤ) :
    red s y 128 = green s y 128 128 ∧ green s y 128 128 = blue s y 128 := by
  cases s <;> simp [Std.fullRange] at hs <;>
  simp [red, green, blue, redFix, greenFix, blueFix, dec, clamp] <;> omega

example : red .bt709 100 128 = 98 ∧ green .bt709 100 128 128 = 98 ∧ blue .bt709 100 128 = 98 := by decide

/-- C40 fails in full range: neutral chroma decodes to `(101, 99, 102)` in Bt601FR and
`(102, 99, 102)` in Bt709FR. -/
theorem C40_counterexample :
    (red .bt601FR 100 128 = 101 ∧ green .bt601FR 100 128 128 = 99 ∧ blue .bt601FR 100 128 = 102) ∧
    (red .bt709FR 100 128 = 102 ∧ green .bt709FR 100 128 128 = 99 ∧ blue .bt709FR 100 128 = 102) := by
  decide

/-- What holds in full range instead: the grey axis is at `Cb = Cr = 127`. -/
theorem C40_full_range_partial (s : Std) (hs : s.fullRange = true) {y : ℤ} (hy : IsByte y) :
    red s y 127 = y ∧ green s y 127 127 = y ∧ blue s y 127 = y := by
  unfold IsByte at hy
  cases s <;> simp [Std.fullRange] at hs <;>
  simp [red, green, blue, redFix, greenFix, blueFix, dec, clamp] <;> omega

example : red .bt709FR 100 127 = 100 ∧ green .bt709FR 100 127 127 = 100 := by decide

/-! ## C41: black and white -/

/-- C41: black and white have the nominal codes. -/
theorem C41_encode (s : Std) :
    (luma s 0 0 0 = if s.fullRange then 0 else 16) ∧
    (luma s 255 255 255 = if s.fullRange then 255 else 235) ∧
    cb s 0 0 0 = 128 ∧ cr s 0 0 0 = 128 ∧ cb s 255 255 255 = 128 ∧ cr s 255 255 255 = 128 ∧
    cbAvg s 0 0 0 = 128 ∧ crAvg s 0 0 0 = 128 ∧ cbAvg s 1020 1020 1020 = 128 ∧
    crAvg s 1020 1020 1020 = 128 := by
  cases s <;> decide

/-- C41: the nominal limited-range codes (and everything below and above them) decode to black and
white. -/
theorem C41_decode (s : Std) (hs : s.fullRange = false) {y : ℤ} :
    (y ≤ 16 → red s y 128 = 0 ∧ green s y 128 128 = 0 ∧ blue s y 128 = 0) ∧
    (235 ≤ y → red s y 128 = 255 ∧ green s y 128 128 = 255 ∧ blue s y 128 = 255) := by
  cases s <;> simp [Std.fullRange] at hs <;>
  simp [red, green, blue, redFix, greenFix, blueFix, dec, clamp] <;> omega

example : red .bt601 3 128 = 0 ∧ green .bt601 240 128 128 = 255 := by decide

/-! ## C42: monotonicity -/

theorem roundUp_mono {a b : ℤ} (h : a ≤ b) : roundUp a 65536 ≤ roundUp b 65536 := by
  unfold roundUp; omega

theorem roundDown_mono {a b : ℤ} (h : a ≤ b) : roundDown a 65536 ≤ roundDown b 65536 := by
  unfold roundDown; omega

theorem roundDown4_mono {a b : ℤ} (h : a ≤ b) : roundDown a (4 * 65536) ≤ roundDown b (4 * 65536) := by
  unfold roundDown; omega

/-- C42, luma. -/
theorem C42_luma (s : Std) {r g b r' g' b' : ℤ} (hr : r ≤ r') (hg : g ≤ g') (hb : b ≤ b') :
    luma s r g b ≤ luma s r' g' b' := by
  unfold luma
  have : dot (lumaCoef s) r g b ≤ dot (lumaCoef s) r' g' b' := by
    cases s <;> simp only [dot, lumaCoef] <;> omega
  have := roundUp_mono this
  omega

example : luma .bt601 10 20 30 = 32 ∧ luma .bt601 11 20 40 = 33 := by decide

/-- C42, chroma: Cb grows with blue and falls with red and green, Cr grows with red and falls with
green and blue; for pixels and for 2x2 blocks. -/
theorem C42_chroma (s : Std) {r g b r' g' b' : ℤ} :
    (r' ≤ r → g' ≤ g → b ≤ b' → cb s r g b ≤ cb s r' g' b' ∧ cbAvg s r g b ≤ cbAvg s r' g' b') ∧
    (r ≤ r' → g' ≤ g → b' ≤ b → cr s r g b ≤ cr s r' g' b' ∧ crAvg s r g b ≤ crAvg s r' g' b') := by
  unfold cb cr cbAvg crAvg
  constructor
  · intro hr hg hb
    have h : dot (cbCoef s) r g b ≤ dot (cbCoef s) r' g' b' := by
      cases s <;> simp only [dot, cbCoef] <;> omega
    exact ⟨by have := roundDown_mono h; omega, by have := roundDown4_mono h; omega⟩
  · intro hr hg hb
    have h : dot (crCoef s) r g b ≤ dot (crCoef s) r' g' b' := by
      cases s <;> simp only [dot, crCoef] <;> omega
    exact ⟨by have := roundDown_mono h; omega, by have := roundDown4_mono h; omega⟩

example : cb .bt601 20 20 30 = 132 ∧ cb .bt601 10 20 40 = 138 := by decide

theorem clamp_mono {a b : ℤ} (h : a ≤ b) : clamp a ≤ clamp b := by unfold clamp; omega

/-- C42, decoding. -/
theorem C42_decode (s : Std) {y cb cr y' cb' cr' : ℤ} (hy : y ≤ y') :
    (cr ≤ cr' → red s y cr ≤ red s y' cr') ∧
    (cb ≤ cb' → blue s y cb ≤ blue s y' cb') ∧
    (cb' ≤ cb → cr' ≤ cr → green s y cb cr ≤ green s y' cb' cr') := by
  refine ⟨fun hc => clamp_mono ?_, fun hc => clamp_mono ?_, fun hb hr => clamp_mono ?_⟩ <;>
  cases s <;> simp only [redFix, greenFix, blueFix, dec] <;> omega

example : red .bt601 100 120 = 85 ∧ red .bt601 101 140 = 118 := by decide

/-- C42 of stored samples: within one conversion, a pixel that is at least as bright in every
component gets at least the luma. -/
theorem C42_luma_stored {t : Target} {cpu : Cpu} {c : Call}
    {out : List Buf} (hv : Valid t c) (hk : c.Encodes)
    (ho : Stores t crate cpu c out) {x y x' y' : Nat} (hp : c.Pixel x y) (hp' : c.Pixel x' y')
    (hr : c.rgbIn.r x y ≤ c.rgbIn.r x' y') (hg : c.rgbIn.g x y ≤ c.rgbIn.g x' y')
    (hb : c.rgbIn.b x y ≤ c.rgbIn.b x' y') :
    (c.yuvOut out).y x y ≤ (c.yuvOut out).y x' y' := by
  have v : ∀ {a b : UInt8}, a ≤ b ↔ val a ≤ val b := by
    intro a b; unfold val; rw [UInt8.le_iff_toNat_le]; omega
  rw [v] at hr hg hb ⊢
  have e := fun x y => (C35_no_truncation (std c.dst_format.color_space)
    (isByte_val (c.rgbIn.r x y)) (isByte_val (c.rgbIn.g x y)) (isByte_val (c.rgbIn.b x y))
    (isSum4 c.rgbIn.r 0 0) (isSum4 c.rgbIn.g 0 0) (isSum4 c.rgbIn.b 0 0)).1
  rw [C20_luma hv hk ho hp, C20_luma hv hk ho hp', e, e]
  exact C42_luma _ hr hg hb

example : ∃ out, Stores .x64 crate avx2Cpu exEncode out ∧
    (exEncode.yuvOut out).y 0 0 ≤ (exEncode.yuvOut out).y 1 0 := by
  obtain ⟨out, ho⟩ := valid_stores (cpu := avx2Cpu) exEncode_valid (exEncode_room _)
  exact ⟨out, ho, C42_luma_stored exEncode_valid (by decide) ho ⟨by decide, by decide⟩
    ⟨by decide, by decide⟩ (by decide +kernel) (by decide +kernel) (by decide +kernel)⟩

/-! ## C43: round trip -/

/-- The exact inverse of the exact forward transform. -/
theorem ideal_inverse (s : Std) (r g b : ℚ) :
    idealR s (idealY s r g b) (idealCr s r g b) = r ∧
    idealG s (idealY s r g b) (idealCb s r g b) (idealCr s r g b) = g ∧
    idealB s (idealY s r g b) (idealCb s r g b) = b := by
  cases s <;> simp only [idealR, idealG, idealB, idealY, idealCb, idealCr, signalY, lumaSignal,
    yScale, cScale, lumaOffset, Kr, Kb, Kg, Std.fullRange] <;> norm_num <;>
  refine ⟨?_, ?_, ?_⟩ <;> linarith

theorem clamp_close {v r m : ℤ} (hr : IsByte r) (h : |v - r| ≤ m) : |clamp v - r| ≤ m := by
  unfold IsByte at hr
  rw [abs_le] at *
  unfold clamp
  omega

theorem int_close {v r m : ℤ} (h1 : (-(m + 1) : ℚ) < (v : ℚ) - r) (h2 : (v : ℚ) - r < m + 1) :
    |v - r| ≤ m := by
  have h1' : (-(m + 1) : ℤ) < v - r := by exact_mod_cast h1
  have h2' : v - r < m + 1 := by exact_mod_cast h2
  rw [abs_le]; omega

/-- Bound of the round-trip error of red. -/
def tripR (s : Std) : ℤ := if s.fullRange then 3 else 2
/-- Bound of the round-trip error of green. -/
def tripG (s : Std) : ℤ := if s.fullRange then 2 else 1
/-- Bound of the round-trip error of blue. -/
def tripB (s : Std) : ℤ := if s.fullRange then 3 else 2

theorem trip_red (s : Std) {Y V Y' V' R X : ℚ} (a1 : -0.504 ≤ Y - Y' ∧ Y - Y' ≤ 0.504)
    (a3 : -0.51 ≤ V - V' ∧ V - V' ≤ 0.51) (i : idealR s Y' V' = R)
    (e : (errR s).1 ≤ X - idealR s Y V ∧ X - idealR s Y V ≤ (errR s).2) :
    (-(tripR s + 1) : ℚ) < X - R ∧ X - R < tripR s + 1 := by
  obtain ⟨a11, a12⟩ := a1
  obtain ⟨a31, a32⟩ := a3
  obtain ⟨e1, e2⟩ := e
  cases s <;> simp only [idealR, signalY, errR, tripR, yScale, cScale, lumaOffset, Kr,
    Std.fullRange] at * <;> norm_num at * <;> constructor <;> linarith

theorem trip_blue (s : Std) {Y V Y' V' R X : ℚ} (a1 : -0.504 ≤ Y - Y' ∧ Y - Y' ≤ 0.504)
    (a3 : -0.51 ≤ V - V' ∧ V - V' ≤ 0.51) (i : idealB s Y' V' = R)
    (e : (errR s).1 ≤ X - idealB s Y V ∧ X - idealB s Y V ≤ (errR s).2) :
    (-(tripB s + 1) : ℚ) < X - R ∧ X - R < tripB s + 1 := by
  obtain ⟨a11, a12⟩ := a1
  obtain ⟨a31, a32⟩ := a3
  obtain ⟨e1, e2⟩ := e
  cases s <;> simp only [idealB, signalY, errR, tripB, yScale, cScale, lumaOffset, Kb,
    Std.fullRange] at * <;> norm_num at * <;> constructor <;> linarith

theorem trip_green (s : Std) {Y U V Y' U' V' R X : ℚ} (a1 : -0.504 ≤ Y - Y' ∧ Y - Y' ≤ 0.504)
    (a2 : -0.51 ≤ U - U' ∧ U - U' ≤ 0.51) (a3 : -0.51 ≤ V - V' ∧ V - V' ≤ 0.51)
    (i : idealG s Y' U' V' = R)
    (e : (errG s).1 ≤ X - idealG s Y U V ∧ X - idealG s Y U V ≤ (errG s).2) :
    (-(tripG s + 1) : ℚ) < X - R ∧ X - R < tripG s + 1 := by
  obtain ⟨a11, a12⟩ := a1
  obtain ⟨a21, a22⟩ := a2
  obtain ⟨a31, a32⟩ := a3
  obtain ⟨e1, e2⟩ := e
  cases s <;> simp only [idealG, idealR, idealB, signalY, errG, tripG, yScale, cScale, lumaOffset,
    Kr, Kb, Kg, Std.fullRange] at * <;> norm_num at * <;> constructor <;> linarith

/-- Decoding any accurate codes of a colour gives the colour back, within the bounds. -/
theorem trip_pixel (s : Std) {r g b : ℤ} (hr : IsByte r) (hg : IsByte g) (hb : IsByte b)
    {y u v : ℤ} (hy : IsByte y) (hu : IsByte u) (hv : IsByte v)
    (a1 : |(y : ℚ) - idealY s r g b| ≤ 0.504) (a2 : |(u : ℚ) - idealCb s r g b| ≤ 0.51)
    (a3 : |(v : ℚ) - idealCr s r g b| ≤ 0.51) :
    |red s y v - r| ≤ tripR s ∧ |green s y u v - g| ≤ tripG s ∧ |blue s y u - b| ≤ tripB s := by
  rw [abs_le] at a1 a2 a3
  obtain ⟨i1, i2, i3⟩ := ideal_inverse s r g b
  obtain ⟨l1, u1⟩ := trip_red s a1 a3 i1 (red_err s hy hv)
  obtain ⟨l2, u2⟩ := trip_green s a1 a2 a3 i2 (green_err s hy hu hv)
  obtain ⟨l3, u3⟩ := trip_blue s a1 a2 i3 (blue_err s hy hu)
  exact ⟨clamp_close hr (int_close l1 u1), clamp_close hg (int_close l2 u2),
    clamp_close hb (int_close l3 u3)⟩

/-- C43 for one pixel. -/
theorem C43_round_trip_pixel (s : Std) {r g b : ℤ} (hr : IsByte r) (hg : IsByte g) (hb : IsByte b) :
    let y := luma s r g b
    let u := cb s r g b
    let v := cr s r g b
    |red s y v - r| ≤ tripR s ∧ |green s y u v - g| ≤ tripG s ∧ |blue s y u - b| ≤ tripB s := by
  intro y u v
  obtain ⟨hy, hu, hv, -, -⟩ := C35_full s hr hg hb (r4 := 0) (g4 := 0) (b4 := 0)
    (by unfold IsSum4; omega) (by unfold IsSum4; omega) (by unfold IsSum4; omega)
  obtain ⟨a2, a3⟩ := C36_chroma s hr hg hb
  exact trip_pixel s hr hg hb hy hu hv (C36_luma s hr hg hb) a2 a3

/-- A red that does not return exactly. -/
example : luma .bt601FR 200 10 10 = 67 ∧ cb .bt601FR 200 10 10 = 96 ∧ cr .bt601FR 200 10 10 = 223 ∧
    red .bt601FR 67 223 = 202 := by decide

/-- C43, greys in limited range: within 1 in every component. -/
theorem C43_grey_pixel (s : Std) (hs : s.fullRange = false) {v : ℤ} (hv : IsByte v) :
    let y := luma s v v v
    |red s y 128 - v| ≤ 1 ∧ |green s y 128 128 - v| ≤ 1 ∧ |blue s y 128 - v| ≤ 1 := by
  have h : ∀ n : Fin 256, ∀ s ∈ [Std.bt601, Std.bt709],
      -1 ≤ red s (luma s n n n) 128 - n ∧ red s (luma s n n n) 128 - n ≤ 1 ∧
      -1 ≤ green s (luma s n n n) 128 128 - n ∧ green s (luma s n n n) 128 128 - n ≤ 1 ∧
      -1 ≤ blue s (luma s n n n) 128 - n ∧ blue s (luma s n n n) 128 - n ≤ 1 := by
    decide +kernel
  obtain ⟨h0, h1⟩ := hv
  have hm : s ∈ [Std.bt601, Std.bt709] := by cases s <;> simp [Std.fullRange] at hs <;> simp
  obtain ⟨n, rfl⟩ := Int.eq_ofNat_of_zero_le h0
  have := h ⟨n, by omega⟩ s hm
  simp only [abs_le]
  simpa only [and_assoc] using this

example : luma .bt601 100 100 100 = 102 ∧ red .bt601 102 128 = 100 := by decide

/-- `c'` decodes, in the same colour space, the image that `c` stored. -/
structure Decodes_of (c c' : Call) (out : List Buf) : Prop where
  width : c'.width = c.width
  height : c'.height = c.height
  format : c'.src_format = c.dst_format
  strides : c'.src_strides = c.dst_strides
  buffers : c'.src_buffers = out

theorem Decodes_of.image {c c' : Call} {out : List Buf} (h : Decodes_of c c' out) :
    c'.yuvIn = c.yuvOut out := by
  unfold Call.yuvIn Call.yuvOut; rw [h.width, h.height, h.format, h.strides, h.buffers]

/-- A stored image can be decoded without the blue overflow of the vector code. -/
theorem stored_blue {t : Target} {cpu cpu' : Cpu} {c c' : Call}
    {out : List Buf} (hv : Valid t c)
    (hk : c.Encodes) (ho : Stores t crate cpu c out) (hd : Decodes_of c c' out)
    {x y : Nat} (hp : c.Pixel x y) :
    cpu'.set = .x86 ∨ cpu'.set = .neon ∨ blueFix (std c'.src_format.color_space)
      (val (c'.yuvIn.y x y)) (val (c'.yuvIn.cb x y)) ≤ 32767 := by
  refine .inr (.inr ?_)
  rw [hd.image, hd.format]
  refine blueFix_small (val_range _) (val_range _) ?_
  cases hs : (std c.dst_format.color_space).fullRange
  · obtain ⟨⟨-, h1⟩, ⟨-, h2⟩, -⟩ := C35_stored hv hk hs ho hp
    rw [UInt8.le_iff_toNat_le] at h1 h2
    refine .inr ⟨?_, ?_⟩ <;> unfold val
    · exact_mod_cast h1
    · exact_mod_cast h2
  · exact .inl rfl

/-- C43: encode an RGB image to I444 on one processor and decode the result in the same colour space
on any processor (second call's source is what the first call stored): every component of every pixel
is reproduced within `tripR`, `tripG`, `tripB`. -/
theorem C43_round_trip {t : Target} {cpu cpu' : Cpu} {c c' : Call}
    {out out' : List Buf} (hv : Valid t c) (hv' : Valid t c')
    (hk : c.Encodes) (hk' : c'.Decodes) (hd : c.dst_format.pixel_format = .i444)
    (ho : Stores t crate cpu c out) (ho' : Stores t crate cpu' c' out')
    (hc : Decodes_of c c' out) {x y : Nat} (hp : c.Pixel x y) :
    let s := std c.dst_format.color_space
    |val ((c'.rgbOut out').r x y) - val (c.rgbIn.r x y)| ≤ tripR s ∧
    |val ((c'.rgbOut out').g x y) - val (c.rgbIn.g x y)| ≤ tripG s ∧
    |val ((c'.rgbOut out').b x y) - val (c.rgbIn.b x y)| ≤ tripB s := by
  intro s
  have hp' : c'.Pixel x y := by unfold Call.Pixel at *; rw [hc.width, hc.height]; exact hp
  obtain ⟨d1, d2, d3⟩ := C23_decode_partial hv' hk' ho' hp' (stored_blue hv hk ho hc hp)
  obtain ⟨a1, a2, a3⟩ := C36_forward_accuracy_444 hv hk hd ho hp
  have e : ∀ v, val (byte (clamp v)) = clamp v := fun v => val_byte (by unfold IsByte clamp; omega)
  rw [d1, d2, d3, hc.format, hc.image, red, green, blue, e, e, e]
  exact trip_pixel s (isByte_val _) (isByte_val _) (isByte_val _) (isByte_val _) (isByte_val _)
    (isByte_val _) a1 a2 a3

/-- C43 for 4:2:0: the same bounds where the 2x2 block of the pixel is of one colour. -/
theorem C43_round_trip_420 {t : Target} {cpu cpu' : Cpu} {c c' : Call}
    {out out' : List Buf} (hv : Valid t c) (hv' : Valid t c')
    (hk : c.Encodes) (hk' : c'.Decodes)
    (hd : c.dst_format.pixel_format = .i420 ∨ c.dst_format.pixel_format = .nv12)
    (ho : Stores t crate cpu c out) (ho' : Stores t crate cpu' c' out')
    (hc : Decodes_of c c' out) {x y : Nat} (hp : c.Pixel x y)
    (hflat : ∀ x' y', x' / 2 = x / 2 → y' / 2 = y / 2 → c.rgbIn.r x' y' = c.rgbIn.r x y ∧
      c.rgbIn.g x' y' = c.rgbIn.g x y ∧ c.rgbIn.b x' y' = c.rgbIn.b x y) :
    let s := std c.dst_format.color_space
    |val ((c'.rgbOut out').r x y) - val (c.rgbIn.r x y)| ≤ tripR s ∧
    |val ((c'.rgbOut out').g x y) - val (c.rgbIn.g x y)| ≤ tripG s ∧
    |val ((c'.rgbOut out').b x y) - val (c.rgbIn.b x y)| ≤ tripB s := by
  intro s
  have hp' : c'.Pixel x y := by unfold Call.Pixel at *; rw [hc.width, hc.height]; exact hp
  obtain ⟨d1, d2, d3⟩ := C23_decode_partial hv' hk' ho' hp' (stored_blue hv hk ho hc hp)
  obtain ⟨a1, a2, a3⟩ := C36_forward_accuracy_420 hv hk hd ho hp
  have e : ∀ v, val (byte (clamp v)) = clamp v := fun v => val_byte (by unfold IsByte clamp; omega)
  have h4 : ∀ f : Nat → Nat → UInt8,
      (∀ x' y', x' / 2 = x / 2 → y' / 2 = y / 2 → f x' y' = f x y) →
      (sum4 f (x / 2) (y / 2) : ℚ) / 4 = val (f x y) := by
    intro f h
    have : sum4 f (x / 2) (y / 2) = 4 * val (f x y) := by
      unfold sum4
      have h0 := h (2 * (x / 2)) (2 * (y / 2)) (by omega) (by omega)
      have h1 := h (2 * (x / 2) + 1) (2 * (y / 2)) (by omega) (by omega)
      have h2 := h (2 * (x / 2)) (2 * (y / 2) + 1) (by omega) (by omega)
      have h3 := h (2 * (x / 2) + 1) (2 * (y / 2) + 1) (by omega) (by omega)
      rw [h0, h1, h2, h3]
      omega
    rw [this]; push_cast; ring
  rw [h4 _ fun x' y' hx hy => (hflat x' y' hx hy).1, h4 _ fun x' y' hx hy => (hflat x' y' hx hy).2.1,
    h4 _ fun x' y' hx hy => (hflat x' y' hx hy).2.2] at a2 a3
  rw [d1, d2, d3, hc.format, hc.image, red, green, blue, e, e, e]
  exact trip_pixel s (isByte_val _) (isByte_val _) (isByte_val _) (isByte_val _) (isByte_val _)
    (isByte_val _) a1 a2 a3

/-- C43, greys in limited range: within 1, and for every 4:4:4 or 4:2:0 format when the whole 2x2
block is grey. -/
theorem C43_grey {t : Target} {cpu cpu' : Cpu} {c c' : Call}
    {out out' : List Buf} (hv : Valid t c) (hv' : Valid t c')
    (hk : c.Encodes) (hk' : c'.Decodes)
    (hl : (std c.dst_format.color_space).fullRange = false)
    (ho : Stores t crate cpu c out) (ho' : Stores t crate cpu' c' out')
    (hc : Decodes_of c c' out) {x y : Nat} (hp : c.Pixel x y)
    (hgrey : ∀ x' y', x' / 2 = x / 2 → y' / 2 = y / 2 →
      c.rgbIn.r x' y' = c.rgbIn.g x' y' ∧ c.rgbIn.g x' y' = c.rgbIn.b x' y') :
    |val ((c'.rgbOut out').r x y) - val (c.rgbIn.r x y)| ≤ 1 ∧
    |val ((c'.rgbOut out').g x y) - val (c.rgbIn.g x y)| ≤ 1 ∧
    |val ((c'.rgbOut out').b x y) - val (c.rgbIn.b x y)| ≤ 1 := by
  have hp' : c'.Pixel x y := by unfold Call.Pixel at *; rw [hc.width, hc.height]; exact hp
  obtain ⟨d1, d2, d3⟩ := C23_decode_partial hv' hk' ho' hp' (stored_blue hv hk ho hc hp)
  obtain ⟨e2, e3, -⟩ := C39_grey_stored hv hk ho hp hgrey
  obtain ⟨g1, g2⟩ := hgrey x y rfl rfl
  have e1 := C20_luma hv hk ho hp
  have hr := isByte_val (c.rgbIn.r x y)
  rw [← g2, ← g1] at e1
  obtain ⟨n1, -⟩ := C35_no_truncation (std c.dst_format.color_space) hr hr hr
    (isSum4 c.rgbIn.r 0 0) (isSum4 c.rgbIn.g 0 0) (isSum4 c.rgbIn.b 0 0)
  have e : ∀ v, val (byte (clamp v)) = clamp v := fun v => val_byte (by unfold IsByte clamp; omega)
  rw [d1, d2, d3, hc.format, hc.image, e1, e2, e3, red, green, blue, e, e, e, n1, ← g2, ← g1]
  exact C43_grey_pixel _ hl hr

/-- Decoding an I444 image into a new image. -/
def exDecode444 (src : List Buf) : Call where
  width := 3
  height := 2
  src_format := ⟨.i444, .bt709FR, 3⟩
  src_strides := none
  src_buffers := src
  dst_format := ⟨.bgra, .rgb, 1⟩
  dst_strides := none
  dst_buffers := [noise 24 5]

/-- The hypotheses of C43 are met: decode on AVX2 what `exEncode444` stores on NEON. -/
example : ∃ out out', Stores .x64 crate neonCpu exEncode444 out ∧
    Stores .x64 crate avx2Cpu (exDecode444 out) out' ∧
    VectorRoom neonCpu.set exEncode444 ∧ Decodes_of exEncode444 (exDecode444 out) out ∧
    Valid .x64 (exDecode444 out) ∧ (exDecode444 out).Decodes ∧ exEncode444.Encodes ∧
    exEncode444.dst_format.pixel_format = .i444 ∧ exEncode444.Pixel 2 1 := by
  have hr : VectorRoom neonCpu.set exEncode444 := fun _ _ _ _ => trivial
  have hv : Valid .x64 (exDecode444 ((semOf .neon).out exEncode444)) :=
    valid_of_check (by decide +kernel)
  exact ⟨_, _, (Runs.crate exEncode444_valid hr).stores,
    (Runs.crate hv (.of_rgb (by decide))).stores, hr, ⟨rfl, rfl, rfl, rfl, rfl⟩, hv,
    ⟨rfl, rfl⟩, by decide, rfl, by unfold Call.Pixel; decide⟩

/-! ## C44: saturation -/

/-- C44: for every 32-bit intermediate (in units of 1/64) the stored byte is the floor clamped to
`[0, 255]`. -/
theorem C44_saturation {v : ℤ} (h : -2147483648 ≤ v) (h' : v ≤ 2147483647) :
    val (X86.fix_to_u8_sat v FIX6) = max 0 (min 255 ⌊(v : ℚ) / 64⌋) := by
  have e : ⌊(v : ℚ) / 64⌋ = v / 64 := by
    have := Rat.floor_intCast_div_natCast v 64
    simpa using this
  rw [X86.fix_to_u8_sat_eq h h', e, val_byte (by unfold IsByte clamp; omega)]
  rfl

example : X86.fix_to_u8_sat (-1) FIX6 = 0 ∧ X86.fix_to_u8_sat 16383 FIX6 = 255 ∧
    X86.fix_to_u8_sat 16384 FIX6 = 255 ∧ X86.fix_to_u8_sat 127 FIX6 = 1 := by decide

/-! ## C60, C61: the coefficients -/

/-- C60: luma coefficients are the nearest multiples of 1/65536, chroma coefficients are within one
such unit, chroma rows sum to zero and full-range luma rows sum to one. -/
theorem C60_forward_coefficients_partial (s : Std) :
    (|(lumaCoef s).1 - 65536 * (yScale s * Kr s)| ≤ 1 / 2 ∧
     |(lumaCoef s).2.1 - 65536 * (yScale s * Kg s)| ≤ 1 / 2 ∧
     |(lumaCoef s).2.2 - 65536 * (yScale s * Kb s)| ≤ 1 / 2) ∧
    (|(cbCoef s).1 - 65536 * (cScale s * (-Kr s / (2 * (1 - Kb s))))| ≤ 1 ∧
     |(cbCoef s).2.1 - 65536 * (cScale s * (-Kg s / (2 * (1 - Kb s))))| ≤ 1 ∧
     |(cbCoef s).2.2 - 65536 * (cScale s * (1 / 2))| ≤ 1) ∧
    (|(crCoef s).1 - 65536 * (cScale s * (1 / 2))| ≤ 1 ∧
     |(crCoef s).2.1 - 65536 * (cScale s * (-Kg s / (2 * (1 - Kr s))))| ≤ 1 ∧
     |(crCoef s).2.2 - 65536 * (cScale s * (-Kb s / (2 * (1 - Kr s))))| ≤ 1) ∧
    (cbCoef s).1 + (cbCoef s).2.1 + (cbCoef s).2.2 = 0 ∧
    (crCoef s).1 + (crCoef s).2.1 + (crCoef s).2.2 = 0 ∧
    (s.fullRange = true → (lumaCoef s).1 + (lumaCoef s).2.1 + (lumaCoef s).2.2 = 65536) := by
  cases s <;> norm_num [lumaCoef, cbCoef, crCoef, yScale, cScale, Kr, Kb, Kg, Std.fullRange, abs_le]

/-- 0.2126 * 219 / 255 * 65536 is 11965.9..., rounded to 11966. -/
example : (lumaCoef .bt709).1 = 11966 ∧
    65536 * (yScale .bt709 * Kr .bt709) = 65536 * 219 * 2126 / (255 * 10000) := by
  constructor
  · decide
  · norm_num [yScale, Kr, Std.fullRange]

/-- C60, "nearest" fails for chroma: the nearest value to the full-range coefficient of blue in Cb
is 32768, the library uses 32767. -/
theorem C60_counterexample :
    65536 * (cScale .bt601FR * (1 / 2)) = (32768 : ℤ) ∧ (cbCoef .bt601FR).2.2 = 32767 := by
  constructor
  · norm_num [cScale, Std.fullRange]
  · rfl

/-- The coefficients of C60 are those of the code: the three rows the kernels use. -/
theorem C60_coefficients_of_code (k : Colorimetry) :
    let w := FORWARD_WEIGHTS k
    ∃ yb zb, X86.derived w = .ok (yb, zb) ∧ lumaCoef k.std = (w.xr, w.xg, w.xb) ∧
      cbCoef k.std = (w.yr, w.yg, yb) ∧ crCoef k.std = (yb, w.zg, zb) := by
  refine ⟨_, _, X86.derived_ok k, ?_⟩
  cases k <;> decide

example : (FORWARD_WEIGHTS .bt709).xr = 11966 ∧ X86.derived (FORWARD_WEIGHTS .bt709) = .ok (28785, -2640) := by
  decide

/-- Exact red, green and blue as linear forms: multiplier of `Y` and of the chroma codes. -/
def exactKy (s : Std) : ℚ := 1 / yScale s
def exactKr (s : Std) : ℚ := 2 * (1 - Kr s) / cScale s
def exactKb (s : Std) : ℚ := 2 * (1 - Kb s) / cScale s
def exactKgr (s : Std) : ℚ := Kr s * exactKr s / Kg s
def exactKgb (s : Std) : ℚ := Kb s * exactKb s / Kg s

/-- These are the multipliers of the exact formulas. -/
theorem exact_linear (s : Std) (y cb cr : ℚ) :
    idealR s y cr = exactKy s * y + exactKr s * cr - (exactKy s * lumaOffset s + 128 * exactKr s) ∧
    idealG s y cb cr = exactKy s * y - exactKgb s * cb - exactKgr s * cr
      - (exactKy s * lumaOffset s - 128 * (exactKgr s + exactKgb s)) ∧
    idealB s y cb = exactKy s * y + exactKb s * cb - (exactKy s * lumaOffset s + 128 * exactKb s) := by
  cases s <;> simp only [idealR, idealG, idealB, signalY, exactKy, exactKr, exactKb, exactKgr,
    exactKgb, yScale, cScale, lumaOffset, Kr, Kb, Kg, Std.fullRange] <;> norm_num <;>
  refine ⟨?_, ?_, ?_⟩ <;> linarith

/-- C61: the multipliers are the nearest multiples of 1/16384. -/
theorem C61_backward_coefficients (s : Std) :
    |(dec s).ky - 16384 * exactKy s| ≤ 1 / 2 ∧ |(dec s).kr - 16384 * exactKr s| ≤ 1 / 2 ∧
    |(dec s).kb - 16384 * exactKb s| ≤ 1 / 2 ∧ |(dec s).kgr - 16384 * exactKgr s| ≤ 1 / 2 ∧
    |(dec s).kgb - 16384 * exactKgb s| ≤ 1 / 2 := by
  cases s <;> norm_num [dec, exactKy, exactKr, exactKb, exactKgr, exactKgb, yScale, cScale, Kr, Kb,
    Kg, Std.fullRange, abs_le]

example : (dec .bt601).ky = 19077 ∧ (dec .bt601).kr = 26149 := by decide

/-- Offsets (in units of 1/64, plus one half for rounding) for a chroma centre `m`. -/
def OffsetsCentred (s : Std) (m : ℚ) : Prop :=
  |(dec s).offR - (32 - 64 * (exactKy s * lumaOffset s + m * exactKr s))| ≤ 1 ∧
  |(dec s).offG - (32 - 64 * (exactKy s * lumaOffset s - m * (exactKgr s + exactKgb s)))| ≤ 1 ∧
  |(dec s).offB - (32 - 64 * (exactKy s * lumaOffset s + m * exactKb s))| ≤ 1

/-- C61, offsets: chroma is centred at 128 in limited range, but at 127 in full range. -/
theorem C61_offsets_partial (s : Std) : OffsetsCentred s (if s.fullRange then 127 else 128) := by
  unfold OffsetsCentred
  cases s <;> norm_num [dec, exactKy, exactKr, exactKb, exactKgr, exactKgb, yScale, cScale, Kr, Kb,
    Kg, Std.fullRange, abs_le, lumaOffset]

/-- C61 fails in full range: the offsets are not those of the chroma centre 128. -/
theorem C61_counterexample : ¬ OffsetsCentred .bt601FR 128 ∧ ¬ OffsetsCentred .bt709FR 128 := by
  unfold OffsetsCentred
  constructor <;> norm_num [dec, exactKy, exactKr, exactKb, exactKgr, exactKgb, yScale, cScale, Kr,
    Kb, Kg, Std.fullRange, abs_le, lumaOffset]

/-- The weights of C61 are those of the code. -/
theorem C61_coefficients_of_code (k : Colorimetry) :
    let w := BACKWARD_WEIGHTS k
    dec k.std = ⟨w.xxym, w.rcrm, w.gcrm, w.gcbm, w.bcbm, -w.rn, w.gp, -w.bn⟩ := by
  cases k <;> rfl

example : (BACKWARD_WEIGHTS .bt601).xxym = 19077 ∧ (BACKWARD_WEIGHTS .bt709FR).bcbm = 30402 := by decide

end Verif
