import Mathlib.Tactic.NormNum
import Verif.Spec.Bars
import Verif.Spec.Ideal
import Verif.Props.Grey
/-!
# C116: colour bars get the codes of the standards

None of the eight colours has a chroma value between two codes, so that NEON stores the same codes as
the other processors. The largest codes of full range are 255.5 by the formulas of the standards; 255 is
stored and nothing wraps.
-/

namespace Verif
open Spec

variable {t t' : Target} {cpu cpu' : Cpu} {c c' : Call} {out out' : List Buf} {x y x' y' : Nat}
  {r g b : Bool}

theorem bar_luma (s : Std) (r g b : Bool) :
    byte (luma s (val (full r)) (val (full g)) (val (full b))) = (barCodes s r g b).1 := by
  cases s <;> cases r <;> cases g <;> cases b <;> decide +kernel

theorem bar_444 (s : Std) (r g b : Bool) :
    byte (cb s (val (full r)) (val (full g)) (val (full b))) = (barCodes s r g b).2.1 ∧
    byte (cbUp s (val (full r)) (val (full g)) (val (full b))) = (barCodes s r g b).2.1 ∧
    byte (cr s (val (full r)) (val (full g)) (val (full b))) = (barCodes s r g b).2.2 ∧
    byte (crUp s (val (full r)) (val (full g)) (val (full b))) = (barCodes s r g b).2.2 := by
  cases s <;> cases r <;> cases g <;> cases b <;> decide +kernel

/-- Four times a component. -/
def four (v : Bool) : ℤ := val (full v) + val (full v) + val (full v) + val (full v)

theorem bar_420 (s : Std) (r g b : Bool) :
    byte (cbAvg s (four r) (four g) (four b)) = (barCodes s r g b).2.1 ∧
    byte (cbAvgUp s (four r) (four g) (four b)) = (barCodes s r g b).2.1 ∧
    byte (crAvg s (four r) (four g) (four b)) = (barCodes s r g b).2.2 ∧
    byte (crAvgUp s (four r) (four g) (four b)) = (barCodes s r g b).2.2 := by
  cases s <;> cases r <;> cases g <;> cases b <;> decide +kernel

/-- **C116**, encoding: a pixel in a block of the colour of a bar gets the codes of the table, in all
formats and on all processors. -/
theorem C116_encode (hv : Valid t c) (hk : c.Encodes) (ho : Stores t crate cpu c out)
    (hp : c.Pixel x y) (hb : BarAround c r g b x y) :
    ((c.yuvOut out).y x y, (c.yuvOut out).cb x y, (c.yuvOut out).cr x y) =
      barCodes (std c.dst_format.color_space) r g b := by
  obtain ⟨e1, e2, e3⟩ := hb x y hp rfl rfl
  have hy := C20_luma hv hk ho hp
  rw [e1, e2, e3, bar_luma] at hy
  refine Prod.ext hy ?_
  by_cases hd : c.dst_format.pixel_format = .i444
  · obtain ⟨h1, h2⟩ := C22_chroma_444_ties hv hk hd ho hp
    obtain ⟨b1, b2, b3, b4⟩ := bar_444 (std c.dst_format.color_space) r g b
    rw [e1, e2, e3, b1, b2, or_self] at h1
    rw [e1, e2, e3, b3, b4, or_self] at h2
    exact Prod.ext h1 h2
  · have hd' := dst_420 hv hk hd
    obtain ⟨h1, h2⟩ := C21_chroma_420_ties hv hk hd' ho hp
    have hs : sum4 c.rgbIn.r (x / 2) (y / 2) = four r ∧ sum4 c.rgbIn.g (x / 2) (y / 2) = four g ∧
        sum4 c.rgbIn.b (x / 2) (y / 2) = four b := by
      obtain ⟨m1, m2⟩ := Valid.even hv hd'
      obtain ⟨p1, p2⟩ := hp
      have q := fun i j (hi : i < 2) (hj : j < 2) => hb (2 * (x / 2) + i) (2 * (y / 2) + j)
        ⟨by omega, by omega⟩ (by omega) (by omega)
      have q1 := q 0 0 (by decide) (by decide)
      have q2 := q 1 0 (by decide) (by decide)
      have q3 := q 0 1 (by decide) (by decide)
      have q4 := q 1 1 (by decide) (by decide)
      simp only [Nat.add_zero] at q1 q2 q3
      simp only [sum4, four, q1, q2, q3, q4, and_self]
    obtain ⟨b1, b2, b3, b4⟩ := bar_420 (std c.dst_format.color_space) r g b
    rw [hs.1, hs.2.1, hs.2.2, b1, b2, or_self] at h1
    rw [hs.1, hs.2.1, hs.2.2, b3, b4, or_self] at h2
    exact Prod.ext h1 h2

/-- Value of a component. -/
def fullQ (b : Bool) : ℚ := if b then 255 else 0

/-- **C116**: the codes of the table are the exact values of the standards rounded to nearest; 255.5 is
rounded to 255. -/
theorem C116_nearest (s : Std) (r g b : Bool) :
    |((barCodes s r g b).1.toNat : ℚ) - idealY s (fullQ r) (fullQ g) (fullQ b)| < 1 / 2 ∧
    |((barCodes s r g b).2.1.toNat : ℚ) - idealCb s (fullQ r) (fullQ g) (fullQ b)| ≤ 1 / 2 ∧
    |((barCodes s r g b).2.2.toNat : ℚ) - idealCr s (fullQ r) (fullQ g) (fullQ b)| ≤ 1 / 2 ∧
    (s.fullRange = false →
      |((barCodes s r g b).2.1.toNat : ℚ) - idealCb s (fullQ r) (fullQ g) (fullQ b)| < 1 / 2 ∧
      |((barCodes s r g b).2.2.toNat : ℚ) - idealCr s (fullQ r) (fullQ g) (fullQ b)| < 1 / 2) := by
  cases s <;> cases r <;> cases g <;> cases b <;>
    norm_num [barCodes, idealY, idealCb, idealCr, fullQ, Kr, Kb, Kg, yScale, cScale, lumaSignal,
      lumaOffset, Std.fullRange, abs_le, abs_lt, UInt8.toNat_ofNat]

theorem bar_decode (s : Std) (r g b : Bool) :
    let Y := val (barCodes s r g b).1
    let U := val (barCodes s r g b).2.1
    let V := val (barCodes s r g b).2.2
    blueFix s Y U ≤ 32767 ∧
    |red s Y V - val (full r)| ≤ (if s.fullRange then 3 else 1) ∧
    |green s Y U V - val (full g)| ≤ 1 ∧
    |blue s Y U - val (full b)| ≤ (if s.fullRange then 3 else 1) := by
  cases s <;> cases r <;> cases g <;> cases b <;> decide +kernel

/-- **C116**, decoding: the codes of a bar decode to its colour, on all processors: within one in limited
range, within three in full range. -/
theorem C116_decode (hv : Valid t c) (hk : c.Decodes) (ho : Stores t crate cpu c out)
    (hp : c.Pixel x y) (hb : (c.yuvIn.y x y, c.yuvIn.cb x y, c.yuvIn.cr x y) =
      barCodes (std c.src_format.color_space) r g b) :
    let n := if (std c.src_format.color_space).fullRange then 3 else 1
    |val ((c.rgbOut out).r x y) - val (full r)| ≤ n ∧ |val ((c.rgbOut out).g x y) - val (full g)| ≤ 1 ∧
    |val ((c.rgbOut out).b x y) - val (full b)| ≤ n := by
  have b1 : c.yuvIn.y x y = (barCodes (std c.src_format.color_space) r g b).1 := by rw [← hb]
  have b2 : c.yuvIn.cb x y = (barCodes (std c.src_format.color_space) r g b).2.1 := by rw [← hb]
  have b3 : c.yuvIn.cr x y = (barCodes (std c.src_format.color_space) r g b).2.2 := by rw [← hb]
  obtain ⟨d0, d1, d2, d3⟩ := bar_decode (std c.src_format.color_space) r g b
  obtain ⟨h1, h2, h3⟩ := C23_decode_partial hv hk ho hp (.inr (.inr (by rw [b1, b2]; exact d0)))
  rw [b1, b3] at h1
  rw [b1, b2, b3] at h2
  rw [b1, b2] at h3
  have k1 := congrArg val h1
  have k2 := congrArg val h2
  have k3 := congrArg val h3
  rw [red, val_byte (isByte_clamp _)] at k1
  rw [green, val_byte (isByte_clamp _)] at k2
  rw [blue, val_byte (isByte_clamp _)] at k3
  exact ⟨by rw [k1]; exact d1, by rw [k2]; exact d2, by rw [k3]; exact d3⟩

/-- **C116**: a block of a bar that is encoded on one processor and decoded on another keeps its colour:
within one in limited range, within three in full range. -/
theorem C116_trip (hv : Valid t c) (hv' : Valid t' c') (hk : c.Encodes) (hk' : c'.Decodes)
    (hs : c'.src_format.color_space = c.dst_format.color_space)
    (ho : Stores t crate cpu c out) (ho' : Stores t' crate cpu' c' out')
    (hp : c.Pixel x y) (hp' : c'.Pixel x' y') (hb : BarAround c r g b x y)
    (he : (c'.yuvIn.y x' y', c'.yuvIn.cb x' y', c'.yuvIn.cr x' y') =
      ((c.yuvOut out).y x y, (c.yuvOut out).cb x y, (c.yuvOut out).cr x y)) :
    let n := if (std c.dst_format.color_space).fullRange then 3 else 1
    |val ((c'.rgbOut out').r x' y') - val (c.rgbIn.r x y)| ≤ n ∧
    |val ((c'.rgbOut out').g x' y') - val (c.rgbIn.g x y)| ≤ 1 ∧
    |val ((c'.rgbOut out').b x' y') - val (c.rgbIn.b x y)| ≤ n := by
  obtain ⟨e1, e2, e3⟩ := hb x y hp rfl rfl
  have h := C116_decode hv' hk' ho' hp' (r := r) (g := g) (b := b)
    (by rw [he, hs]; exact C116_encode hv hk ho hp hb)
  rw [hs] at h
  rw [e1, e2, e3]
  exact h

/-- A 2x2 image of the colour of a bar. -/
def exBar (r g b : Bool) : Call where
  width := 2
  height := 2
  src_format := ⟨.bgra, .rgb, 1⟩
  src_strides := none
  src_buffers := [⟨16, fun i => if i % 4 = 0 then full b else if i % 4 = 1 then full g else full r⟩]
  dst_format := ⟨.nv12, .bt709, 2⟩
  dst_strides := none
  dst_buffers := [noise 4 2, noise 2 3]

theorem exBar_around : BarAround (exBar true false true) true false true 1 0 := by
  rintro x' y' ⟨h1, h2⟩ - -
  have h1 : x' < 2 := h1
  have h2 : y' < 2 := h2
  interval_cases x' <;> interval_cases y' <;> decide +kernel

/-- The hypotheses of C116 are met, on any processor: magenta. -/
example (cpu : Cpu) : ∃ out, Stores .x64 crate cpu (exBar true false true) out ∧
    (((exBar true false true).yuvOut out).y 1 0, ((exBar true false true).yuvOut out).cb 1 0,
      ((exBar true false true).yuvOut out).cr 1 0) = ((78, 214, 230) : UInt8 × UInt8 × UInt8) := by
  have hv : Valid .x64 (exBar true false true) := valid_of_check (by decide +kernel)
  obtain ⟨out, ho⟩ := valid_stores (cpu := cpu) hv (.of_ne fun e => by cases e)
  exact ⟨out, ho, C116_encode hv ⟨rfl, rfl⟩ ho (by constructor <;> decide) exBar_around⟩

/-- Blue in full range: the exact Cb is 255.5. -/
example : idealCb .bt709FR 0 0 255 = 255.5 ∧ (barCodes .bt709FR false false true).2.1 = 255 := by
  norm_num [barCodes, idealCb, Kr, Kb, Kg, cScale, lumaSignal, Std.fullRange]

end Verif
