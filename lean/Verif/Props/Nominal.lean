import Verif.Props.Simd
/-!
# C37, C40, C41 of stored images

`Props/Numeric.lean` relates the formulas of `Spec.Color` to the documentation and determines the codes
of greys, black and white. Here the same is said of what conversions store, on every processor.
-/

namespace Verif
open Spec

variable {t : Target} {cpu : Cpu} {c : Call} {out : List Buf} {x y : Nat}

/-! ## C37 -/

/-- Rounding a multiple of the exact chroma either way, then comparing with the printed formula. -/
theorem doc_chroma (s : Std) (hs : s ≠ .bt709) {r g b : ℤ} (hr : IsSum4 r) (hg : IsSum4 g)
    (hb : IsSum4 b) (m n : ℤ) :
    (|(n : ℚ) - (128 + dotQ (docCb s) (r / 4) (g / 4) (b / 4))| ≤ 1 / 2 →
      |262144 * m - dot (cbCoef s) r g b| ≤ 131072 → |128 + m - n| ≤ 1) ∧
    (|(n : ℚ) - (128 + dotQ (docCr s) (r / 4) (g / 4) (b / 4))| ≤ 1 / 2 →
      |262144 * m - dot (crCoef s) r g b| ≤ 131072 → |128 + m - n| ≤ 1) := by
  have key : -2 < (128 : ℚ) + m - n → (128 : ℚ) + m - n < 2 → |128 + m - n| ≤ 1 := by
    intro h1 h2
    have h1' : (-2 : ℤ) < 128 + m - n := by exact_mod_cast h1
    have h2' : 128 + m - n < 2 := by exact_mod_cast h2
    rw [abs_le]; omega
  have cast : ∀ k : ℤ × ℤ × ℤ, |262144 * m - dot k r g b| ≤ 131072 →
      |262144 * (m : ℚ) - (k.1 * r + k.2.1 * g + k.2.2 * b)| ≤ 131072 := by
    intro k h
    rw [← cast_dot]
    exact_mod_cast h
  obtain ⟨r1, r2⟩ := cast_sum4 hr
  obtain ⟨g1, g2⟩ := cast_sum4 hg
  obtain ⟨b1, b2⟩ := cast_sum4 hb
  refine ⟨fun h1 h2 => ?_, fun h1 h2 => ?_⟩ <;>
  replace h2 := cast _ h2 <;>
  rw [abs_le] at h1 h2 <;>
  obtain ⟨n1, n2⟩ := h1 <;>
  obtain ⟨m1, m2⟩ := h2 <;>
  apply key <;> clear key cast <;>
  generalize (r : ℚ) = R at * <;>
  generalize (g : ℚ) = G at * <;>
  generalize (b : ℚ) = B at * <;>
  generalize (n : ℚ) = N at * <;>
  generalize (m : ℚ) = M at * <;>
  cases s <;> simp only [dotQ, docCb, docCr, cbCoef, crCoef, ne_eq, not_true_eq_false] at hs n1 n2 m1 m2 <;>
  norm_num at n1 n2 m1 m2 <;> linarith

theorem round4 (t : ℤ) : |262144 * roundDown t (4 * 65536) - t| ≤ 131072 ∧
    |262144 * roundUp t (4 * 65536) - t| ≤ 131072 := by
  unfold roundDown roundUp
  rw [abs_le, abs_le]
  omega

/-- The chroma codes, as roundings of a quarter of the block sums. -/
theorem avg_forms (s : Std) {r g b : ℤ} (hr : IsSum4 r) (hg : IsSum4 g) (hb : IsSum4 b) :
    cbAvgUp s r g b = 128 + roundUp (dot (cbCoef s) r g b) (4 * 65536) ∧
    crAvgUp s r g b = 128 + roundUp (dot (crCoef s) r g b) (4 * 65536) := by
  unfold IsSum4 at *
  cases s <;> simp only [cbAvgUp, crAvgUp, dot, cbCoef, crCoef, roundUp, clamp] <;> omega

theorem cb_avg (s : Std) (r g b : ℤ) : cb s r g b = cbAvg s (4 * r) (4 * g) (4 * b) ∧
    cr s r g b = crAvg s (4 * r) (4 * g) (4 * b) ∧ cbUp s r g b = cbAvgUp s (4 * r) (4 * g) (4 * b) ∧
    crUp s r g b = crAvgUp s (4 * r) (4 * g) (4 * b) := by
  cases s <;> simp only [cb, cr, cbAvg, crAvg, cbUp, crUp, cbAvgUp, crAvgUp, dot, cbCoef, crCoef,
    roundDown, roundUp, clamp] <;> omega

/-- C37 of stored samples, all spaces but Bt709: on every processor the stored luma, and in 4:4:4 the
stored chroma, is within 1 of any integer nearest to the printed formula of the pixel. -/
theorem C37_stored_partial (hv : Valid t c) (hk : c.Encodes)
    (hs : std c.dst_format.color_space ≠ .bt709) (ho : Stores t crate cpu c out) (hp : c.Pixel x y)
    (n : ℤ) :
    let s := std c.dst_format.color_space
    let r := val (c.rgbIn.r x y)
    let g := val (c.rgbIn.g x y)
    let b := val (c.rgbIn.b x y)
    (|(n : ℚ) - (lumaOffset s + dotQ (docY s) r g b)| ≤ 1 / 2 →
      |val ((c.yuvOut out).y x y) - n| ≤ 1) ∧
    (c.dst_format.pixel_format = .i444 →
      (|(n : ℚ) - (128 + dotQ (docCb s) r g b)| ≤ 1 / 2 → |val ((c.yuvOut out).cb x y) - n| ≤ 1) ∧
      (|(n : ℚ) - (128 + dotQ (docCr s) r g b)| ≤ 1 / 2 → |val ((c.yuvOut out).cr x y) - n| ≤ 1)) := by
  intro s r g b
  have hr : IsByte r := isByte_val _
  have hg : IsByte g := isByte_val _
  have hb : IsByte b := isByte_val _
  have up : ∀ {v : ℤ}, IsByte v → IsSum4 (4 * v) := by intro v h; unfold IsByte IsSum4 at *; omega
  have hn := C35_no_truncation s hr hg hb (up hr) (up hg) (up hb)
  have ht := C35_ties s hr hg hb (up hr) (up hg) (up hb)
  refine ⟨fun h => ?_, fun hd => ?_⟩
  · rw [C20_luma hv hk ho hp, hn.1]
    exact (C37_documented_partial s hs hr hg hb n).1 h
  obtain ⟨h1, h2⟩ := C22_chroma_444_ties hv hk hd ho hp
  obtain ⟨e1, e2, e3, e4⟩ := cb_avg s r g b
  obtain ⟨f1, f2⟩ := avg_forms s (up hr) (up hg) (up hb)
  have q : ∀ v : ℤ, ((4 * v : ℤ) : ℚ) / 4 = v := by intro v; push_cast; ring
  have D := doc_chroma s hs (up hr) (up hg) (up hb)
  simp only [q] at D
  constructor
  · intro h
    rcases h1 with h1 | h1 <;> rw [h1]
    · rw [hn.2.1, e1]
      exact (D _ n).1 h (round4 _).1
    · rw [val_byte ht.1.1, e3, f1]
      exact (D _ n).1 h (round4 _).2
  · intro h
    rcases h2 with h2 | h2 <;> rw [h2]
    · rw [hn.2.2.1, e2]
      exact (D _ n).2 h (round4 _).1
    · rw [val_byte ht.1.2.1, e4, f2]
      exact (D _ n).2 h (round4 _).2

/-- C37 of stored samples in 4:2:0: the chroma is within 1 of the printed formula of the average
colour of the block. -/
theorem C37_stored_420_partial (hv : Valid t c) (hk : c.Encodes)
    (hs : std c.dst_format.color_space ≠ .bt709)
    (hd : c.dst_format.pixel_format = .i420 ∨ c.dst_format.pixel_format = .nv12)
    (ho : Stores t crate cpu c out) (hp : c.Pixel x y) (n : ℤ) :
    let s := std c.dst_format.color_space
    let r : ℚ := sum4 c.rgbIn.r (x / 2) (y / 2) / 4
    let g : ℚ := sum4 c.rgbIn.g (x / 2) (y / 2) / 4
    let b : ℚ := sum4 c.rgbIn.b (x / 2) (y / 2) / 4
    (|(n : ℚ) - (128 + dotQ (docCb s) r g b)| ≤ 1 / 2 → |val ((c.yuvOut out).cb x y) - n| ≤ 1) ∧
    (|(n : ℚ) - (128 + dotQ (docCr s) r g b)| ≤ 1 / 2 → |val ((c.yuvOut out).cr x y) - n| ≤ 1) := by
  intro s r g b
  have hr := isSum4 c.rgbIn.r (x / 2) (y / 2)
  have hg := isSum4 c.rgbIn.g (x / 2) (y / 2)
  have hb := isSum4 c.rgbIn.b (x / 2) (y / 2)
  have z : IsByte 0 := ⟨by decide, by decide⟩
  have hn := C35_no_truncation s z z z hr hg hb
  have ht := C35_ties s z z z hr hg hb
  obtain ⟨f1, f2⟩ := avg_forms s hr hg hb
  have D := doc_chroma s hs hr hg hb
  obtain ⟨h1, h2⟩ := C21_chroma_420_ties hv hk hd ho hp
  constructor
  · intro h
    rcases h1 with h1 | h1 <;> rw [h1]
    · rw [hn.2.2.2.1]
      exact (D _ n).1 h (round4 _).1
    · rw [val_byte ht.1.2.2.1, f1]
      exact (D _ n).1 h (round4 _).2
  · intro h
    rcases h2 with h2 | h2 <;> rw [h2]
    · rw [hn.2.2.2.2]
      exact (D _ n).2 h (round4 _).1
    · rw [val_byte ht.1.2.2.2, f2]
      exact (D _ n).2 h (round4 _).2

/-- A picture of 10x2 pixels of one grey. -/
def exGrey (v : UInt8) (cs : ColorSpace) : Call where
  width := 10
  height := 2
  src_format := ⟨.bgra, .rgb, 1⟩
  src_strides := none
  src_buffers := [⟨80, fun _ => v⟩]
  dst_format := ⟨.i420, cs, 3⟩
  dst_strides := none
  dst_buffers := [noise 20 2, noise 5 3, noise 5 4]

theorem exGrey_valid : Valid .x64 (exGrey 255 .bt601) ∧ Valid .x64 (exGrey 255 .bt709) ∧
    Valid .x64 (exGrey 100 .bt601) :=
  ⟨valid_of_check (by decide +kernel), valid_of_check (by decide +kernel),
    valid_of_check (by decide +kernel)⟩

/-- C37 fails for stored images in Bt709, on every processor: the printed formula gives 271 for white,
235 is stored. -/
theorem C37_counterexample_stored (ho : Stores .x64 crate cpu (exGrey 255 .bt709) out) :
    val (((exGrey 255 .bt709).yuvOut out).y 0 0) = 235 ∧
    lumaOffset .bt709 + dotQ (docY .bt709) 255 255 255 = 271 := by
  refine ⟨?_, C37_counterexample.1⟩
  rw [C20_luma exGrey_valid.2.1 ⟨rfl, rfl⟩ ho ⟨by decide, by decide⟩]
  decide

example : (∃ out, Stores .x64 crate neonCpu (exGrey 255 .bt709) out) ∧
    ∃ out, Stores .x64 crate avx2Cpu (exGrey 255 .bt709) out :=
  ⟨valid_stores exGrey_valid.2.1 (.of_ne (by decide)),
    valid_stores exGrey_valid.2.1 (.of_ne (by decide))⟩

/-- The hypotheses of C37 are met: 16 + 0.859 * 100 is nearest to 102. -/
example : ∃ out, Stores .x64 crate neonCpu (exGrey 100 .bt601) out ∧
    |val (((exGrey 100 .bt601).yuvOut out).y 9 1) - 102| ≤ 1 := by
  obtain ⟨out, ho⟩ := valid_stores (cpu := neonCpu) exGrey_valid.2.2 (.of_ne (by decide))
  refine ⟨out, ho, (C37_stored_partial exGrey_valid.2.2 ⟨rfl, rfl⟩ (by decide) ho
    ⟨by decide, by decide⟩ 102).1 ?_⟩
  rw [show val ((exGrey 100 .bt601).rgbIn.r 9 1) = 100 from rfl,
    show val ((exGrey 100 .bt601).rgbIn.g 9 1) = 100 from rfl,
    show val ((exGrey 100 .bt601).rgbIn.b 9 1) = 100 from rfl,
    show std (exGrey 100 .bt601).dst_format.color_space = .bt601 from rfl]
  norm_num [lumaOffset, dotQ, docY, Std.fullRange, abs_le]

/-! ## C40 -/

/-- With chroma up to 128 no processor wraps blue, so the stored pixel is the documented one. -/
theorem decode_neutral (hv : Valid t c) (hk : c.Decodes) (ho : Stores t crate cpu c out)
    (hp : c.Pixel x y) (hb : val (c.yuvIn.cb x y) ≤ 128) :
    (c.rgbOut out).r x y = byte (red (std c.src_format.color_space) (val (c.yuvIn.y x y))
      (val (c.yuvIn.cr x y))) ∧
    (c.rgbOut out).g x y = byte (green (std c.src_format.color_space) (val (c.yuvIn.y x y))
      (val (c.yuvIn.cb x y)) (val (c.yuvIn.cr x y))) ∧
    (c.rgbOut out).b x y = byte (blue (std c.src_format.color_space) (val (c.yuvIn.y x y))
      (val (c.yuvIn.cb x y))) := by
  refine C23_decode_partial hv hk ho hp (.inr (.inr ?_))
  have h1 := val_range (c.yuvIn.y x y)
  generalize val (c.yuvIn.y x y) = Y at *
  generalize val (c.yuvIn.cb x y) = B at *
  cases std c.src_format.color_space <;> simp only [blueFix, dec] <;> omega

/-- C40 of stored pixels, limited range, on every processor: neutral chroma decodes to grey. -/
theorem C40_stored_partial (hv : Valid t c) (hk : c.Decodes)
    (hs : (std c.src_format.color_space).fullRange = false) (ho : Stores t crate cpu c out)
    (hp : c.Pixel x y) (hb : c.yuvIn.cb x y = 128) (hr : c.yuvIn.cr x y = 128) :
    (c.rgbOut out).r x y = (c.rgbOut out).g x y ∧ (c.rgbOut out).g x y = (c.rgbOut out).b x y := by
  obtain ⟨h1, h2, h3⟩ := decode_neutral hv hk ho hp (by rw [hb]; decide)
  rw [h1, h2, h3, hb, hr, show val 128 = 128 from rfl]
  obtain ⟨e1, e2⟩ := C40_neutral_partial _ hs (val (c.yuvIn.y x y))
  rw [e1, e2]
  exact ⟨rfl, rfl⟩

/-- C40 in full range, on every processor: the codes that decode to the grey `Y` have chroma 127. -/
theorem C40_stored_full_range_partial (hv : Valid t c) (hk : c.Decodes)
    (hs : (std c.src_format.color_space).fullRange = true) (ho : Stores t crate cpu c out)
    (hp : c.Pixel x y) (hb : c.yuvIn.cb x y = 127) (hr : c.yuvIn.cr x y = 127) :
    (c.rgbOut out).r x y = c.yuvIn.y x y ∧ (c.rgbOut out).g x y = c.yuvIn.y x y ∧
    (c.rgbOut out).b x y = c.yuvIn.y x y := by
  obtain ⟨h1, h2, h3⟩ := decode_neutral hv hk ho hp (by rw [hb]; decide)
  rw [h1, h2, h3, hb, hr, show val 127 = 127 from rfl]
  obtain ⟨e1, e2, e3⟩ := C40_full_range_partial _ hs (isByte_val (c.yuvIn.y x y))
  rw [e1, e2, e3]
  simp [byte, val]

/-- A line of 8 I444 pixels of one colour. -/
def exNeutral (cs : ColorSpace) (l u : UInt8) : Call where
  width := 8
  height := 1
  src_format := ⟨.i444, cs, 3⟩
  src_strides := none
  src_buffers := [⟨8, fun _ => l⟩, ⟨8, fun _ => u⟩, ⟨8, fun _ => u⟩]
  dst_format := ⟨.bgra, .rgb, 1⟩
  dst_strides := none
  dst_buffers := [noise 32 2]

theorem exNeutral_valid (l u : UInt8) : Valid .x64 (exNeutral .bt601 l u) ∧
    Valid .x64 (exNeutral .bt601FR l u) := ⟨valid_of_check rfl, valid_of_check rfl⟩

/-- C40 fails for stored pixels in full range, on every processor: neutral chroma gets a colour. -/
theorem C40_counterexample_stored (ho : Stores .x64 crate cpu (exNeutral .bt601FR 100 128) out) :
    ((exNeutral .bt601FR 100 128).rgbOut out).r 0 0 = 101 ∧
    ((exNeutral .bt601FR 100 128).rgbOut out).g 0 0 = 99 ∧
    ((exNeutral .bt601FR 100 128).rgbOut out).b 0 0 = 102 := by
  obtain ⟨h1, h2, h3⟩ := decode_neutral (exNeutral_valid 100 128).2 ⟨rfl, rfl⟩ ho (x := 0) (y := 0)
    ⟨by decide, by decide⟩ (by decide)
  rw [h1, h2, h3]
  decide

/-- Such calls succeed. -/
example : (∃ out, Stores .x64 crate sse2Cpu (exNeutral .bt601FR 100 128) out) ∧
    ∃ out, Stores .x64 crate neonCpu (exNeutral .bt601FR 100 128) out :=
  ⟨valid_stores (exNeutral_valid _ _).2 (.of_ne (by decide)),
    valid_stores (exNeutral_valid _ _).2 (.of_ne (by decide))⟩

example : ∃ out, Stores .x64 crate avx2Cpu (exNeutral .bt601FR 77 127) out ∧
    ((exNeutral .bt601FR 77 127).rgbOut out).b 7 0 = 77 := by
  obtain ⟨out, ho⟩ := valid_stores (cpu := avx2Cpu) (exNeutral_valid 77 127).2 (.of_ne (by decide))
  exact ⟨out, ho, (C40_stored_full_range_partial (exNeutral_valid 77 127).2 ⟨rfl, rfl⟩ rfl ho
    ⟨by decide, by decide⟩ rfl rfl).2.2⟩

/-! ## C41 -/

/-- C41 of stored samples, on every processor: a black or white block has the nominal codes. -/
theorem C41_encode_stored (hv : Valid t c) (hk : c.Encodes) (ho : Stores t crate cpu c out)
    (hp : c.Pixel x y) {v : UInt8} (hc : ∀ x' y', x' / 2 = x / 2 → y' / 2 = y / 2 →
      c.rgbIn.r x' y' = v ∧ c.rgbIn.g x' y' = v ∧ c.rgbIn.b x' y' = v) :
    (v = 0 → (c.yuvOut out).y x y =
      if c.dst_format.color_space = .bt601 ∨ c.dst_format.color_space = .bt709 then 16 else 0) ∧
    (v = 255 → (c.yuvOut out).y x y =
      if c.dst_format.color_space = .bt601 ∨ c.dst_format.color_space = .bt709 then 235 else 255) ∧
    (c.yuvOut out).cb x y = 128 ∧ (c.yuvOut out).cr x y = 128 := by
  obtain ⟨e1, e2, e3⟩ := hc x y rfl rfl
  obtain ⟨g1, g2, -⟩ := C39_grey_stored hv hk ho hp (fun x' y' h1 h2 => by
    obtain ⟨a, b, d⟩ := hc x' y' h1 h2
    exact ⟨a.trans b.symm, b.trans d.symm⟩)
  have hy := C20_luma hv hk ho hp
  have hcs : c.dst_format.color_space ≠ .rgb := fun h => by
    have := hv.dst_legal.cs.2 h
    rw [hk.2] at this
    cases this
  rw [e1, e2, e3] at hy
  refine ⟨?_, ?_, g1, g2⟩ <;>
  · rintro rfl
    rw [hy]
    revert hcs
    generalize c.dst_format.color_space = cs
    cases cs <;> decide

/-- C41 of stored pixels, limited range, on every processor: nominal black and white, and all codes
beyond them, decode to black and white. -/
theorem C41_decode_stored (hv : Valid t c) (hk : c.Decodes)
    (hs : c.src_format.color_space = .bt601 ∨ c.src_format.color_space = .bt709)
    (ho : Stores t crate cpu c out) (hp : c.Pixel x y) (hb : c.yuvIn.cb x y = 128)
    (hr : c.yuvIn.cr x y = 128) :
    (c.yuvIn.y x y ≤ 16 → (c.rgbOut out).r x y = 0 ∧ (c.rgbOut out).g x y = 0 ∧
      (c.rgbOut out).b x y = 0) ∧
    (235 ≤ c.yuvIn.y x y → (c.rgbOut out).r x y = 255 ∧ (c.rgbOut out).g x y = 255 ∧
      (c.rgbOut out).b x y = 255) := by
  have hf : (std c.src_format.color_space).fullRange = false := by
    rcases hs with hs | hs <;> rw [hs] <;> rfl
  obtain ⟨h1, h2, h3⟩ := decode_neutral hv hk ho hp (by rw [hb]; decide)
  rw [h1, h2, h3, hb, hr, show val 128 = 128 from rfl]
  obtain ⟨d1, d2⟩ := C41_decode _ hf (y := val (c.yuvIn.y x y))
  refine ⟨fun h => ?_, fun h => ?_⟩
  · rw [UInt8.le_iff_toNat_le] at h
    obtain ⟨k1, k2, k3⟩ := d1 (by unfold val; exact_mod_cast h)
    rw [k1, k2, k3]
    decide
  · rw [UInt8.le_iff_toNat_le] at h
    obtain ⟨k1, k2, k3⟩ := d2 (by unfold val; exact_mod_cast h)
    rw [k1, k2, k3]
    decide

/-- White, encoded by NEON, is 235; decoded by AVX2 it is 255. -/
example : (∃ out, Stores .x64 crate neonCpu (exGrey 255 .bt601) out ∧
      ((exGrey 255 .bt601).yuvOut out).y 9 1 = 235) ∧
    ∃ out, Stores .x64 crate avx2Cpu (exNeutral .bt601 235 128) out ∧
      ((exNeutral .bt601 235 128).rgbOut out).b 3 0 = 255 := by
  obtain ⟨out, ho⟩ := valid_stores (cpu := neonCpu) exGrey_valid.1 (.of_ne (by decide))
  obtain ⟨out', ho'⟩ := valid_stores (cpu := avx2Cpu) (exNeutral_valid 235 128).1 (.of_ne (by decide))
  refine ⟨⟨out, ho, ?_⟩, out', ho', ?_⟩
  · exact (C41_encode_stored exGrey_valid.1 ⟨rfl, rfl⟩ ho ⟨by decide, by decide⟩ (v := 255)
      fun _ _ _ _ => ⟨rfl, rfl, rfl⟩).2.1 rfl
  · exact ((C41_decode_stored (exNeutral_valid 235 128).1 ⟨rfl, rfl⟩ (.inl rfl) ho'
      ⟨by decide, by decide⟩ rfl rfl).2 (by decide)).2.2

end Verif
