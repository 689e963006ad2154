import Verif.Props.Tiles
/-!
# C82: pixels of one colour are converted alike, wherever they are in the image

Two pixels of the source with the same colour (for subsampled chroma: two blocks with the same four
colours) get the same colour in the destination. The exceptions are those of C46 and C51: columns
converted by vector code may differ from the rest of the line. They are described exactly.
-/

namespace Verif

open Spec (val byte blueFix)

variable {t : Target} {cpu : Cpu} {c : Call} {out : List Buf} {x y x' y' : Nat}

/-- The 2x2 blocks of two pixels have the same colours. -/
def SameBlock (im : Spec.RgbImage) (x y x' y' : Nat) : Prop :=
  ∀ dx dy, dx < 2 → dy < 2 →
    im.r (2 * (x' / 2) + dx) (2 * (y' / 2) + dy) = im.r (2 * (x / 2) + dx) (2 * (y / 2) + dy) ∧
    im.g (2 * (x' / 2) + dx) (2 * (y' / 2) + dy) = im.g (2 * (x / 2) + dx) (2 * (y / 2) + dy) ∧
    im.b (2 * (x' / 2) + dx) (2 * (y' / 2) + dy) = im.b (2 * (x / 2) + dx) (2 * (y / 2) + dy)

theorem SameBlock.sums {im : Spec.RgbImage} (h : SameBlock im x y x' y') :
    Spec.sum4 im.r (x' / 2) (y' / 2) = Spec.sum4 im.r (x / 2) (y / 2) ∧
    Spec.sum4 im.g (x' / 2) (y' / 2) = Spec.sum4 im.g (x / 2) (y / 2) ∧
    Spec.sum4 im.b (x' / 2) (y' / 2) = Spec.sum4 im.b (x / 2) (y / 2) := by
  obtain ⟨a1, a2, a3⟩ := h 0 0 (by omega) (by omega)
  obtain ⟨b1, b2, b3⟩ := h 1 0 (by omega) (by omega)
  obtain ⟨c1, c2, c3⟩ := h 0 1 (by omega) (by omega)
  obtain ⟨d1, d2, d3⟩ := h 1 1 (by omega) (by omega)
  simp only [Nat.add_zero] at a1 a2 a3 b1 b2 b3 c1 c2 c3
  simp only [Spec.sum4, a1, a2, a3, b1, b2, b3, c1, c2, c3, d1, d2, d3, and_self]

theorem isByte_clamp (v : Int) : IsByte (Spec.clamp v) := by
  unfold IsByte Spec.clamp
  omega

theorem byte_eq_iff {u v : Int} (hu : IsByte u) (hv : IsByte v) : byte u = byte v ↔ u = v := by
  refine ⟨fun h => ?_, fun h => by rw [h]⟩
  rw [← val_byte hu, ← val_byte hv, h]

/-- Two choices between the same two values agree. -/
theorem pick_iff {p q : Prop} [Decidable p] [Decidable q] {u v : Int} (hu : IsByte u) (hv : IsByte v) :
    byte (if q then u else v) = byte (if p then u else v) ↔ ((p ↔ q) ∨ u = v) := by
  rw [byte_eq_iff (by split <;> assumption) (by split <;> assumption)]
  by_cases hp : p <;> by_cases hq : q <;> simp [hp, hq, eq_comm]

/-- An encoding that is not to I444 is to 4:2:0 chroma. -/
theorem Call.Encodes.subsampled (hk : c.Encodes) (hv : Spec.Valid t c)
    (h4 : c.dst_format.pixel_format ≠ .i444) :
    c.dst_format.pixel_format = .i420 ∨ c.dst_format.pixel_format = .nv12 := by
  have hs := hv.supported
  have h2 := hk.2
  revert hs h2 h4
  cases c.src_format.pixel_format <;> cases c.dst_format.pixel_format <;>
    simp [Spec.Supported, Spec.documented, Spec.isRgb]

/-- C82, conversions between RGB formats. -/
theorem C82_shuffle (hv : Spec.Valid t c) (hk : c.Shuffles) (ho : Stores t crate cpu c out)
    (hp : c.Pixel x y) (hp' : c.Pixel x' y')
    (h : c.rgbIn.r x' y' = c.rgbIn.r x y ∧ c.rgbIn.g x' y' = c.rgbIn.g x y ∧
      c.rgbIn.b x' y' = c.rgbIn.b x y) :
    (c.rgbOut out).r x' y' = (c.rgbOut out).r x y ∧ (c.rgbOut out).g x' y' = (c.rgbOut out).g x y ∧
      (c.rgbOut out).b x' y' = (c.rgbOut out).b x y := by
  have hr := Runs.crate hv (ho.room hv)
  rw [hr.out_eq ho]
  obtain ⟨a1, a2, a3⟩ := hr.shuffle hk hp
  obtain ⟨b1, b2, b3⟩ := hr.shuffle hk hp'
  rw [a1, a2, a3, b1, b2, b3]
  exact h

/-- C82, luma: pixels of one colour get one luma, on every processor. -/
theorem C82_luma (hv : Spec.Valid t c) (hk : c.Encodes) (ho : Stores t crate cpu c out)
    (hp : c.Pixel x y) (hp' : c.Pixel x' y')
    (h : c.rgbIn.r x' y' = c.rgbIn.r x y ∧ c.rgbIn.g x' y' = c.rgbIn.g x y ∧
      c.rgbIn.b x' y' = c.rgbIn.b x y) :
    (c.yuvOut out).y x' y' = (c.yuvOut out).y x y := by
  rw [C20_luma hv hk ho hp, C20_luma hv hk ho hp', h.1, h.2.1, h.2.2]

/-- C82, chroma, on processors without NEON. Missing: NEON, see `C82_chroma_444_neon` and `C82_chroma_420_neon`. -/
theorem C82_chroma_partial (hv : Spec.Valid t c) (hk : c.Encodes) (hn : cpu.set ≠ .neon)
    (ho : Stores t crate cpu c out) (hp : c.Pixel x y) (hp' : c.Pixel x' y')
    (h : if c.dst_format.pixel_format = .i444 then
        c.rgbIn.r x' y' = c.rgbIn.r x y ∧ c.rgbIn.g x' y' = c.rgbIn.g x y ∧
          c.rgbIn.b x' y' = c.rgbIn.b x y
      else SameBlock c.rgbIn x y x' y') :
    (c.yuvOut out).cb x' y' = (c.yuvOut out).cb x y ∧
    (c.yuvOut out).cr x' y' = (c.yuvOut out).cr x y := by
  have hs := hv.supported
  have h2 := hk.2
  by_cases h4 : c.dst_format.pixel_format = .i444
  · rw [if_pos h4] at h
    obtain ⟨a1, a2⟩ := C22_chroma_444_partial hv hk hn h4 ho hp
    obtain ⟨b1, b2⟩ := C22_chroma_444_partial hv hk hn h4 ho hp'
    rw [a1, a2, b1, b2, h.1, h.2.1, h.2.2]
    exact ⟨rfl, rfl⟩
  · rw [if_neg h4] at h
    have hd : c.dst_format.pixel_format = .i420 ∨ c.dst_format.pixel_format = .nv12 := by
      revert hs h2 h4
      cases c.src_format.pixel_format <;> cases c.dst_format.pixel_format <;>
        simp [Spec.Supported, Spec.documented, Spec.isRgb]
    obtain ⟨a1, a2⟩ := C21_chroma_420_partial hv hk hn hd ho hp
    obtain ⟨b1, b2⟩ := C21_chroma_420_partial hv hk hn hd ho hp'
    obtain ⟨s1, s2, s3⟩ := h.sums
    rw [a1, a2, b1, b2, s1, s2, s3]
    exact ⟨rfl, rfl⟩

/-- C82, 4:4:4 chroma with NEON, exactly: pixels of one colour get the same chroma unless one of them,
but not the other, is in a column converted by vector code and their chroma is a tie. -/
theorem C82_chroma_444_neon (hv : Spec.Valid t c) (hk : c.Encodes) (hn : cpu.set = .neon)
    (hd : c.dst_format.pixel_format = .i444) (ho : Stores t crate cpu c out) (hp : c.Pixel x y)
    (hp' : c.Pixel x' y')
    (h : c.rgbIn.r x' y' = c.rgbIn.r x y ∧ c.rgbIn.g x' y' = c.rgbIn.g x y ∧
      c.rgbIn.b x' y' = c.rgbIn.b x y) :
    let s := Spec.std c.dst_format.color_space
    let r := val (c.rgbIn.r x y)
    let g := val (c.rgbIn.g x y)
    let b := val (c.rgbIn.b x y)
    let V := 8 * (c.width.toNat / 8)
    ((c.yuvOut out).cb x' y' = (c.yuvOut out).cb x y ↔
      ((x < V ↔ x' < V) ∨ Spec.cbUp s r g b = Spec.cb s r g b)) ∧
    ((c.yuvOut out).cr x' y' = (c.yuvOut out).cr x y ↔
      ((x < V ↔ x' < V) ∨ Spec.crUp s r g b = Spec.cr s r g b)) := by
  obtain ⟨a1, a2⟩ := C22_chroma_444_neon hv hk hn hd ho hp
  obtain ⟨b1, b2⟩ := C22_chroma_444_neon hv hk hn hd ho hp'
  rw [h.1, h.2.1, h.2.2] at b1 b2
  have hB := C35_full (Spec.std c.dst_format.color_space)
    (isByte_val (c.rgbIn.r x y)) (isByte_val (c.rgbIn.g x y))
    (isByte_val (c.rgbIn.b x y)) (isSum4 c.rgbIn.r 0 0) (isSum4 c.rgbIn.r 0 0)
    (isSum4 c.rgbIn.r 0 0)
  simp only
  rw [a1, a2, b1, b2]
  exact ⟨pick_iff (isByte_clamp _) hB.2.1, pick_iff (isByte_clamp _) hB.2.2.1⟩

/-- C82, 4:2:0 chroma with NEON, exactly. -/
theorem C82_chroma_420_neon (hv : Spec.Valid t c) (hk : c.Encodes) (hn : cpu.set = .neon)
    (hd : c.dst_format.pixel_format = .i420 ∨ c.dst_format.pixel_format = .nv12)
    (ho : Stores t crate cpu c out) (hp : c.Pixel x y)
    (hp' : c.Pixel x' y') (h : SameBlock c.rgbIn x y x' y') :
    let s := Spec.std c.dst_format.color_space
    let r4 := Spec.sum4 c.rgbIn.r (x / 2) (y / 2)
    let g4 := Spec.sum4 c.rgbIn.g (x / 2) (y / 2)
    let b4 := Spec.sum4 c.rgbIn.b (x / 2) (y / 2)
    let V := 4 * (c.width.toNat / 8)
    ((c.yuvOut out).cb x' y' = (c.yuvOut out).cb x y ↔
      ((x / 2 < V ↔ x' / 2 < V) ∨ Spec.cbAvgUp s r4 g4 b4 = Spec.cbAvg s r4 g4 b4)) ∧
    ((c.yuvOut out).cr x' y' = (c.yuvOut out).cr x y ↔
      ((x / 2 < V ↔ x' / 2 < V) ∨ Spec.crAvgUp s r4 g4 b4 = Spec.crAvg s r4 g4 b4)) := by
  obtain ⟨a1, a2⟩ := C21_chroma_420_neon hv hk hn hd ho hp
  obtain ⟨b1, b2⟩ := C21_chroma_420_neon hv hk hn hd ho hp'
  obtain ⟨s1, s2, s3⟩ := h.sums
  rw [s1, s2, s3] at b1 b2
  have hB := C35_full (Spec.std c.dst_format.color_space)
    (isByte_val 0) (isByte_val 0) (isByte_val 0)
    (isSum4 c.rgbIn.r (x / 2) (y / 2)) (isSum4 c.rgbIn.g (x / 2) (y / 2))
    (isSum4 c.rgbIn.b (x / 2) (y / 2))
  simp only
  rw [a1, a2, b1, b2]
  exact ⟨pick_iff (isByte_clamp _) hB.2.2.2.1, pick_iff (isByte_clamp _) hB.2.2.2.2⟩

/-- Two blues computed from the same codes, by vector code (`p`, `q`) or not. -/
theorem blue_iff (s : Spec.Std) (Y Cb : UInt8) (p q : Prop) [Decidable p] [Decidable q] :
    (if q ∧ blueFix s (val Y) (val Cb) > 32767 then 0 else byte (Spec.blue s (val Y) (val Cb))) =
      (if p ∧ blueFix s (val Y) (val Cb) > 32767 then 0 else byte (Spec.blue s (val Y) (val Cb))) ↔
    ((p ↔ q) ∨ blueFix s (val Y) (val Cb) ≤ 32767) := by
  by_cases hf : blueFix s (val Y) (val Cb) ≤ 32767
  · have hf' : ¬ 32767 < blueFix s (val Y) (val Cb) := by omega
    simp [hf, hf']
  · have hne : byte (Spec.blue s (val Y) (val Cb)) ≠ 0 := by
      have : Spec.blue s (val Y) (val Cb) = 255 := by
        unfold Spec.blue Spec.clamp
        omega
      rw [this]
      decide
    have hf' : 32767 < blueFix s (val Y) (val Cb) := by omega
    simp only [gt_iff_lt, hf', and_true, hf, or_false]
    by_cases h1 : p <;> by_cases h2 : q <;> simp [h1, h2, hne, hne.symm]

/-- C82, decoding, exactly: pixels with the same codes get the same red and green. They get the same
blue but for one case: their blue exceeds the 16-bit range and one of them, but not the other, is in
a column converted by x86 vector code. -/
theorem C82_decode (hv : Spec.Valid t c) (hk : c.Decodes) (ho : Stores t crate cpu c out)
    (hp : c.Pixel x y) (hp' : c.Pixel x' y')
    (h : c.yuvIn.y x' y' = c.yuvIn.y x y ∧ c.yuvIn.cb x' y' = c.yuvIn.cb x y ∧
      c.yuvIn.cr x' y' = c.yuvIn.cr x y) :
    (c.rgbOut out).r x' y' = (c.rgbOut out).r x y ∧
    (c.rgbOut out).g x' y' = (c.rgbOut out).g x y ∧
    ((c.rgbOut out).b x' y' = (c.rgbOut out).b x y ↔
      ((x < Spec.vectorColumns cpu.set c.src_format.pixel_format c.dst_format.pixel_format
          c.width.toNat ↔
        x' < Spec.vectorColumns cpu.set c.src_format.pixel_format c.dst_format.pixel_format
          c.width.toNat) ∨
      blueFix (Spec.std c.src_format.color_space) (val (c.yuvIn.y x y)) (val (c.yuvIn.cb x y)) ≤
        32767)) := by
  obtain ⟨a1, a2, a3⟩ := C46_exact hv hk ho hp
  obtain ⟨b1, b2, b3⟩ := C46_exact hv hk ho hp'
  rw [h.1, h.2.1, h.2.2] at b2
  rw [h.1, h.2.2] at b1
  rw [h.1, h.2.1] at b3
  refine ⟨by rw [a1, b1], by rw [a2, b2], ?_⟩
  rw [a3, b3]
  exact blue_iff _ _ _ _ _

/-- False without the exceptions: on SSE2 a line of nine limited-range pixels, all codes 255, is
decoded to eight yellow pixels and a white one. -/
theorem C82_counterexample {out : List Buf} (ho : Stores .x64 crate sse2Cpu (exLine 9) out) :
    ((exLine 9).rgbOut out).b 7 0 = 0 ∧ ((exLine 9).rgbOut out).b 8 0 = 255 ∧
    ((exLine 9).rgbOut out).r 7 0 = 255 ∧ ((exLine 9).rgbOut out).r 8 0 = 255 := by
  have hk : (exLine 9).Decodes := by unfold Call.Decodes; decide
  obtain ⟨a1, -, a3⟩ := C46_exact (x := 7) (y := 0) exLine_valid.1 hk ho (by unfold Call.Pixel; decide)
  obtain ⟨b1, -, b3⟩ := C46_exact (x := 8) (y := 0) exLine_valid.1 hk ho (by unfold Call.Pixel; decide)
  rw [a1, a3, b1, b3]
  decide

/-- A 10x2 Bgra image of one colour encoded as full-range BT.709 I420. -/
def exOneColour : Call where
  width := 10
  height := 2
  src_format := ⟨.bgra, .rgb, 1⟩
  src_strides := none
  src_buffers := [⟨80, fun i => [0, 64, 16, 255].getD (i % 4) 0⟩]
  dst_format := ⟨.i420, .bt709FR, 3⟩
  dst_strides := none
  dst_buffers := [noise 20 2, noise 5 3, noise 5 4]

theorem exOneColour_valid : Spec.Valid .x64 exOneColour := valid_of_check (by decide +kernel)

theorem exOneColour_colour (x y : Nat) : exOneColour.rgbIn.r x y = 16 ∧ exOneColour.rgbIn.g x y = 64 ∧
    exOneColour.rgbIn.b x y = 0 := by
  have at' : ∀ k, k < 4 → Spec.bytesAt exOneColour.src_buffers 0 (40 * y + 4 * x + k) =
      [0, 64, 16, 255].getD k 0 := by
    intro k hk
    show [0, 64, 16, 255].getD ((40 * y + 4 * x + k) % 4) 0 = _
    rw [show (40 * y + 4 * x + k) % 4 = k by omega]
  exact ⟨at' 2 (by omega), at' 1 (by omega), at' 0 (by omega)⟩

theorem exOneColour_block (x y x' y' : Nat) : SameBlock exOneColour.rgbIn x y x' y' := by
  intro dx dy _ _
  simp only [exOneColour_colour, and_self]

/-- All blocks get the same chroma on AVX2. -/
example {out : List Buf} (ho : Stores .x64 crate avx2Cpu exOneColour out) :
    (exOneColour.yuvOut out).cb 9 1 = (exOneColour.yuvOut out).cb 0 0 :=
  (C82_chroma_partial exOneColour_valid (by unfold Call.Encodes; decide) (by decide) ho
    (by unfold Call.Pixel; decide) (by unfold Call.Pixel; decide) (exOneColour_block _ _ _ _)).1

/-- False with NEON: the last block of the line is encoded by scalar code, and the chroma of this
colour is a tie. -/
theorem C82_counterexample_neon {out : List Buf} (ho : Stores .x64 crate neonCpu exOneColour out) :
    (exOneColour.yuvOut out).cb 9 1 ≠ (exOneColour.yuvOut out).cb 0 0 := by
  intro h
  have := (C82_chroma_420_neon (x := 0) (y := 0) exOneColour_valid (by unfold Call.Encodes; decide) rfl
    (.inl rfl) ho (by unfold Call.Pixel; decide) (by unfold Call.Pixel; decide)
    (exOneColour_block _ _ 9 1)).1.1 h
  revert this
  decide +kernel

/-- Both calls succeed. -/
example : (∃ out, Stores .x64 crate neonCpu exOneColour out) ∧ ∃ out, Stores .x64 crate avx2Cpu exOneColour out :=
  ⟨valid_stores exOneColour_valid (.of_ne (by decide)), valid_stores exOneColour_valid (.of_ne (by decide))⟩

example : ∃ out, Stores .x64 crate sse2Cpu (exLine 9) out :=
  valid_stores exLine_valid.1 (.of_ne (by decide))

end Verif
