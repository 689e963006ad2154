import Verif.Lemmas.Relate
import Verif.Lemmas.Check
import Verif.Lemmas.Ran
/-!
# C19-C33: what the destination buffers contain after a conversion

`Stores t impls cpu c out` says that the call `c` succeeds and leaves `out` in the destination
buffers.  The source and destination images of a call (`rgbIn`, `yuvIn`, `rgbOut`, `yuvOut`) are read
off the buffers with the layout functions of `Spec.Image`/`Spec.Api`.
-/

namespace Verif

open Spec (bytesAt strideOf dims)

variable {t : Target} {cpu : Cpu} {c c' : Call} {out out' : List Buf}

/-- Every valid call succeeds. -/
theorem valid_stores (hv : Spec.Valid t c) (hm : Spec.VectorRoom cpu.set c) :
    ∃ out, Stores t crate cpu c out := ⟨_, (Runs.crate hv hm).stores⟩

/-- Whatever the processor, a source that is not Bgr needs no extra room. -/
theorem exEncode_room (set : InstructionSet) : Spec.VectorRoom set exEncode := .of_ne (by decide)

/-- A Bgr source whose line ends two pixels after the last group of twelve. -/
def exBgr : Call where
  width := 14
  height := 2
  src_format := ⟨.bgr, .rgb, 1⟩
  src_strides := none
  src_buffers := [noise 84 1]
  dst_format := ⟨.i420, .bt601, 3⟩
  dst_strides := none
  dst_buffers := [noise 28 2, noise 7 3, noise 7 4]

theorem exBgr_valid : Spec.Valid .x64 exBgr := valid_of_check (by decide +kernel)

theorem exBgr_room (set : InstructionSet) : Spec.VectorRoom set exBgr := by
  rintro - - b ⟨⟩
  cases set <;> simp [exBgr, noise, Spec.strideOf, Spec.GroupRoom]

example : ∃ out, Stores .x64 crate sse2Cpu exBgr out := valid_stores exBgr_valid (exBgr_room _)
example : ∃ out, Stores .x64 crate avx2Cpu exEncode out := valid_stores exEncode_valid (exEncode_room _)

/-! ## C19 -/

/-- C19: everything outside the lines of the image keeps its value, no buffer changes its length. -/
theorem C19_frame (hv : Spec.Valid t c)
    (ho : Stores t crate cpu c out) :
    out.length = c.dst_buffers.length ∧
    (∀ i : Nat, out[i]?.map Buf.len = c.dst_buffers[i]?.map Buf.len) ∧
    ∀ i k, ¬ c.InImage i k → bytesAt out i k = bytesAt c.dst_buffers i k := by
  rw [(Runs.crate hv (ho.room hv)).out_eq ho]
  refine ⟨painted_length, Sem.out_len, fun i k hk => Runs.frame ?_⟩
  rintro ⟨row, rows⟩ hrc y hy j hj e
  exact hk ⟨row, rows, hrc, y, hy, j, hj, e⟩

/-- The padding of the second plane of `exEncode` (a line of 2 bytes with stride 3). -/
example : ¬ exEncode.InImage 1 2 ∧ exEncode.InImage 1 1 := by
  constructor
  · rintro ⟨row, rows, h, y, hy, j, hj, e⟩
    have : row = 2 ∧ rows = 1 := by
      have h' : (some (2, 1) : Option (Nat × Nat)) = some (row, rows) := h
      injection h' with h'
      injection h' with h1 h2
      exact ⟨h1.symm, h2.symm⟩
    obtain ⟨rfl, rfl⟩ := this
    have : strideOf exEncode.dst_strides 1 2 = 3 := rfl
    rw [this] at e
    omega
  · exact ⟨2, 1, rfl, 0, by omega, 1, by omega, rfl⟩

/-! ## C20-C22: encoding -/

/-- C20: luma. -/
theorem C20_luma (hv : Spec.Valid t c) (hk : c.Encodes)
    (ho : Stores t crate cpu c out) {x y : Nat} (hp : c.Pixel x y) :
    (c.yuvOut out).y x y = Spec.byte (Spec.luma (Spec.std c.dst_format.color_space)
      (Spec.val (c.rgbIn.r x y)) (Spec.val (c.rgbIn.g x y)) (Spec.val (c.rgbIn.b x y))) := by
  rw [(Runs.crate hv (ho.room hv)).out_eq ho]
  exact ((Runs.crate hv (ho.room hv)).encode hk hp).1

example : ∃ out, Stores .x64 crate sse2Cpu exEncode out ∧ (exEncode.yuvOut out).y 3 1 = 192 := by
  obtain ⟨out, ho⟩ := valid_stores (cpu := sse2Cpu) exEncode_valid (exEncode_room _)
  exact ⟨out, ho, by
    rw [C20_luma exEncode_valid (by decide) ho ⟨by decide, by decide⟩]; decide +kernel⟩

/-- C21: chroma of a 4:2:0 image, on every processor without NEON. The sample covering pixel
`(x, y)` is computed from the four pixels of the 2x2 block number `(x / 2, y / 2)`. -/
theorem C21_chroma_420_partial (hv : Spec.Valid t c) (hk : c.Encodes)
    (hn : cpu.set ≠ .neon)
    (hd : c.dst_format.pixel_format = .i420 ∨ c.dst_format.pixel_format = .nv12)
    (ho : Stores t crate cpu c out) {x y : Nat} (hp : c.Pixel x y) :
    (c.yuvOut out).cb x y = Spec.byte (Spec.cbAvg (Spec.std c.dst_format.color_space)
      (Spec.sum4 c.rgbIn.r (x / 2) (y / 2)) (Spec.sum4 c.rgbIn.g (x / 2) (y / 2))
      (Spec.sum4 c.rgbIn.b (x / 2) (y / 2))) ∧
    (c.yuvOut out).cr x y = Spec.byte (Spec.crAvg (Spec.std c.dst_format.color_space)
      (Spec.sum4 c.rgbIn.r (x / 2) (y / 2)) (Spec.sum4 c.rgbIn.g (x / 2) (y / 2))
      (Spec.sum4 c.rgbIn.b (x / 2) (y / 2))) := by
  rw [(Runs.crate hv (ho.room hv)).out_eq ho]
  obtain ⟨-, h1, h2⟩ := (Runs.crate hv (ho.room hv)).encode hk hp
  have h4 : ¬ c.dst_format.pixel_format = .i444 := by
    rcases hd with hd | hd <;> rw [hd] <;> decide
  obtain ⟨-, -, e1, e2⟩ := semOf_chroma hn c.src_format.pixel_format c.width.toNat (x / 2)
  simp only [Sem.encoded, h4, if_false, Sem.cb420, Sem.cr420, e1, e2] at h1 h2
  exact ⟨h1, h2⟩

example : ∃ out, Stores .x64 crate sse2Cpu exEncode out ∧
    (exEncode.yuvOut out).cb 3 1 = 116 ∧ (exEncode.yuvOut out).cr 3 1 = 119 := by
  obtain ⟨out, ho⟩ := valid_stores (cpu := sse2Cpu) exEncode_valid (exEncode_room _)
  obtain ⟨h1, h2⟩ := C21_chroma_420_partial (x := 3) (y := 1) exEncode_valid (by decide) (by decide)
    (.inl rfl) ho ⟨by decide, by decide⟩
  exact ⟨out, ho, by rw [h1]; decide +kernel, by rw [h2]; decide +kernel⟩

/-- C21 with NEON: ties are rounded up in the blocks of the vector part (the first `4 * (w / 8)`
blocks of a line) and down in the others. -/
theorem C21_chroma_420_neon (hv : Spec.Valid t c) (hk : c.Encodes) (hn : cpu.set = .neon)
    (hd : c.dst_format.pixel_format = .i420 ∨ c.dst_format.pixel_format = .nv12)
    (ho : Stores t crate cpu c out) {x y : Nat} (hp : c.Pixel x y) :
    let s := Spec.std c.dst_format.color_space
    let r4 := Spec.sum4 c.rgbIn.r (x / 2) (y / 2)
    let g4 := Spec.sum4 c.rgbIn.g (x / 2) (y / 2)
    let b4 := Spec.sum4 c.rgbIn.b (x / 2) (y / 2)
    (c.yuvOut out).cb x y = Spec.byte (if x / 2 < 4 * (c.width.toNat / 8)
      then Spec.cbAvgUp s r4 g4 b4 else Spec.cbAvg s r4 g4 b4) ∧
    (c.yuvOut out).cr x y = Spec.byte (if x / 2 < 4 * (c.width.toNat / 8)
      then Spec.crAvgUp s r4 g4 b4 else Spec.crAvg s r4 g4 b4) := by
  have hm : Spec.VectorRoom cpu.set c := by rw [hn]; exact fun _ _ _ _ => trivial
  rw [(Runs.crate hv hm).out_eq ho]
  obtain ⟨-, h1, h2⟩ := (Runs.crate hv hm).encode hk hp
  have h4 : ¬ c.dst_format.pixel_format = .i444 := by
    rcases hd with hd | hd <;> rw [hd] <;> decide
  simp only [Sem.encoded, h4, if_false, Sem.cb420, Sem.cr420] at h1 h2
  have e : semOf cpu.set = Neon.sem := by rw [hn]; rfl
  rw [e] at h1 h2 ⊢
  rw [h1, h2]
  simp only [Neon.sem]
  split <;> exact ⟨rfl, rfl⟩

example : ∃ out, Stores .x64 crate neonCpu exEncode out ∧ (exEncode.yuvOut out).cb 3 1 = 116 := by
  obtain ⟨out, ho⟩ := valid_stores (cpu := neonCpu) exEncode_valid (exEncode_room _)
  exact ⟨out, ho, by
    rw [(C21_chroma_420_neon exEncode_valid (by decide) rfl (.inl rfl) ho
      ⟨by decide, by decide⟩).1]
    decide +kernel⟩

/-- C22: chroma of a 4:4:4 image, on every processor without NEON. -/
theorem C22_chroma_444_partial (hv : Spec.Valid t c) (hk : c.Encodes)
    (hn : cpu.set ≠ .neon) (hd : c.dst_format.pixel_format = .i444)
    (ho : Stores t crate cpu c out) {x y : Nat} (hp : c.Pixel x y) :
    (c.yuvOut out).cb x y = Spec.byte (Spec.cb (Spec.std c.dst_format.color_space)
      (Spec.val (c.rgbIn.r x y)) (Spec.val (c.rgbIn.g x y)) (Spec.val (c.rgbIn.b x y))) ∧
    (c.yuvOut out).cr x y = Spec.byte (Spec.cr (Spec.std c.dst_format.color_space)
      (Spec.val (c.rgbIn.r x y)) (Spec.val (c.rgbIn.g x y)) (Spec.val (c.rgbIn.b x y))) := by
  rw [(Runs.crate hv (ho.room hv)).out_eq ho]
  obtain ⟨-, h1, h2⟩ := (Runs.crate hv (ho.room hv)).encode hk hp
  obtain ⟨e1, e2, -, -⟩ := semOf_chroma hn c.src_format.pixel_format c.width.toNat x
  simp only [Sem.encoded, hd, if_true, Sem.cb444, Sem.cr444, e1, e2] at h1 h2
  exact ⟨h1, h2⟩

example : ∃ out, Stores .x64 crate plainCpu exEncode444 out ∧
    (exEncode444.yuvOut out).cb 2 1 = 105 ∧ (exEncode444.yuvOut out).cr 2 1 = 148 := by
  obtain ⟨out, ho⟩ := valid_stores (cpu := plainCpu) exEncode444_valid fun _ _ _ _ => trivial
  obtain ⟨h1, h2⟩ := C22_chroma_444_partial (x := 2) (y := 1) exEncode444_valid (by decide) (by decide)
    rfl ho ⟨by decide, by decide⟩
  exact ⟨out, ho, by rw [h1]; decide +kernel, by rw [h2]; decide +kernel⟩

/-- C22 with NEON: ties are rounded up in the vector part (the first `8 * (w / 8)` pixels of a line)
and down in the rest. -/
theorem C22_chroma_444_neon (hv : Spec.Valid t c) (hk : c.Encodes) (hn : cpu.set = .neon)
    (hd : c.dst_format.pixel_format = .i444)
    (ho : Stores t crate cpu c out) {x y : Nat} (hp : c.Pixel x y) :
    let s := Spec.std c.dst_format.color_space
    let r := Spec.val (c.rgbIn.r x y)
    let g := Spec.val (c.rgbIn.g x y)
    let b := Spec.val (c.rgbIn.b x y)
    (c.yuvOut out).cb x y = Spec.byte (if x < 8 * (c.width.toNat / 8)
      then Spec.cbUp s r g b else Spec.cb s r g b) ∧
    (c.yuvOut out).cr x y = Spec.byte (if x < 8 * (c.width.toNat / 8)
      then Spec.crUp s r g b else Spec.cr s r g b) := by
  have hm : Spec.VectorRoom cpu.set c := by rw [hn]; exact fun _ _ _ _ => trivial
  rw [(Runs.crate hv hm).out_eq ho]
  obtain ⟨-, h1, h2⟩ := (Runs.crate hv hm).encode hk hp
  simp only [Sem.encoded, hd, if_true, Sem.cb444, Sem.cr444] at h1 h2
  have e : semOf cpu.set = Neon.sem := by rw [hn]; rfl
  rw [e] at h1 h2 ⊢
  rw [h1, h2]
  simp only [Neon.sem]
  split <;> exact ⟨rfl, rfl⟩

example : ∃ out, Stores .x64 crate neonCpu exEncode444 out ∧ (exEncode444.yuvOut out).cb 2 1 = 105 := by
  obtain ⟨out, ho⟩ := valid_stores (cpu := neonCpu) exEncode444_valid fun _ _ _ _ => trivial
  exact ⟨out, ho, by
    rw [(C22_chroma_444_neon exEncode444_valid (by decide) rfl rfl ho ⟨by decide, by decide⟩).1]
    decide +kernel⟩

/-- C21 and C22 on every processor: the sample is that of the formula up to the rounding of ties. -/
theorem C21_chroma_420_ties (hv : Spec.Valid t c) (hk : c.Encodes)
    (hd : c.dst_format.pixel_format = .i420 ∨ c.dst_format.pixel_format = .nv12)
    (ho : Stores t crate cpu c out) {x y : Nat} (hp : c.Pixel x y) :
    let s := Spec.std c.dst_format.color_space
    let r4 := Spec.sum4 c.rgbIn.r (x / 2) (y / 2)
    let g4 := Spec.sum4 c.rgbIn.g (x / 2) (y / 2)
    let b4 := Spec.sum4 c.rgbIn.b (x / 2) (y / 2)
    ((c.yuvOut out).cb x y = Spec.byte (Spec.cbAvg s r4 g4 b4) ∨
      (c.yuvOut out).cb x y = Spec.byte (Spec.cbAvgUp s r4 g4 b4)) ∧
    ((c.yuvOut out).cr x y = Spec.byte (Spec.crAvg s r4 g4 b4) ∨
      (c.yuvOut out).cr x y = Spec.byte (Spec.crAvgUp s r4 g4 b4)) := by
  by_cases hn : cpu.set = .neon
  · obtain ⟨h1, h2⟩ := C21_chroma_420_neon hv hk hn hd ho hp
    simp only
    rw [h1, h2]
    split <;> simp
  · obtain ⟨h1, h2⟩ := C21_chroma_420_partial hv hk hn hd ho hp
    exact ⟨.inl h1, .inl h2⟩

/-- A tie, and a block without one. -/
example : Spec.cbAvgUp .bt709FR 64 256 0 = Spec.cbAvg .bt709FR 64 256 0 + 1 ∧
    Spec.cbAvgUp .bt709FR 64 257 0 = Spec.cbAvg .bt709FR 64 257 0 := by decide

theorem C22_chroma_444_ties (hv : Spec.Valid t c) (hk : c.Encodes)
    (hd : c.dst_format.pixel_format = .i444)
    (ho : Stores t crate cpu c out) {x y : Nat} (hp : c.Pixel x y) :
    let s := Spec.std c.dst_format.color_space
    let r := Spec.val (c.rgbIn.r x y)
    let g := Spec.val (c.rgbIn.g x y)
    let b := Spec.val (c.rgbIn.b x y)
    ((c.yuvOut out).cb x y = Spec.byte (Spec.cb s r g b) ∨
      (c.yuvOut out).cb x y = Spec.byte (Spec.cbUp s r g b)) ∧
    ((c.yuvOut out).cr x y = Spec.byte (Spec.cr s r g b) ∨
      (c.yuvOut out).cr x y = Spec.byte (Spec.crUp s r g b)) := by
  by_cases hn : cpu.set = .neon
  · obtain ⟨h1, h2⟩ := C22_chroma_444_neon hv hk hn hd ho hp
    simp only
    rw [h1, h2]
    split <;> simp
  · obtain ⟨h1, h2⟩ := C22_chroma_444_partial hv hk hn hd ho hp
    exact ⟨.inl h1, .inl h2⟩

/-- The hypotheses of C20 and C21 are met by `exEncode`, those of C22 by `exEncode444`. -/
example : exEncode.Encodes ∧ exEncode.dst_format.pixel_format = .i420 ∧ exEncode.Pixel 3 1 ∧
    exEncode444.Encodes ∧ exEncode444.dst_format.pixel_format = .i444 ∧ exEncode444.Pixel 2 1 := by
  unfold Call.Pixel; decide

/-! ## C23: decoding -/

/-- C23: decoded red and green, on every processor. -/
theorem C23_red_green (hv : Spec.Valid t c) (hk : c.Decodes)
    (ho : Stores t crate cpu c out) {x y : Nat} (hp : c.Pixel x y) :
    (c.rgbOut out).r x y = Spec.byte (Spec.red (Spec.std c.src_format.color_space)
      (Spec.val (c.yuvIn.y x y)) (Spec.val (c.yuvIn.cr x y))) ∧
    (c.rgbOut out).g x y = Spec.byte (Spec.green (Spec.std c.src_format.color_space)
      (Spec.val (c.yuvIn.y x y)) (Spec.val (c.yuvIn.cb x y)) (Spec.val (c.yuvIn.cr x y))) := by
  have hm : Spec.VectorRoom cpu.set c := .of_rgb hk.2
  rw [(Runs.crate hv hm).out_eq ho]
  obtain ⟨h1, h2, -⟩ := (Runs.crate hv hm).decode hk hp
  exact ⟨h1, h2⟩

example : ∃ out, Stores .x64 crate avx2Cpu exDecode out ∧
    (exDecode.rgbOut out).r 1 1 = 216 ∧ (exDecode.rgbOut out).g 1 1 = 76 := by
  obtain ⟨out, ho⟩ := valid_stores (cpu := avx2Cpu) exDecode_valid (.of_ne (by decide))
  obtain ⟨h1, h2⟩ := C23_red_green (x := 1) (y := 1) exDecode_valid (by decide) ho
    ⟨by decide, by decide⟩
  exact ⟨out, ho, by rw [h1]; decide +kernel, by rw [h2]; decide +kernel⟩

/-- C23: all decoded colours. On processors with SSE2 or AVX2, blue is exact for the samples whose
fixed-point blue (in units of 1/64) fits 16 bits. -/
theorem C23_decode_partial (hv : Spec.Valid t c) (hk : c.Decodes)
    (ho : Stores t crate cpu c out) {x y : Nat} (hp : c.Pixel x y)
    (hblue : cpu.set = .x86 ∨ cpu.set = .neon ∨ Spec.blueFix (Spec.std c.src_format.color_space)
      (Spec.val (c.yuvIn.y x y)) (Spec.val (c.yuvIn.cb x y)) ≤ 32767) :
    (c.rgbOut out).r x y = Spec.byte (Spec.red (Spec.std c.src_format.color_space)
      (Spec.val (c.yuvIn.y x y)) (Spec.val (c.yuvIn.cr x y))) ∧
    (c.rgbOut out).g x y = Spec.byte (Spec.green (Spec.std c.src_format.color_space)
      (Spec.val (c.yuvIn.y x y)) (Spec.val (c.yuvIn.cb x y)) (Spec.val (c.yuvIn.cr x y))) ∧
    (c.rgbOut out).b x y = Spec.byte (Spec.blue (Spec.std c.src_format.color_space)
      (Spec.val (c.yuvIn.y x y)) (Spec.val (c.yuvIn.cb x y))) := by
  have hm : Spec.VectorRoom cpu.set c := .of_rgb hk.2
  rw [(Runs.crate hv hm).out_eq ho]
  obtain ⟨h1, h2, h3⟩ := (Runs.crate hv hm).decode hk hp
  refine ⟨h1, h2, h3.trans ?_⟩
  simp only [Sem.dec]
  rw [semOf_blue _ _ _ _ _ _ _ hblue]

example : ∃ out, Stores .x64 crate sse2Cpu exDecode out ∧ (exDecode.rgbOut out).b 1 1 = 156 := by
  obtain ⟨out, ho⟩ := valid_stores (cpu := sse2Cpu) exDecode_valid (.of_ne (by decide))
  exact ⟨out, ho, by
    rw [(C23_decode_partial exDecode_valid (by decide) ho ⟨by decide, by decide⟩
      (.inr (.inr (by decide +kernel)))).2.2]
    decide +kernel⟩

/-- The condition on blue in C23 is met by every sample of a full-range image, and by every
limited-range sample with luma at most 235 and chroma at most 240. -/
theorem blueFix_small {s : Spec.Std} {y cb : Int} (hy : 0 ≤ y ∧ y ≤ 255) (hc : 0 ≤ cb ∧ cb ≤ 255)
    (h : s.fullRange = true ∨ (y ≤ 235 ∧ cb ≤ 240)) : Spec.blueFix s y cb ≤ 32767 := by
  cases s <;> simp [Spec.Std.fullRange] at h <;> simp only [Spec.blueFix, Spec.dec] <;> omega

example : exDecode.Decodes ∧ exDecode.Pixel 1 1 := by unfold Call.Pixel; decide

/-! ## C24: alpha -/

/-- C24: the alpha byte (byte 3) of every pixel of a Bgra or Rgba destination is 255. -/
theorem C24_alpha (hv : Spec.Valid t c)
    (hd : c.dst_format.pixel_format = .bgra ∨ c.dst_format.pixel_format = .rgba)
    (ho : Stores t crate cpu c out) {x y : Nat} (hp : c.Pixel x y) :
    bytesAt out 0 (strideOf c.dst_strides 0 (4 * c.width.toNat) * y + 4 * x + 3) = 255 := by
  have hd' : Spec.isRgb c.dst_format.pixel_format = true := by rcases hd with e | e <;> rw [e] <;> rfl
  rw [(Runs.crate hv (.of_rgb hd')).out_eq ho]
  exact (Runs.crate hv (.of_rgb hd')).alpha hd hp

example : exShuffle.dst_format.pixel_format = .bgra ∧ exShuffle.Pixel 2 1 := by
  unfold Call.Pixel; decide

/-! ## C25, C29: the source matters only through its colours -/

theorem yuv_src_rgb_dst {s d : PixelFormat} (h : Spec.Supported s d)
    (hs : Spec.isRgb s = false) : Spec.isRgb d = true := by
  revert h hs; cases s <;> cases d <;> decide

/-- Destinations of encodings other than I444 have even dimensions. -/
theorem enc_even {s d : PixelFormat} {w h : Nat} (hs : Spec.Supported s d)
    (hd : Spec.isRgb d = false) (hn : ¬ d = .i444) (hz : Spec.SizeOk d w h) :
    w % 2 = 0 ∧ h % 2 = 0 := by
  have : d = .i420 ∨ d = .nv12 := by
    revert hs hd hn; cases s <;> cases d <;> decide
  rcases this with rfl | rfl <;> exact hz

/-- The outcome is determined by the colours of the source image. -/
theorem same_outcome {impls : InstructionSet → Impl} {S : Sem} (hS : S.SrcIndep) (hr : Runs t impls cpu S c)
    (hr' : Runs t impls cpu S c') (hT : SameTarget c c') (hs : SameSource c c')
    (hB : ∀ x s y b, S.blue c.src_format.pixel_format c.dst_format.pixel_format c.width.toNat x s y b
      = S.blue c'.src_format.pixel_format c.dst_format.pixel_format c.width.toNat x s y b) :
    convert t impls cpu c' = convert t impls cpu c := by
  have e1 := hr.stores
  have e2 := hr'.stores
  unfold Stores at e1 e2
  rw [e1, e2]
  obtain ⟨hk, him⟩ := hs
  rcases c with ⟨w, h, sf, ss, sb, df, ds, db⟩
  rcases c' with ⟨w', h', sf', ss', sb', df', ds', db'⟩
  obtain ⟨a1, a2, a3, a4, a5, a6⟩ := hT
  simp only at a1 a2 a3 a4 a5 a6 hB
  subst a1 a2 a4 a5 a6
  rw [← Sem.out_congr (S := S) (c := ⟨w', h', sf, ss, sb, df', ds', db'⟩) (sf' := sf') (ss' := ss')
    (sb' := sb') ?_ hB hk.symm a3 hr.valid.dst_legal ?_ ?_ ?_]
  · intro hp x s r g b
    exact hS _ _ hp (by rw [← hk]; exact hp) _ _ _ _ _ _
  · have := hr.valid.supported
    revert this
    simp only
    cases sf.pixel_format <;> cases df'.pixel_format <;> decide
  · intro hp x y hxy
    have := him x y hxy
    rwa [if_pos hp] at this
  · intro hp
    refine ⟨yuv_src_rgb_dst hr.valid.supported hp, fun x y hxy => ?_⟩
    have := him x y hxy
    rwa [if_neg (by simp only at hp ⊢; rw [hp]; decide)] at this

/-- C25: replacing the source buffers by others that show the same colours (whatever their alpha
bytes, padding and bytes after the image) changes nothing. -/
theorem C25_source_noninterference (hv : Spec.Valid t c) (hm : Spec.VectorRoom cpu.set c)
    {sb' : List Buf} (hv' : Spec.Valid t { c with src_buffers := sb' })
    (hm' : Spec.VectorRoom cpu.set { c with src_buffers := sb' })
    (hs : SameSource c { c with src_buffers := sb' }) :
    convert t crate cpu { c with src_buffers := sb' } = convert t crate cpu c :=
  same_outcome (semOf_srcIndep _) (Runs.crate hv hm) (Runs.crate hv' hm')
    ⟨rfl, rfl, rfl, rfl, rfl, rfl⟩ hs fun _ _ _ _ => rfl

/-- `exEncode` with other alpha bytes and other padding. -/
def exAlpha : List Buf :=
  [⟨36, fun i => if i % 20 % 4 = 3 ∨ 16 ≤ i % 20 then 77 else UInt8.ofNat (i * 37 + 1)⟩]

theorem exAlpha_same : SameSource exEncode { exEncode with src_buffers := exAlpha } := by
  have h : ∀ y, y < 2 → ∀ x, x < 4 →
      Spec.RgbAt exEncode.rgbIn ({ exEncode with src_buffers := exAlpha } : Call).rgbIn x y := by
    unfold Spec.RgbAt; decide +kernel
  exact ⟨rfl, fun x y hp => h y hp.2 x hp.1⟩

example (cpu : Cpu) : convert .x64 crate cpu { exEncode with src_buffers := exAlpha } =
    convert .x64 crate cpu exEncode :=
  C25_source_noninterference exEncode_valid (exEncode_room _) (valid_of_check (by decide +kernel))
    (.of_ne (by decide)) exAlpha_same

/-- C29: the layout of the RGB source (format, stride) is irrelevant for an encoding. -/
theorem C29_layout_irrelevant (hv : Spec.Valid t c) (hm : Spec.VectorRoom cpu.set c)
    (hk : c.Encodes)
    {sf' : ImageFormat} {ss' : Option (List Nat)} {sb' : List Buf}
    (hv' : Spec.Valid t { c with src_format := sf', src_strides := ss', src_buffers := sb' })
    (hm' : Spec.VectorRoom cpu.set { c with src_format := sf', src_strides := ss', src_buffers := sb' })
    (hs : SameSource c { c with src_format := sf', src_strides := ss', src_buffers := sb' }) :
    convert t crate cpu { c with src_format := sf', src_strides := ss', src_buffers := sb' } =
      convert t crate cpu c := by
  have h1 : Spec.isRgb sf'.pixel_format = true := hs.1.symm.trans hk.1
  have e1 := hv.src_legal.cs.1 hk.1
  have e2 := hv'.src_legal.cs.1 h1
  have n : ∀ {p : PixelFormat}, Spec.isRgb p = true → p ≠ .i444 := by rintro _ h rfl; cases h
  exact same_outcome (semOf_srcIndep _) (Runs.crate hv hm) (Runs.crate hv' hm')
    ⟨rfl, rfl, e2.trans e1.symm, rfl, rfl, rfl⟩ hs fun _ _ _ _ => by
      rw [semOf_blue_src _ _ _ _ (iff_of_false (n hk.1) (n h1))]

/-- The picture of `exEncode` as an Argb image with packed lines. -/
def exArgb : Call := { exEncode with
  src_format := ⟨.argb, .rgb, 1⟩
  src_strides := none
  src_buffers := [⟨32, fun i => UInt8.ofNat ((i / 16 * 20 + i % 16 / 4 * 4 + (3 - i % 4)) * 37 + 1)⟩] }

theorem exArgb_same : SameSource exEncode exArgb := by
  have h : ∀ y, y < 2 → ∀ x, x < 4 → Spec.RgbAt exEncode.rgbIn exArgb.rgbIn x y := by
    unfold Spec.RgbAt; decide +kernel
  exact ⟨rfl, fun x y hp => h y hp.2 x hp.1⟩

example (cpu : Cpu) : convert .x64 crate cpu exArgb = convert .x64 crate cpu exEncode :=
  C29_layout_irrelevant exEncode_valid (exEncode_room _) (by decide)
    (valid_of_check (by decide +kernel)) (.of_ne (by decide)) exArgb_same

/-! ## C26, C27: conversions between RGB formats -/

/-- C26: every colour is copied. -/
theorem C26_shuffle (hv : Spec.Valid t c) (hk : c.Shuffles)
    (ho : Stores t crate cpu c out) {x y : Nat} (hp : c.Pixel x y) :
    (c.rgbOut out).r x y = c.rgbIn.r x y ∧ (c.rgbOut out).g x y = c.rgbIn.g x y ∧
    (c.rgbOut out).b x y = c.rgbIn.b x y := by
  rw [(Runs.crate hv (.of_rgb hk.2)).out_eq ho]
  exact (Runs.crate hv (.of_rgb hk.2)).shuffle hk hp

example : exShuffle.Shuffles := by decide

/-- The second call reads the image the first one has written. -/
structure Chained (c c' : Call) (out : List Buf) : Prop where
  width : c'.width = c.width
  height : c'.height = c.height
  strides : c'.src_strides = c.dst_strides
  buffers : c'.src_buffers = out

/-- C27: `Rgb` to `Bgra` and back is the identity on every byte of every line. -/
theorem C27_round_trip (hv : Spec.Valid t c)
    (hv' : Spec.Valid t c')
    (h1 : c.src_format.pixel_format = .rgb) (h2 : c.dst_format.pixel_format = .bgra)
    (h3 : c'.src_format.pixel_format = .bgra) (h4 : c'.dst_format.pixel_format = .rgb)
    (ho : Stores t crate cpu c out) (hc : Chained c c' out) (ho' : Stores t crate cpu c' out')
    {j y : Nat} (hj : j < 3 * c.width.toNat) (hy : y < c.height.toNat) :
    bytesAt out' 0 (strideOf c'.dst_strides 0 (3 * c.width.toNat) * y + j) =
      bytesAt c.src_buffers 0 (strideOf c.src_strides 0 (3 * c.width.toNat) * y + j) := by
  have hr := Runs.crate (cpu := cpu) hv (.of_rgb (by rw [h2]; rfl))
  have hr' := Runs.crate (cpu := cpu) hv' (.of_rgb (by rw [h4]; rfl))
  have hp : c.Pixel (j / 3) y := ⟨by omega, hy⟩
  have hp' : c'.Pixel (j / 3) y := by unfold Call.Pixel; rw [hc.width, hc.height]; exact hp
  have a := hr.shuffle (by unfold Call.Shuffles; rw [h1, h2]; decide) hp
  have b := hr'.shuffle (by unfold Call.Shuffles; rw [h3, h4]; decide) hp'
  rw [← hr.out_eq ho] at a
  rw [← hr'.out_eq ho'] at b
  have hin : c'.rgbIn = c.rgbOut out := by
    simp only [Call.rgbIn, Call.rgbOut, Spec.readRgb, hc.width, hc.strides, hc.buffers, h2, h3]
  rw [hin] at b
  have hb : Spec.RgbAt (c'.rgbOut out') c.rgbIn (j / 3) y :=
    ⟨b.1.trans a.1, b.2.1.trans a.2.1, b.2.2.trans a.2.2⟩
  have := byte_of_rgb3 (.inl h4) (h1.trans h4.symm) hb
  rwa [hc.width] at this

/-- C27: applying `Bgr` to `Rgb` twice (reading the result as `Bgr` again) is the identity. -/
theorem C27_involution (hv : Spec.Valid t c)
    (hv' : Spec.Valid t c')
    (h1 : c.src_format.pixel_format = .bgr) (h2 : c.dst_format.pixel_format = .rgb)
    (h3 : c'.src_format.pixel_format = .bgr) (h4 : c'.dst_format.pixel_format = .rgb)
    (ho : Stores t crate cpu c out) (hc : Chained c c' out) (ho' : Stores t crate cpu c' out')
    {j y : Nat} (hj : j < 3 * c.width.toNat) (hy : y < c.height.toNat) :
    bytesAt out' 0 (strideOf c'.dst_strides 0 (3 * c.width.toNat) * y + j) =
      bytesAt c.src_buffers 0 (strideOf c.src_strides 0 (3 * c.width.toNat) * y + j) := by
  have hr := Runs.crate (cpu := cpu) hv (.of_rgb (by rw [h2]; rfl))
  have hr' := Runs.crate (cpu := cpu) hv' (.of_rgb (by rw [h4]; rfl))
  have hp : c.Pixel (j / 3) y := ⟨by omega, hy⟩
  have hp' : c'.Pixel (j / 3) y := by unfold Call.Pixel; rw [hc.width, hc.height]; exact hp
  obtain ⟨a1, a2, a3⟩ := hr.shuffle (by unfold Call.Shuffles; rw [h1, h2]; decide) hp
  obtain ⟨b1, b2, b3⟩ := hr'.shuffle (by unfold Call.Shuffles; rw [h3, h4]; decide) hp'
  rw [← hr.out_eq ho] at a1 a2 a3
  rw [← hr'.out_eq ho'] at b1 b2 b3
  -- reading an `Rgb` image as `Bgr` exchanges red and blue
  have e1 : c'.rgbIn.r = (c.rgbOut out).b := by
    simp only [Call.rgbIn, Call.rgbOut, Spec.readRgb, Spec.rgbImage, hc.width, hc.strides,
      hc.buffers, h2, h3, Spec.bpp, Spec.rgbPos]
  have e2 : c'.rgbIn.g = (c.rgbOut out).g := by
    simp only [Call.rgbIn, Call.rgbOut, Spec.readRgb, Spec.rgbImage, hc.width, hc.strides,
      hc.buffers, h2, h3, Spec.bpp, Spec.rgbPos]
  have e3 : c'.rgbIn.b = (c.rgbOut out).r := by
    simp only [Call.rgbIn, Call.rgbOut, Spec.readRgb, Spec.rgbImage, hc.width, hc.strides,
      hc.buffers, h2, h3, Spec.bpp, Spec.rgbPos]
  rw [e1, a3] at b1
  rw [e2, a2] at b2
  rw [e3, a1] at b3
  -- `out'` read as `Bgr`
  have hb : Spec.RgbAt (Spec.readRgb c'.src_format c'.width c'.dst_strides out') c.rgbIn (j / 3) y := by
    refine ⟨?_, ?_, ?_⟩
    · rw [← b3]
      simp only [Call.rgbOut, Spec.readRgb, Spec.rgbImage, h3, h4, Spec.bpp, Spec.rgbPos]
    · rw [← b2]
      simp only [Call.rgbOut, Spec.readRgb, Spec.rgbImage, h3, h4, Spec.bpp, Spec.rgbPos]
    · rw [← b1]
      simp only [Call.rgbOut, Spec.readRgb, Spec.rgbImage, h3, h4, Spec.bpp, Spec.rgbPos]
  have := byte_of_rgb3 (.inr h3) (h1.trans h3.symm) hb
  rwa [hc.width] at this

/-- A second call for `exShuffle`, back to `Rgb` with padded lines. -/
def exBack (out : List Buf) : Call where
  width := 3
  height := 2
  src_format := ⟨.bgra, .rgb, 1⟩
  src_strides := none
  src_buffers := out
  dst_format := ⟨.rgb, .rgb, 1⟩
  dst_strides := some [11]
  dst_buffers := [noise 22 5]

example : ∃ out, Stores .x64 crate avx2Cpu exShuffle out ∧
    Spec.Valid .x64 (exBack out) ∧ Chained exShuffle (exBack out) out := by
  refine ⟨_, (Runs.crate (cpu := avx2Cpu) exShuffle_valid (.of_ne (by decide))).stores,
    valid_of_check (by decide +kernel), rfl, rfl, rfl, rfl⟩

/-! ## C28: Bgra, Rgba and Rgb -/

/-- Byte `k` of pixel `(x, y)` of the RGB destination of a call. -/
def Call.dstByte (c : Call) (out : List Buf) (x y k : Nat) : UInt8 :=
  bytesAt out 0 (strideOf c.dst_strides 0 (Spec.bpp c.dst_format.pixel_format * c.width.toNat) * y +
    Spec.bpp c.dst_format.pixel_format * x + k)

/-- C28: decoding to Bgra and to Rgba (the other arguments being arbitrary layouts of the same
YCbCr image). -/
theorem C28_rgba_bgra (hv : Spec.Valid t c) (hv' : Spec.Valid t c')
    (hk : c.Decodes) (hk' : c'.Decodes)
    (h1 : c.dst_format.pixel_format = .bgra) (h2 : c'.dst_format.pixel_format = .rgba)
    (hf : c.src_format.pixel_format = .i444 ↔ c'.src_format.pixel_format = .i444)
    (hw : c.width = c'.width) (hh : c.height = c'.height)
    (hcs : c.src_format.color_space = c'.src_format.color_space)
    (hs : ∀ x y, c.Pixel x y → Spec.YuvAt c.yuvIn c'.yuvIn x y)
    (ho : Stores t crate cpu c out) (ho' : Stores t crate cpu c' out')
    {x y : Nat} (hp : c.Pixel x y) :
    c.dstByte out x y 0 = c'.dstByte out' x y 2 ∧ c.dstByte out x y 1 = c'.dstByte out' x y 1 ∧
    c.dstByte out x y 2 = c'.dstByte out' x y 0 ∧ c.dstByte out x y 3 = c'.dstByte out' x y 3 := by
  have hr := Runs.crate (cpu := cpu) hv (.of_rgb hk.2)
  have hr' := Runs.crate (cpu := cpu) hv' (.of_rgb hk'.2)
  have hp' : c'.Pixel x y := by unfold Call.Pixel; rw [← hw, ← hh]; exact hp
  obtain ⟨e1, e2, e3⟩ := decode_local hr hr' hk hk' hw (by
    rw [semOf_blue_src _ _ _ _ hf, semOf_blue_dst _ _ _ _ (d' := c'.dst_format.pixel_format)
      fun _ => by rw [h1, h2]; decide]) hcs hp hp' (hs x y hp)
  have a := hr.alpha (.inl h1) hp
  have a' := hr'.alpha (.inr h2) hp'
  rw [← hr.out_eq ho] at e1 e2 e3 a
  rw [← hr'.out_eq ho'] at e1 e2 e3 a'
  simp only [Call.rgbOut, Spec.readRgb, Spec.rgbImage, h1, h2, Spec.bpp, Spec.rgbPos] at e1 e2 e3
  simp only [Call.dstByte, h1, h2, Spec.bpp]
  exact ⟨e3, e2, e1, a.trans a'.symm⟩

/-- C28: decoding Nv12 to Rgb gives the colours of decoding it to Rgba. With SSE2 (whose Nv12 to Rgb
kernel is the portable one) this needs the fixed-point blue to fit 16 bits. -/
theorem C28_rgb_rgba_partial (hv : Spec.Valid t c) (hv' : Spec.Valid t c')
    (hk : c.Decodes) (hk' : c'.Decodes)
    (h1 : c.dst_format.pixel_format = .rgb) (h2 : c'.dst_format.pixel_format = .rgba)
    (hf : c.src_format.pixel_format = .i444 ↔ c'.src_format.pixel_format = .i444)
    (hw : c.width = c'.width) (hh : c.height = c'.height)
    (hcs : c.src_format.color_space = c'.src_format.color_space)
    (hs : ∀ x y, c.Pixel x y → Spec.YuvAt c.yuvIn c'.yuvIn x y)
    (ho : Stores t crate cpu c out) (ho' : Stores t crate cpu c' out')
    {x y : Nat} (hp : c.Pixel x y)
    (hblue : cpu.set ≠ .sse2 ∨ Spec.blueFix (Spec.std c.src_format.color_space)
      (Spec.val (c.yuvIn.y x y)) (Spec.val (c.yuvIn.cb x y)) ≤ 32767) :
    c.dstByte out x y 0 = c'.dstByte out' x y 0 ∧ c.dstByte out x y 1 = c'.dstByte out' x y 1 ∧
    c.dstByte out x y 2 = c'.dstByte out' x y 2 := by
  have hr := Runs.crate (cpu := cpu) hv (.of_rgb hk.2)
  have hr' := Runs.crate (cpu := cpu) hv' (.of_rgb hk'.2)
  have hp' : c'.Pixel x y := by unfold Call.Pixel; rw [← hw, ← hh]; exact hp
  obtain ⟨e1, e2, e3⟩ := decode_local hr hr' hk hk' hw (by
    rcases hblue with h | h
    · rw [semOf_blue_src _ _ _ _ hf, semOf_blue_dst _ _ _ _ (d' := c'.dst_format.pixel_format)
        fun e => absurd e h]
    · rw [semOf_blue _ _ _ _ _ _ _ (.inr (.inr h)), semOf_blue _ _ _ _ _ _ _ (.inr (.inr h))]) hcs hp hp' (hs x y hp)
  rw [← hr.out_eq ho] at e1 e2 e3
  rw [← hr'.out_eq ho'] at e1 e2 e3
  simp only [Call.rgbOut, Spec.readRgb, Spec.rgbImage, h1, h2, Spec.bpp, Spec.rgbPos] at e1 e2 e3
  simp only [Call.dstByte, h1, h2, Spec.bpp]
  exact ⟨e1, e2, e3⟩

/-- `exDecode` to another RGB format. -/
def exDecodeTo (pf : PixelFormat) : Call := { exDecode with
  dst_format := ⟨pf, .rgb, 1⟩
  dst_strides := none
  dst_buffers := [noise 16 3] }

theorem exDecodeTo_valid : Spec.Valid .x64 (exDecodeTo .bgra) ∧ Spec.Valid .x64 (exDecodeTo .rgba) :=
  ⟨valid_of_check (by decide +kernel), valid_of_check (by decide +kernel)⟩

example : (exDecodeTo .bgra).Decodes ∧ (exDecodeTo .rgba).Decodes ∧ exDecode.Decodes ∧
    (exDecodeTo .bgra).yuvIn = (exDecodeTo .rgba).yuvIn ∧
    exDecode.yuvIn = (exDecodeTo .rgba).yuvIn := by
  refine ⟨by decide, by decide, by decide, rfl, rfl⟩

/-! ## C30, C31: I420 and Nv12, single-plane and two-plane Nv12 -/

/-- Both formats are 4:2:0. -/
def Spec.Is420 (pf : PixelFormat) : Prop := pf = .i420 ∨ pf = .nv12

/-- C30/C31, encoding: whatever 4:2:0 formats (I420 or Nv12), numbers of planes, strides and
buffers are used for the destinations, they hold the same luma and chroma samples. -/
theorem C30_encode (hv : Spec.Valid t c) (hv' : Spec.Valid t c')
    (hk : c.Encodes) (hk' : c'.Encodes)
    (hd : Spec.Is420 c.dst_format.pixel_format) (hd' : Spec.Is420 c'.dst_format.pixel_format)
    (hw : c.width = c'.width) (hh : c.height = c'.height)
    (hcs : c.dst_format.color_space = c'.dst_format.color_space)
    (hs : ∀ x y, c.Pixel x y → Spec.RgbAt c.rgbIn c'.rgbIn x y)
    (ho : Stores t crate cpu c out) (ho' : Stores t crate cpu c' out')
    {x y : Nat} (hp : c.Pixel x y) : Spec.YuvAt (c.yuvOut out) (c'.yuvOut out') x y := by
  have hr := Runs.crate hv (ho.room hv)
  have hr' := Runs.crate hv' (ho'.room hv')
  rw [hr.out_eq ho, hr'.out_eq ho']
  have hp' : c'.Pixel x y := by unfold Call.Pixel; rw [← hw, ← hh]; exact hp
  have hd0 : ∀ {p}, Spec.Is420 p → p ≠ .i444 := by rintro p (rfl | rfl) <;> decide
  have heven : c.width.toNat % 2 = 0 ∧ c.height.toNat % 2 = 0 := by
    have := hv.dst_legal.size
    rcases hd with e | e <;> rw [e] at this <;> exact this
  obtain ⟨h1, h2⟩ := encode_local (semOf_srcIndep _) hr hr' hk hk' hw
    (iff_of_false (hd0 hd) (hd0 hd')) hcs hp hp' (hs x y hp)
  obtain ⟨h2, h3⟩ := h2 (.inr fun x' y' hx' hy' => hs x' y' (by
    have h1 := hp.1
    have h2 := hp.2
    exact ⟨by omega, by omega⟩))
  exact ⟨h1, h2, h3⟩

/-- C30/C31, decoding: two 4:2:0 images with the same samples decode to the same bytes. -/
theorem C30_decode (hv : Spec.Valid t c) (hm : Spec.VectorRoom cpu.set c)
    {sf' : ImageFormat} {ss' : Option (List Nat)} {sb' : List Buf}
    (hv' : Spec.Valid t { c with src_format := sf', src_strides := ss', src_buffers := sb' })
    (hm' : Spec.VectorRoom cpu.set { c with src_format := sf', src_strides := ss', src_buffers := sb' })
    (hf : sf'.pixel_format = .i444 ↔ c.src_format.pixel_format = .i444)
    (hcs : sf'.color_space = c.src_format.color_space)
    (hs : SameSource c { c with src_format := sf', src_strides := ss', src_buffers := sb' }) :
    convert t crate cpu { c with src_format := sf', src_strides := ss', src_buffers := sb' } =
      convert t crate cpu c :=
  same_outcome (semOf_srcIndep _) (Runs.crate hv hm) (Runs.crate hv' hm')
    ⟨rfl, rfl, hcs, rfl, rfl, rfl⟩ hs fun _ _ _ _ => by
      rw [semOf_blue_src _ _ _ _ hf.symm]

/-- C31, encoding, byte by byte: the single-plane image is the two-plane image with the chroma
lines following the luma lines. -/
theorem C31_encode (hv : Spec.Valid t c) (hv' : Spec.Valid t c')
    (hk : c.Encodes) (hk' : c'.Encodes)
    (hd : c.dst_format.pixel_format = .nv12) (hd' : c'.dst_format.pixel_format = .nv12)
    (hn : c.dst_format.num_planes = 1) (hn' : c'.dst_format.num_planes = 2)
    (hw : c.width = c'.width) (hh : c.height = c'.height)
    (hcs : c.dst_format.color_space = c'.dst_format.color_space)
    (hs : ∀ x y, c.Pixel x y → Spec.RgbAt c.rgbIn c'.rgbIn x y)
    (ho : Stores t crate cpu c out) (ho' : Stores t crate cpu c' out') :
    (∀ x y, x < c.width.toNat → y < c.height.toNat →
      bytesAt out 0 (strideOf c.dst_strides 0 c.width.toNat * y + x) =
        bytesAt out' 0 (strideOf c'.dst_strides 0 c.width.toNat * y + x)) ∧
    (∀ x y, x < c.width.toNat → y < c.height.toNat / 2 →
      bytesAt out 0 (strideOf c.dst_strides 0 c.width.toNat * (c.height.toNat + y) + x) =
        bytesAt out' 1 (strideOf c'.dst_strides 1 c.width.toNat * y + x)) := by
  have key := fun x y hp => C30_encode (x := x) (y := y) hv hv' hk hk' (.inr hd) (.inr hd') hw hh
    hcs hs ho ho' hp
  have heven : c.width.toNat % 2 = 0 ∧ c.height.toNat % 2 = 0 := by
    have := hv.dst_legal.size
    rw [hd] at this
    exact this
  have hn1 : c.dst_format.num_planes.toNat = 1 := by rw [hn]; rfl
  have hn2 : c'.dst_format.num_planes.toNat = 2 := by rw [hn']; rfl
  have hne : ¬ (2 : UInt32) = 1 := by decide
  simp only [Spec.YuvAt, Call.yuvOut, Spec.readYuv, hd, hd', hn, hn', hne, if_true, if_false,
    Spec.nv12Image, Spec.planeAt, Spec.plane, dims, ← hw,
    List.getD_cons_zero, List.getD_cons_succ, show (1 : UInt32).toNat = 1 from rfl,
    show (2 : UInt32).toNat = 2 from rfl, Nat.reduceEqDiff] at key
  constructor
  · intro x y h1 h2
    exact (key x y ⟨h1, h2⟩).1
  · intro x y h1 h2
    obtain ⟨-, k1, k2⟩ := key x (2 * y) ⟨h1, by omega⟩
    rw [show 2 * y / 2 = y by omega] at k1 k2
    rcases (by omega : x % 2 = 0 ∨ x % 2 = 1) with hm | hm
    · rw [show 2 * (x / 2) = x by omega] at k1
      exact k1
    · rw [show 2 * (x / 2) + 1 = x by omega] at k2
      exact k2

/-- C31, decoding: an Nv12 image in one buffer (chroma lines following the luma lines) and the same
bytes in two buffers, with any strides, are converted to the same bytes. -/
theorem C31_decode (hv : Spec.Valid t c) (hk : c.Decodes)
    {cs : ColorSpace} {ss' : Option (List Nat)} {sb' : List Buf}
    (hf : c.src_format = ⟨.nv12, cs, 1⟩)
    (hv' : Spec.Valid t
      { c with src_format := ⟨.nv12, cs, 2⟩, src_strides := ss', src_buffers := sb' })
    (hy : ∀ x y, x < c.width.toNat → y < c.height.toNat →
      bytesAt c.src_buffers 0 (strideOf c.src_strides 0 c.width.toNat * y + x) =
        bytesAt sb' 0 (strideOf ss' 0 c.width.toNat * y + x))
    (huv : ∀ x y, x < c.width.toNat → y < c.height.toNat / 2 →
      bytesAt c.src_buffers 0 (strideOf c.src_strides 0 c.width.toNat * (c.height.toNat + y) + x) =
        bytesAt sb' 1 (strideOf ss' 1 c.width.toNat * y + x)) :
    convert t crate cpu
      { c with src_format := ⟨.nv12, cs, 2⟩, src_strides := ss', src_buffers := sb' } =
      convert t crate cpu c := by
  have heven : c.width.toNat % 2 = 0 ∧ c.height.toNat % 2 = 0 := by
    have := hv.src_legal.size
    rw [hf] at this
    exact this
  refine C30_decode hv (.of_rgb hk.2) hv' (.of_rgb hk.2) (by rw [hf]) (by rw [hf]) ⟨by rw [hf], ?_⟩
  intro x y hp
  have hne : ¬ (2 : UInt32) = 1 := by decide
  rw [if_neg (by rw [hf]; simp [Spec.isRgb])]
  simp only [Spec.YuvAt, Call.yuvIn, Spec.readYuv, hf, hne, if_true, if_false,
    Spec.nv12Image, Spec.planeAt, Spec.plane, dims,
    List.getD_cons_zero, List.getD_cons_succ, show (1 : UInt32).toNat = 1 from rfl,
    show (2 : UInt32).toNat = 2 from rfl, Nat.reduceEqDiff]
  have h1 := hp.1
  have h2 := hp.2
  exact ⟨hy x y h1 h2, huv _ _ (by omega) (by omega), huv _ _ (by omega) (by omega)⟩

/-- The picture of `exEncode` encoded as Nv12 in one or two planes. -/
def exNv12 (n : UInt32) : Call := { exEncode with
  dst_format := ⟨.nv12, .bt601, n⟩
  dst_strides := if n = 1 then some [5] else none
  dst_buffers := if n = 1 then [noise 15 2] else [noise 8 2, noise 4 3] }

example : Spec.Valid .x64 (exNv12 1) ∧ Spec.Valid .x64 (exNv12 2) ∧ (exNv12 1).Encodes ∧
    (exNv12 1).rgbIn = exEncode.rgbIn ∧ (exNv12 2).rgbIn = exEncode.rgbIn :=
  ⟨valid_of_check (by decide +kernel), valid_of_check (by decide +kernel), by decide, rfl, rfl⟩

/-- The image of `exDecode` in two buffers. -/
def exTwoPlanes : Call := { exDecodeTo .rgba with
  src_format := ⟨.nv12, .bt709, 2⟩
  src_buffers := [noise 4 1, ⟨2, fun i => (noise 6 1).bytes (4 + i)⟩] }

example : Spec.Valid .x64 (exDecodeTo .rgba) ∧ (exDecodeTo .rgba).src_format = ⟨.nv12, .bt709, 1⟩ ∧
    Spec.Valid .x64 exTwoPlanes ∧
    (∀ y, y < 2 → ∀ x, x < 2 → bytesAt (exDecodeTo .rgba).src_buffers 0 (2 * y + x) =
      bytesAt exTwoPlanes.src_buffers 0 (2 * y + x)) ∧
    (∀ x, x < 2 → bytesAt (exDecodeTo .rgba).src_buffers 0 (2 * 2 + x) =
      bytesAt exTwoPlanes.src_buffers 1 x) :=
  ⟨exDecodeTo_valid.2, rfl, valid_of_check (by decide +kernel), by decide +kernel, by decide +kernel⟩

/-- The samples of `exDecode` as an I420 image. -/
def exI420 : Call := { exDecodeTo .bgra with
  src_format := ⟨.i420, .bt709, 3⟩
  src_buffers := [noise 4 1, ⟨1, fun _ => (noise 6 1).bytes 4⟩, ⟨1, fun _ => (noise 6 1).bytes 5⟩] }

theorem exI420_same : SameSource (exDecodeTo .bgra) exI420 := by
  have h : ∀ y, y < 2 → ∀ x, x < 2 → Spec.YuvAt (exDecodeTo .bgra).yuvIn exI420.yuvIn x y := by
    unfold Spec.YuvAt; decide +kernel
  exact ⟨rfl, fun x y hp => h y hp.2 x hp.1⟩

example (cpu : Cpu) : convert .x64 crate cpu exI420 = convert .x64 crate cpu (exDecodeTo .bgra) :=
  C30_decode exDecodeTo_valid.1 (.of_ne (by decide)) (valid_of_check (by decide +kernel))
    (.of_ne (by decide)) (by decide) rfl exI420_same

/-! ## C32, C33: strides and locality -/

/-- C32: calls that only differ in strides and buffers but whose source images are the same
produce the same destination image. -/
theorem C32_strides (hv : Spec.Valid t c)
    {ss' ds' : Option (List Nat)} {sb' db' : List Buf}
    (he : c' = { c with src_strides := ss', src_buffers := sb', dst_strides := ds', dst_buffers := db' })
    (hv' : Spec.Valid t c') (hs : SameSource c c')
    (ho : Stores t crate cpu c out) (ho' : Stores t crate cpu c' out')
    {x y : Nat} (hp : c.Pixel x y) :
    if Spec.isRgb c.dst_format.pixel_format = true
    then Spec.RgbAt (c.rgbOut out) (c'.rgbOut out') x y
    else Spec.YuvAt (c.yuvOut out) (c'.yuvOut out') x y := by
  have hr := Runs.crate hv (ho.room hv)
  have hr' := Runs.crate hv' (ho'.room hv')
  rw [hr.out_eq ho, hr'.out_eq ho']
  have hp' : c'.Pixel x y := by subst he; exact hp
  have hw : c.width = c'.width := by subst he; rfl
  have hsf : c'.src_format = c.src_format := by subst he; rfl
  have hdf : c'.dst_format = c.dst_format := by subst he; rfl
  have him := hs.2
  by_cases h1 : Spec.isRgb c.src_format.pixel_format = true
  · simp only [h1, if_true] at him
    split
    · rename_i h2
      exact shuffle_local hr hr' ⟨h1, h2⟩ ⟨by rw [hsf]; exact h1, by rw [hdf]; exact h2⟩ hp hp'
        (him x y hp)
    · rename_i h2
      have h2 : Spec.isRgb c.dst_format.pixel_format = false := by simpa using h2
      obtain ⟨e1, e2⟩ := encode_local (semOf_srcIndep _) hr hr' ⟨h1, h2⟩
        ⟨by rw [hsf]; exact h1, by rw [hdf]; exact h2⟩ hw (by rw [hdf]) (by rw [hdf]) hp hp'
        (him x y hp)
      obtain ⟨e2, e3⟩ := e2 (by
        by_cases h4 : c.dst_format.pixel_format = .i444
        · exact .inl h4
        · right
          have hsz := hv.dst_legal.size
          have hsup := hv.supported
          have heven : c.width.toNat % 2 = 0 ∧ c.height.toNat % 2 = 0 := by
            exact enc_even hsup h2 h4 hsz
          intro x' y' hx' hy'
          have h1 := hp.1
          have h2 := hp.2
          exact him x' y' ⟨by omega, by omega⟩)
      exact ⟨e1, e2, e3⟩
  · have h1 : Spec.isRgb c.src_format.pixel_format = false := by simpa using h1
    have h2 := yuv_src_rgb_dst hv.supported h1
    simp only [h1, Bool.false_eq_true, if_false] at him
    rw [if_pos h2]
    exact decode_local hr hr' ⟨h1, h2⟩ ⟨by rw [hsf]; exact h1, by rw [hdf]; exact h2⟩ hw
      (by rw [hsf, hdf]) (by rw [hsf]) hp hp' (him x y hp)

/-- C33, encoding to 4:4:4: if two source images differ at most in pixel `(x₀, y₀)`, the results
agree on all other pixels. -/
theorem C33_encode_444 (hv : Spec.Valid t c) (hk : c.Encodes)
    (hd : c.dst_format.pixel_format = .i444)
    {sb' : List Buf} (hv' : Spec.Valid t { c with src_buffers := sb' }) {x₀ y₀ : Nat}
    (hs : ∀ x y, c.Pixel x y → (x, y) ≠ (x₀, y₀) →
      Spec.RgbAt c.rgbIn ({ c with src_buffers := sb' } : Call).rgbIn x y)
    (ho : Stores t crate cpu c out)
    (ho' : Stores t crate cpu { c with src_buffers := sb' } out')
    {x y : Nat} (hp : c.Pixel x y) (hne : (x, y) ≠ (x₀, y₀)) :
    Spec.YuvAt (c.yuvOut out) (c.yuvOut out') x y := by
  have hr := Runs.crate hv (ho.room hv)
  have hr' := Runs.crate hv' (ho'.room hv')
  rw [hr.out_eq ho, hr'.out_eq ho']
  obtain ⟨e1, e2⟩ := encode_local (semOf_srcIndep _) hr hr' hk hk rfl Iff.rfl rfl hp hp
    (hs x y hp hne)
  obtain ⟨e2, e3⟩ := e2 (.inl hd)
  exact ⟨e1, e2, e3⟩

/-- C33, encoding to 4:2:0: if two source images differ at most in pixel `(x₀, y₀)`, luma agrees on
all other pixels and chroma on all other 2x2 blocks. -/
theorem C33_encode_420 (hv : Spec.Valid t c) (hk : c.Encodes)
    (hd : Spec.Is420 c.dst_format.pixel_format)
    {sb' : List Buf} (hv' : Spec.Valid t { c with src_buffers := sb' }) {x₀ y₀ : Nat}
    (hs : ∀ x y, c.Pixel x y → (x, y) ≠ (x₀, y₀) →
      Spec.RgbAt c.rgbIn ({ c with src_buffers := sb' } : Call).rgbIn x y)
    (ho : Stores t crate cpu c out)
    (ho' : Stores t crate cpu { c with src_buffers := sb' } out')
    {x y : Nat} (hp : c.Pixel x y) :
    ((x, y) ≠ (x₀, y₀) → (c.yuvOut out).y x y = (c.yuvOut out').y x y) ∧
    ((x / 2, y / 2) ≠ (x₀ / 2, y₀ / 2) →
      (c.yuvOut out).cb x y = (c.yuvOut out').cb x y ∧
      (c.yuvOut out).cr x y = (c.yuvOut out').cr x y) := by
  have hr := Runs.crate hv (ho.room hv)
  have hr' := Runs.crate hv' (ho'.room hv')
  rw [hr.out_eq ho, hr'.out_eq ho']
  have key := fun h => encode_local (semOf_srcIndep _) hr hr' hk hk rfl Iff.rfl rfl hp hp h
  have heven : c.width.toNat % 2 = 0 ∧ c.height.toNat % 2 = 0 := by
    have := hv.dst_legal.size
    rcases hd with e | e <;> rw [e] at this <;> exact this
  constructor
  · exact fun hne => (key (hs x y hp hne)).1
  · intro hne
    have hb : ∀ x' y', x' / 2 = x / 2 → y' / 2 = y / 2 → (x', y') ≠ (x₀, y₀) := by
      rintro x' y' h1 h2 h3
      injection h3 with h3 h4
      subst h3 h4
      exact hne (by rw [h1, h2])
    refine (key (hs x y hp (hb x y rfl rfl))).2 (.inr fun x' y' h1 h2 => hs x' y' ?_ (hb x' y' h1 h2))
    have h3 := hp.1
    have h4 := hp.2
    exact ⟨by omega, by omega⟩

/-- C33, decoding: wherever the samples covering a pixel agree, the decoded colours agree. (A luma
sample covers one pixel; a chroma sample covers one pixel of a 4:4:4 image and one 2x2 block of a
4:2:0 image, see `Spec.readYuv`.) -/
theorem C33_decode (hv : Spec.Valid t c) (hk : c.Decodes)
    {sb' : List Buf} (hv' : Spec.Valid t { c with src_buffers := sb' })
    (ho : Stores t crate cpu c out)
    (ho' : Stores t crate cpu { c with src_buffers := sb' } out')
    {x y : Nat} (hp : c.Pixel x y)
    (hs : Spec.YuvAt c.yuvIn ({ c with src_buffers := sb' } : Call).yuvIn x y) :
    Spec.RgbAt (c.rgbOut out) (c.rgbOut out') x y := by
  have hr := Runs.crate (cpu := cpu) hv (.of_rgb hk.2)
  have hr' := Runs.crate (cpu := cpu) hv' (.of_rgb hk.2)
  rw [hr.out_eq ho, hr'.out_eq ho']
  exact decode_local hr hr' hk hk rfl rfl rfl hp hp hs

/-- `exEncode` and `exEncode444` with one pixel changed. -/
def exOnePixel (n : Nat) (k : Nat) : List Buf := [⟨n, fun i => if i = k then 200 else UInt8.ofNat (i * 37 + 1)⟩]

example : Spec.Valid .x64 { exEncode with src_buffers := exOnePixel 36 4 } ∧
    (∀ x y, exEncode.Pixel x y → (x, y) ≠ (1, 0) → Spec.RgbAt exEncode.rgbIn
      ({ exEncode with src_buffers := exOnePixel 36 4 } : Call).rgbIn x y) ∧
    ¬ Spec.RgbAt exEncode.rgbIn
      ({ exEncode with src_buffers := exOnePixel 36 4 } : Call).rgbIn 1 0 := by
  have h : ∀ y, y < 2 → ∀ x, x < 4 → (x, y) ≠ (1, 0) → Spec.RgbAt exEncode.rgbIn
      ({ exEncode with src_buffers := exOnePixel 36 4 } : Call).rgbIn x y := by
    unfold Spec.RgbAt; decide +kernel
  exact ⟨valid_of_check (by decide +kernel), fun x y hp hne => h y hp.2 x hp.1 hne,
    by unfold Spec.RgbAt; decide +kernel⟩

end Verif
