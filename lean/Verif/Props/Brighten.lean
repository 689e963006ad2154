import Verif.Props.Uniform
/-!
# C99: making a colour lighter or darker changes luma only

Adding the same number to red, green and blue leaves the chroma as it is and moves the luma. In full
range the luma moves by that number, and moving the luma moves red, green and blue by that number.
-/

namespace Verif
open Spec

theorem chroma_brighten (s : Std) (r g b k : ℤ) :
    dot (cbCoef s) (r + k) (g + k) (b + k) = dot (cbCoef s) r g b ∧
    dot (crCoef s) (r + k) (g + k) (b + k) = dot (crCoef s) r g b := by
  cases s <;> simp only [dot, cbCoef, crCoef] <;> constructor <;> ring

/-- The samples of a lighter colour. -/
theorem brighten_same (s : Std) (r g b k : ℤ) :
    cb s (r + k) (g + k) (b + k) = cb s r g b ∧ cr s (r + k) (g + k) (b + k) = cr s r g b ∧
    cbUp s (r + k) (g + k) (b + k) = cbUp s r g b ∧ crUp s (r + k) (g + k) (b + k) = crUp s r g b ∧
    cbAvg s (r + k) (g + k) (b + k) = cbAvg s r g b ∧
    crAvg s (r + k) (g + k) (b + k) = crAvg s r g b ∧
    cbAvgUp s (r + k) (g + k) (b + k) = cbAvgUp s r g b ∧
    crAvgUp s (r + k) (g + k) (b + k) = crAvgUp s r g b := by
  obtain ⟨h1, h2⟩ := chroma_brighten s r g b k
  simp only [cb, cr, cbUp, crUp, cbAvg, crAvg, cbAvgUp, crAvgUp, h1, h2, and_self]

theorem luma_brighten (s : Std) (r g b k : ℤ) :
    if s.fullRange then luma s (r + k) (g + k) (b + k) = luma s r g b + k
    else |65536 * (luma s (r + k) (g + k) (b + k) - luma s r g b) - 56284 * k| < 65536 := by
  cases s <;> simp only [Std.fullRange, if_true, if_false, Bool.false_eq_true, luma, roundUp, dot, lumaCoef,
    abs_lt] <;> omega

variable {t t' : Target} {cpu cpu' : Cpu} {c c' : Call} {out out' : List Buf} {x y x' y' : Nat}

/-- The pixel `(x', y')` of one image is lighter by `k` than the pixel `(x, y)` of another. -/
def Lighter (p p' : RgbImage) (k : ℤ) (x y x' y' : Nat) : Prop :=
  val (p'.r x' y') = val (p.r x y) + k ∧ val (p'.g x' y') = val (p.g x y) + k ∧
  val (p'.b x' y') = val (p.b x y) + k

/-- The sums of the blocks of the pixels `(x', y')` and `(x, y)` differ by `k` in every component. -/
def LighterBlock (p p' : RgbImage) (k : ℤ) (x y x' y' : Nat) : Prop :=
  sum4 p'.r (x' / 2) (y' / 2) = sum4 p.r (x / 2) (y / 2) + k ∧
  sum4 p'.g (x' / 2) (y' / 2) = sum4 p.g (x / 2) (y / 2) + k ∧
  sum4 p'.b (x' / 2) (y' / 2) = sum4 p.b (x / 2) (y / 2) + k

/-- **C99**, luma: moves by `k` in full range, by `56284 / 65536 * k` up to rounding in limited range. -/
theorem C99_luma (hv : Valid t c) (hv' : Valid t' c') (hk : c.Encodes) (hk' : c'.Encodes)
    (hs : c'.dst_format.color_space = c.dst_format.color_space)
    (ho : Stores t crate cpu c out) (ho' : Stores t' crate cpu' c' out')
    (hp : c.Pixel x y) (hp' : c'.Pixel x' y') {k : ℤ} (h : Lighter c.rgbIn c'.rgbIn k x y x' y') :
    let Y := val ((c.yuvOut out).y x y)
    let Y' := val ((c'.yuvOut out').y x' y')
    if (std c.dst_format.color_space).fullRange then Y' = Y + k
    else |65536 * (Y' - Y) - 56284 * k| < 65536 := by
  have e := (C35_no_truncation (std c.dst_format.color_space) (isByte_val (c.rgbIn.r x y))
    (isByte_val (c.rgbIn.g x y)) (isByte_val (c.rgbIn.b x y)) (isSum4 c.rgbIn.r 0 0)
    (isSum4 c.rgbIn.r 0 0) (isSum4 c.rgbIn.r 0 0)).1
  have e' := (C35_no_truncation (std c.dst_format.color_space) (isByte_val (c'.rgbIn.r x' y'))
    (isByte_val (c'.rgbIn.g x' y')) (isByte_val (c'.rgbIn.b x' y')) (isSum4 c.rgbIn.r 0 0)
    (isSum4 c.rgbIn.r 0 0) (isSum4 c.rgbIn.r 0 0)).1
  simp only
  rw [C20_luma hv hk ho hp, C20_luma hv' hk' ho' hp', hs, e, e', h.1, h.2.1, h.2.2]
  exact luma_brighten _ _ _ _ _

/-- **C99**, chroma, on processors without NEON: does not change. Missing: NEON, see
`C99_chroma_444_neon` and `C99_chroma_420_neon`. -/
theorem C99_chroma_partial (hv : Valid t c) (hv' : Valid t' c') (hk : c.Encodes) (hk' : c'.Encodes)
    (hs : c'.dst_format.color_space = c.dst_format.color_space)
    (h4 : c'.dst_format.pixel_format = .i444 ↔ c.dst_format.pixel_format = .i444)
    (hn : cpu.set ≠ .neon) (hn' : cpu'.set ≠ .neon)
    (ho : Stores t crate cpu c out) (ho' : Stores t' crate cpu' c' out')
    (hp : c.Pixel x y) (hp' : c'.Pixel x' y') {k : ℤ}
    (h : if c.dst_format.pixel_format = .i444 then Lighter c.rgbIn c'.rgbIn k x y x' y'
      else LighterBlock c.rgbIn c'.rgbIn k x y x' y') :
    (c'.yuvOut out').cb x' y' = (c.yuvOut out).cb x y ∧
    (c'.yuvOut out').cr x' y' = (c.yuvOut out).cr x y := by
  by_cases hd : c.dst_format.pixel_format = .i444
  · rw [if_pos hd] at h
    obtain ⟨a1, a2⟩ := C22_chroma_444_partial hv hk hn hd ho hp
    obtain ⟨b1, b2⟩ := C22_chroma_444_partial hv' hk' hn' (h4.2 hd) ho' hp'
    rw [hs, h.1, h.2.1, h.2.2] at b1 b2
    obtain ⟨e1, e2, -⟩ := brighten_same (std c.dst_format.color_space) (val (c.rgbIn.r x y))
      (val (c.rgbIn.g x y)) (val (c.rgbIn.b x y)) k
    rw [a1, a2, b1, b2, e1, e2]
    exact ⟨rfl, rfl⟩
  · rw [if_neg hd] at h
    obtain ⟨a1, a2⟩ := C21_chroma_420_partial hv hk hn (hk.subsampled hv hd) ho hp
    obtain ⟨b1, b2⟩ := C21_chroma_420_partial hv' hk' hn'
      (hk'.subsampled hv' fun e => hd (h4.1 e)) ho' hp'
    rw [hs, h.1, h.2.1, h.2.2] at b1 b2
    obtain ⟨-, -, -, -, e1, e2, -⟩ := brighten_same (std c.dst_format.color_space)
      (sum4 c.rgbIn.r (x / 2) (y / 2)) (sum4 c.rgbIn.g (x / 2) (y / 2))
      (sum4 c.rgbIn.b (x / 2) (y / 2)) k
    rw [a1, a2, b1, b2, e1, e2]
    exact ⟨rfl, rfl⟩

/-- **C99**, 4:4:4 chroma with NEON, exactly: it changes if just one of the two columns is converted by
vector code, and it is a tie. -/
theorem C99_chroma_444_neon (hv : Valid t c) (hv' : Valid t' c') (hk : c.Encodes) (hk' : c'.Encodes)
    (hs : c'.dst_format.color_space = c.dst_format.color_space)
    (hd : c.dst_format.pixel_format = .i444) (hd' : c'.dst_format.pixel_format = .i444)
    (hn : cpu.set = .neon) (hn' : cpu'.set = .neon)
    (ho : Stores t crate cpu c out) (ho' : Stores t' crate cpu' c' out')
    (hp : c.Pixel x y) (hp' : c'.Pixel x' y') {k : ℤ} (h : Lighter c.rgbIn c'.rgbIn k x y x' y') :
    let s := std c.dst_format.color_space
    let r := val (c.rgbIn.r x y)
    let g := val (c.rgbIn.g x y)
    let b := val (c.rgbIn.b x y)
    ((c'.yuvOut out').cb x' y' = (c.yuvOut out).cb x y ↔
      ((x < 8 * (c.width.toNat / 8) ↔ x' < 8 * (c'.width.toNat / 8)) ∨ cbUp s r g b = cb s r g b)) ∧
    ((c'.yuvOut out').cr x' y' = (c.yuvOut out).cr x y ↔
      ((x < 8 * (c.width.toNat / 8) ↔ x' < 8 * (c'.width.toNat / 8)) ∨ crUp s r g b = cr s r g b)) := by
  intro s r g b
  obtain ⟨a1, a2⟩ := C22_chroma_444_neon hv hk hn hd ho hp
  obtain ⟨b1, b2⟩ := C22_chroma_444_neon hv' hk' hn' hd' ho' hp'
  obtain ⟨e1, e2, e3, e4, -⟩ := brighten_same s r g b k
  rw [hs, h.1, h.2.1, h.2.2] at b1 b2
  have hB := C35_full s (isByte_val (c.rgbIn.r x y)) (isByte_val (c.rgbIn.g x y))
    (isByte_val (c.rgbIn.b x y)) (isSum4 c.rgbIn.r 0 0) (isSum4 c.rgbIn.r 0 0)
    (isSum4 c.rgbIn.r 0 0)
  rw [a1, a2, b1, b2, e1, e2, e3, e4]
  exact ⟨pick_iff (isByte_clamp _) hB.2.1, pick_iff (isByte_clamp _) hB.2.2.1⟩

/-- **C99**, 4:2:0 chroma with NEON, exactly. -/
theorem C99_chroma_420_neon (hv : Valid t c) (hv' : Valid t' c') (hk : c.Encodes) (hk' : c'.Encodes)
    (hs : c'.dst_format.color_space = c.dst_format.color_space)
    (hd : c.dst_format.pixel_format = .i420 ∨ c.dst_format.pixel_format = .nv12)
    (hd' : c'.dst_format.pixel_format = .i420 ∨ c'.dst_format.pixel_format = .nv12)
    (hn : cpu.set = .neon) (hn' : cpu'.set = .neon)
    (ho : Stores t crate cpu c out) (ho' : Stores t' crate cpu' c' out')
    (hp : c.Pixel x y) (hp' : c'.Pixel x' y') {k : ℤ}
    (h : LighterBlock c.rgbIn c'.rgbIn k x y x' y') :
    let s := std c.dst_format.color_space
    let r4 := sum4 c.rgbIn.r (x / 2) (y / 2)
    let g4 := sum4 c.rgbIn.g (x / 2) (y / 2)
    let b4 := sum4 c.rgbIn.b (x / 2) (y / 2)
    ((c'.yuvOut out').cb x' y' = (c.yuvOut out).cb x y ↔
      ((x / 2 < 4 * (c.width.toNat / 8) ↔ x' / 2 < 4 * (c'.width.toNat / 8)) ∨
        cbAvgUp s r4 g4 b4 = cbAvg s r4 g4 b4)) ∧
    ((c'.yuvOut out').cr x' y' = (c.yuvOut out).cr x y ↔
      ((x / 2 < 4 * (c.width.toNat / 8) ↔ x' / 2 < 4 * (c'.width.toNat / 8)) ∨
        crAvgUp s r4 g4 b4 = crAvg s r4 g4 b4)) := by
  intro s r4 g4 b4
  obtain ⟨a1, a2⟩ := C21_chroma_420_neon hv hk hn hd ho hp
  obtain ⟨b1, b2⟩ := C21_chroma_420_neon hv' hk' hn' hd' ho' hp'
  obtain ⟨-, -, -, -, e1, e2, e3, e4⟩ := brighten_same s r4 g4 b4 k
  rw [hs, h.1, h.2.1, h.2.2] at b1 b2
  have hB := C35_full s (isByte_val 0) (isByte_val 0) (isByte_val 0)
    (isSum4 c.rgbIn.r (x / 2) (y / 2)) (isSum4 c.rgbIn.g (x / 2) (y / 2))
    (isSum4 c.rgbIn.b (x / 2) (y / 2))
  rw [a1, a2, b1, b2, e1, e2, e3, e4]
  exact ⟨pick_iff (isByte_clamp _) hB.2.2.2.1, pick_iff (isByte_clamp _) hB.2.2.2.2⟩

theorem clamp_shift {v k : ℤ} (h0 : 0 < clamp v) (h1 : clamp v < 255) : clamp (v + k) = clamp (clamp v + k) := by
  unfold clamp at *
  omega

theorem decode_brighten (s : Std) (hs : s.fullRange = true) (y u v k : ℤ) :
    redFix s (y + k) v / 64 = redFix s y v / 64 + k ∧
    greenFix s (y + k) u v / 64 = greenFix s y u v / 64 + k ∧
    blueFix s (y + k) u / 64 = blueFix s y u / 64 + k := by
  cases s <;> cases hs <;> simp only [redFix, greenFix, blueFix, dec] <;> omega

/-- In full range blue stays in the 16-bit range. -/
theorem blueFix_full (s : Std) (hs : s.fullRange = true) (Y Cb : UInt8) :
    ¬ blueFix s (val Y) (val Cb) > 32767 := by
  have h1 := isByte_val Y
  have h2 := isByte_val Cb
  unfold IsByte at h1 h2
  cases s <;> cases hs <;> simp only [blueFix, dec] <;> omega

/-- **C99**, decoding in full range, on every processor: luma that is larger by `k` makes red, green and
blue larger by `k`, clamped. A component that is 0 or 255 may have been clamped and tells nothing about
the other one. -/
theorem C99_decode (hv : Valid t c) (hv' : Valid t' c') (hk : c.Decodes) (hk' : c'.Decodes)
    (hs : c'.src_format.color_space = c.src_format.color_space)
    (hf : (std c.src_format.color_space).fullRange = true)
    (ho : Stores t crate cpu c out) (ho' : Stores t' crate cpu' c' out')
    (hp : c.Pixel x y) (hp' : c'.Pixel x' y') {k : ℤ}
    (h1 : val (c'.yuvIn.y x' y') = val (c.yuvIn.y x y) + k)
    (h2 : c'.yuvIn.cb x' y' = c.yuvIn.cb x y) (h3 : c'.yuvIn.cr x' y' = c.yuvIn.cr x y) :
    let R := val ((c.rgbOut out).r x y)
    let G := val ((c.rgbOut out).g x y)
    let B := val ((c.rgbOut out).b x y)
    (0 < R → R < 255 → val ((c'.rgbOut out').r x' y') = clamp (R + k)) ∧
    (0 < G → G < 255 → val ((c'.rgbOut out').g x' y') = clamp (G + k)) ∧
    (0 < B → B < 255 → val ((c'.rgbOut out').b x' y') = clamp (B + k)) := by
  obtain ⟨a1, a2, a3⟩ := C46_exact hv hk ho hp
  obtain ⟨b1, b2, b3⟩ := C46_exact hv' hk' ho' hp'
  rw [hs] at b1 b2 b3
  rw [if_neg fun h => blueFix_full _ hf _ _ h.2] at a3 b3
  rw [h1, h2, h3] at b2
  rw [h1, h3] at b1
  rw [h1, h2] at b3
  have e : ∀ v, val (byte (clamp v)) = clamp v := fun v => val_byte (isByte_clamp v)
  obtain ⟨d1, d2, d3⟩ := decode_brighten (std c.src_format.color_space) hf (val (c.yuvIn.y x y))
    (val (c.yuvIn.cb x y)) (val (c.yuvIn.cr x y)) k
  simp only
  rw [a1, a2, a3, b1, b2, b3]
  simp only [red, green, blue, e, d1, d2, d3]
  exact ⟨clamp_shift, clamp_shift, clamp_shift⟩

/-- The image of one colour of C82, and the same lighter by 3. -/
def exLight : Call := { exOneColour with
  src_buffers := [⟨80, fun i => [3, 67, 19, 255].getD (i % 4) 0⟩] }

theorem exLight_valid : Valid .x64 exLight := valid_of_check (by decide +kernel)

theorem exLight_lighter (x y x' y' : Nat) : Lighter exOneColour.rgbIn exLight.rgbIn 3 x y x' y' := by
  have h := exOneColour_colour x y
  have at' : ∀ k, k < 4 → bytesAt exLight.src_buffers 0 (40 * y' + 4 * x' + k) =
      [3, 67, 19, 255].getD k 0 := by
    intro k hk
    show [3, 67, 19, 255].getD ((40 * y' + 4 * x' + k) % 4) 0 = _
    rw [show (40 * y' + 4 * x' + k) % 4 = k by omega]
  have r : exLight.rgbIn.r x' y' = 19 := at' 2 (by omega)
  have g : exLight.rgbIn.g x' y' = 67 := at' 1 (by omega)
  have b : exLight.rgbIn.b x' y' = 3 := at' 0 (by omega)
  unfold Lighter
  rw [h.1, h.2.1, h.2.2, r, g, b]
  decide

theorem exLight_block (x y x' y' : Nat) : LighterBlock exOneColour.rgbIn exLight.rgbIn 12 x y x' y' := by
  have h := fun x y x' y' => exLight_lighter x y x' y'
  unfold LighterBlock sum4
  refine ⟨?_, ?_, ?_⟩
  · linarith [(h (2 * (x / 2)) (2 * (y / 2)) (2 * (x' / 2)) (2 * (y' / 2))).1,
      (h (2 * (x / 2) + 1) (2 * (y / 2)) (2 * (x' / 2) + 1) (2 * (y' / 2))).1,
      (h (2 * (x / 2)) (2 * (y / 2) + 1) (2 * (x' / 2)) (2 * (y' / 2) + 1)).1,
      (h (2 * (x / 2) + 1) (2 * (y / 2) + 1) (2 * (x' / 2) + 1) (2 * (y' / 2) + 1)).1]
  · linarith [(h (2 * (x / 2)) (2 * (y / 2)) (2 * (x' / 2)) (2 * (y' / 2))).2.1,
      (h (2 * (x / 2) + 1) (2 * (y / 2)) (2 * (x' / 2) + 1) (2 * (y' / 2))).2.1,
      (h (2 * (x / 2)) (2 * (y / 2) + 1) (2 * (x' / 2)) (2 * (y' / 2) + 1)).2.1,
      (h (2 * (x / 2) + 1) (2 * (y / 2) + 1) (2 * (x' / 2) + 1) (2 * (y' / 2) + 1)).2.1]
  · linarith [(h (2 * (x / 2)) (2 * (y / 2)) (2 * (x' / 2)) (2 * (y' / 2))).2.2,
      (h (2 * (x / 2) + 1) (2 * (y / 2)) (2 * (x' / 2) + 1) (2 * (y' / 2))).2.2,
      (h (2 * (x / 2)) (2 * (y / 2) + 1) (2 * (x' / 2)) (2 * (y' / 2) + 1)).2.2,
      (h (2 * (x / 2) + 1) (2 * (y / 2) + 1) (2 * (x' / 2) + 1) (2 * (y' / 2) + 1)).2.2]

/-- On AVX2 and SSE2: luma larger by 3, the same chroma. -/
example {out out' : List Buf} (ho : Stores .x64 crate avx2Cpu exOneColour out)
    (ho' : Stores .x64 crate sse2Cpu exLight out') :
    val ((exLight.yuvOut out').y 3 1) = val ((exOneColour.yuvOut out).y 8 0) + 3 ∧
    (exLight.yuvOut out').cb 3 1 = (exOneColour.yuvOut out).cb 8 0 :=
  ⟨C99_luma exOneColour_valid exLight_valid (by unfold Call.Encodes; decide)
      (by unfold Call.Encodes; decide) rfl ho ho' (by unfold Call.Pixel; decide)
      (by unfold Call.Pixel; decide) (exLight_lighter _ _ _ _),
    (C99_chroma_partial exOneColour_valid exLight_valid (by unfold Call.Encodes; decide)
      (by unfold Call.Encodes; decide) rfl Iff.rfl (by decide) (by decide) ho ho'
      (by unfold Call.Pixel; decide) (by unfold Call.Pixel; decide) (exLight_block _ _ _ _)).1⟩

example : (∃ out, Stores .x64 crate neonCpu exLight out) ∧ ∃ out, Stores .x64 crate sse2Cpu exLight out :=
  ⟨valid_stores exLight_valid (.of_ne (by decide)), valid_stores exLight_valid (.of_ne (by decide))⟩

/-- False with NEON: the first block of one image is converted by vector code, the last block of the
lighter image is not, and the chroma of this colour is a tie. -/
theorem C99_counterexample {out out' : List Buf} (ho : Stores .x64 crate neonCpu exOneColour out)
    (ho' : Stores .x64 crate neonCpu exLight out') :
    (exLight.yuvOut out').cb 9 1 ≠ (exOneColour.yuvOut out).cb 0 0 := by
  intro h
  have := (C99_chroma_420_neon (x := 0) (y := 0) (x' := 9) (y' := 1) exOneColour_valid exLight_valid
    (by unfold Call.Encodes; decide) (by unfold Call.Encodes; decide) rfl (.inl rfl) (.inl rfl) rfl rfl ho
    ho' (by unfold Call.Pixel; decide) (by unfold Call.Pixel; decide) (exLight_block _ _ _ _)).1.1 h
  revert this
  decide +kernel

/-- A line of 8 full-range I444 pixels of one colour. -/
def exGrow (y : UInt8) : Call where
  width := 8
  height := 1
  src_format := ⟨.i444, .bt601FR, 3⟩
  src_strides := none
  src_buffers := [⟨8, fun _ => y⟩, ⟨8, fun _ => 90⟩, ⟨8, fun _ => 160⟩]
  dst_format := ⟨.bgra, .rgb, 1⟩
  dst_strides := none
  dst_buffers := [noise 32 2]

/-- Red from 246 to 255, where it is clamped; blue from 134 to 154. -/
example : ∃ out out', Stores .x64 crate avx2Cpu (exGrow 200) out ∧ Stores .x64 crate neonCpu (exGrow 220) out' ∧
    val (((exGrow 200).rgbOut out).r 0 0) = 246 ∧ val (((exGrow 220).rgbOut out').r 0 0) = 255 ∧
    val (((exGrow 200).rgbOut out).b 0 0) = 134 ∧ val (((exGrow 220).rgbOut out').b 0 0) = 154 := by
  have hv (y : UInt8) : Valid .x64 (exGrow y) := valid_of_check rfl
  obtain ⟨out, ho⟩ := valid_stores (cpu := avx2Cpu) (hv 200) (.of_ne (by decide))
  obtain ⟨out', ho'⟩ := valid_stores (cpu := neonCpu) (hv 220) (.of_ne (by decide))
  obtain ⟨a1, -, a3⟩ := C46_exact (x := 0) (y := 0) (hv 200) ⟨rfl, rfl⟩ ho ⟨by decide, by decide⟩
  have r : val (((exGrow 200).rgbOut out).r 0 0) = 246 := by rw [a1]; decide
  have b : val (((exGrow 200).rgbOut out).b 0 0) = 134 := by rw [a3]; decide
  obtain ⟨d1, -, d3⟩ := C99_decode (x := 0) (y := 0) (x' := 0) (y' := 0) (k := 20) (hv 200) (hv 220)
    ⟨rfl, rfl⟩ ⟨rfl, rfl⟩ rfl rfl ho ho' ⟨by decide, by decide⟩ ⟨by decide, by decide⟩ (by decide) rfl rfl
  rw [r] at d1
  rw [b] at d3
  exact ⟨out, out', ho, ho', r, d1 (by decide) (by decide), b, d3 (by decide) (by decide)⟩

end Verif
