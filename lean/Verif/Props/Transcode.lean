import Verif.Spec.Gamut
import Verif.Props.Numeric
/-!
# C69: decoding and encoding again, in limited range

What happens to the samples of a YCbCr image that is converted to RGB and back (a transcoder, or an
editor that stores its result again).
-/

namespace Verif

open Spec

/-- `c'` encodes, in the same colour space, the RGB image that `c` stored (possibly after a conversion
of its pixel format). -/
structure Encodes_of (c c' : Call) (out : List Buf) : Prop where
  width : c'.width = c.width
  height : c'.height = c.height
  color_space : c'.dst_format.color_space = c.src_format.color_space
  pixels : ∀ x y, c.Pixel x y → RgbAt (c.rgbOut out) c'.rgbIn x y

theorem Encodes_of.pixel {c c' : Call} {out : List Buf} (h : Encodes_of c c' out) {x y : Nat}
    (hp : c.Pixel x y) : c'.Pixel x y := by
  unfold Call.Pixel at *; rw [h.width, h.height]; exact hp

/-! ## One pixel -/

/-- The exact forward transform of the exact inverse. -/
theorem ideal_forward (s : Std) (y u v : ℚ) :
    idealY s (idealR s y v) (idealG s y u v) (idealB s y u) = y ∧
    idealCb s (idealR s y v) (idealG s y u v) (idealB s y u) = u ∧
    idealCr s (idealR s y v) (idealG s y u v) (idealB s y u) = v := by
  cases s <;> simp only [idealR, idealG, idealB, idealY, idealCb, idealCr, signalY, lumaSignal,
    yScale, cScale, lumaOffset, Kr, Kb, Kg, Std.fullRange] <;> norm_num <;>
  refine ⟨?_, ?_, ?_⟩ <;> linarith

/-- Colours that are close have close codes (limited range). -/
theorem ideal_close (s : Std) (hs : s.fullRange = false) {r g b r' g' b' : ℚ}
    (hr : |r - r'| ≤ 0.54) (hg : |g - g'| ≤ 0.54) (hb : |b - b'| ≤ 0.54) :
    |idealY s r g b - idealY s r' g' b'| ≤ 0.464 ∧ |idealCb s r g b - idealCb s r' g' b'| ≤ 0.475 ∧
    |idealCr s r g b - idealCr s r' g' b'| ≤ 0.475 := by
  rw [abs_le] at *
  obtain ⟨r1, r2⟩ := hr
  obtain ⟨g1, g2⟩ := hg
  obtain ⟨b1, b2⟩ := hb
  simp only [abs_le]
  cases s <;> simp [Std.fullRange] at hs <;>
  simp only [idealY, idealCb, idealCr, lumaSignal, yScale, cScale, lumaOffset, Kr, Kb, Kg,
    Std.fullRange] <;> norm_num <;> refine ⟨⟨?_, ?_⟩, ⟨?_, ?_⟩, ?_, ?_⟩ <;> linarith

theorem int_eq_of_close {a b : ℤ} {x p q : ℚ} (h1 : |(a : ℚ) - x| ≤ p) (h2 : |x - b| ≤ q)
    (h : p + q < 1) : a = b := by
  rw [abs_le] at h1 h2
  have h3 : |a - b| ≤ 0 := int_close (by push_cast; linarith) (by push_cast; linarith)
  have := abs_nonpos_iff.1 h3
  omega

theorem val_inj {a b : UInt8} (h : val a = val b) : a = b := by
  unfold val at h
  exact UInt8.toNat_inj.1 (by exact_mod_cast h)

/-- Decoding a code of a colour of the RGB cube: within 0.54. -/
theorem gamut_close (s : Std) (hs : s.fullRange = false) {y u v : ℤ} (hy : IsByte y) (hu : IsByte u)
    (hv : IsByte v) (hg : InGamut s y u v) :
    |(red s y v : ℚ) - idealR s y v| ≤ 0.54 ∧ |(green s y u v : ℚ) - idealG s y u v| ≤ 0.54 ∧
    |(blue s y u : ℚ) - idealB s y u| ≤ 0.54 := by
  have e : ∀ x : ℚ, 0 ≤ x ∧ x ≤ 255 → clampQ x = x := by
    intro x h
    unfold clampQ
    rw [min_eq_right h.2, max_eq_right h.1]
  obtain ⟨h1, h2, h3⟩ := C38_accuracy_partial s hs hy hu hv
  rw [e _ hg.1] at h1
  rw [e _ hg.2.1] at h2
  rw [e _ hg.2.2] at h3
  exact ⟨h1, h2, h3⟩

/-- The vector code does not overflow on colours of the RGB cube. -/
theorem gamut_blue (s : Std) {y u : ℤ} (hy : IsByte y) (hu : IsByte u) (h : idealB s y u ≤ 255) :
    blueFix s y u ≤ 32767 := by
  obtain ⟨-, h2⟩ := blue_err s hy hu
  have h3 : ((blueFix s y u / 64 : ℤ) : ℚ) < (300 : ℤ) := by
    have : (errR s).2 ≤ 2.4 := by cases s <;> norm_num [errR]
    push_cast
    linarith
  have h4 : blueFix s y u / 64 < 300 := by exact_mod_cast h3
  omega

/-- C69 for one pixel (limited range, 4:4:4): the code of a colour of the RGB cube survives. -/
theorem C69_lossless_pixel (s : Std) (hs : s.fullRange = false) {y u v : ℤ} (hy : IsByte y)
    (hu : IsByte u) (hv : IsByte v) (hg : InGamut s y u v) :
    luma s (red s y v) (green s y u v) (blue s y u) = y ∧
    cb s (red s y v) (green s y u v) (blue s y u) = u ∧
    cr s (red s y v) (green s y u v) (blue s y u) = v := by
  have hc : ∀ v, IsByte (clamp v) := fun v => by unfold IsByte clamp; omega
  obtain ⟨d1, d2, d3⟩ := gamut_close s hs hy hu hv hg
  obtain ⟨i1, i2, i3⟩ := ideal_close s hs d1 d2 d3
  obtain ⟨j1, j2, j3⟩ := ideal_forward s y u v
  rw [j1] at i1
  rw [j2] at i2
  rw [j3] at i3
  have hr : IsByte (red s y v) := hc _
  have hg' : IsByte (green s y u v) := hc _
  have hb : IsByte (blue s y u) := hc _
  obtain ⟨a2, a3⟩ := C36_chroma s hr hg' hb
  exact ⟨int_eq_of_close (C36_luma s hr hg' hb) i1 (by norm_num),
    int_eq_of_close a2 i2 (by norm_num), int_eq_of_close a3 i3 (by norm_num)⟩

/-- An orange of the RGB cube, and a code outside of it that does not survive. -/
example : red .bt601 126 201 = 245 ∧ green .bt601 126 80 201 = 88 ∧ blue .bt601 126 80 = 31 ∧
    luma .bt601 245 88 31 = 126 ∧ cb .bt601 245 88 31 = 80 ∧ cr .bt601 245 88 31 = 201 ∧
    luma .bt601 (red .bt601 235 240) (green .bt601 235 16 240) (blue .bt601 235 16) = 189 := by
  decide

/-! ## Images -/

/-- A 4:2:0 image has one chroma sample per block. -/
theorem chroma_block {f : ImageFormat} {w h : UInt32} {strides : Option (List Nat)} {bufs : List Buf}
    (hf : f.pixel_format ≠ .i444) {x y x' y' : Nat} (hx : x' / 2 = x / 2) (hy : y' / 2 = y / 2) :
    (readYuv f w h strides bufs).cb x' y' = (readYuv f w h strides bufs).cb x y ∧
    (readYuv f w h strides bufs).cr x' y' = (readYuv f w h strides bufs).cr x y := by
  unfold readYuv
  cases f with | mk pf cs n =>
  cases pf <;> first | exact absurd rfl hf | skip
  all_goals dsimp only
  all_goals first | (split <;> simp only [nv12Image, hx, hy, and_self]) |
    simp only [i420Image, hx, hy, and_self]

variable {t : Target} {cpu cpu' : Cpu} {c c' : Call} {out out' : List Buf}

/-- The stored pixel is close to the exact colour. -/
theorem decoded_close (hv : Valid t c) (hk : c.Decodes)
    (hs : (std c.src_format.color_space).fullRange = false)
    (ho : Stores t crate cpu c out) (hc : Encodes_of c c' out) {x y : Nat} (hp : c.Pixel x y)
    (hg : InGamut (std c.src_format.color_space) (val (c.yuvIn.y x y)) (val (c.yuvIn.cb x y))
      (val (c.yuvIn.cr x y))) :
    let s := std c.src_format.color_space
    let l : ℚ := val (c.yuvIn.y x y)
    let u : ℚ := val (c.yuvIn.cb x y)
    let v : ℚ := val (c.yuvIn.cr x y)
    |val (c'.rgbIn.r x y) - idealR s l v| ≤ 0.54 ∧ |val (c'.rgbIn.g x y) - idealG s l u v| ≤ 0.54 ∧
    |val (c'.rgbIn.b x y) - idealB s l u| ≤ 0.54 := by
  intro s l u v
  have e : ∀ v, val (byte (clamp v)) = clamp v := fun v => val_byte (by unfold IsByte clamp; omega)
  obtain ⟨p1, p2, p3⟩ := hc.pixels x y hp
  obtain ⟨d1, d2, d3⟩ := C23_decode_partial hv hk ho hp
    (.inr (.inr (gamut_blue _ (isByte_val _) (isByte_val _) hg.2.2.2)))
  rw [← p1, ← p2, ← p3, d1, d2, d3, red, green, blue, e, e, e]
  exact gamut_close s hs (isByte_val _) (isByte_val _) (isByte_val _) hg

/-- C69: in limited range, decoding a YCbCr image to RGB and encoding the result to I444, on any two
processors, reproduces the sample values of every pixel whose code denotes a colour of the RGB cube.
(A 4:2:0 source comes back with its chroma repeated.) -/
theorem C69_lossless_444 (hv : Valid t c) (hv' : Valid t c') (hk : c.Decodes) (hk' : c'.Encodes)
    (hd : c'.dst_format.pixel_format = .i444)
    (hs : (std c.src_format.color_space).fullRange = false)
    (ho : Stores t crate cpu c out) (ho' : Stores t crate cpu' c' out') (hc : Encodes_of c c' out)
    {x y : Nat} (hp : c.Pixel x y)
    (hg : InGamut (std c.src_format.color_space) (val (c.yuvIn.y x y)) (val (c.yuvIn.cb x y))
      (val (c.yuvIn.cr x y))) :
    YuvAt (c'.yuvOut out') c.yuvIn x y := by
  obtain ⟨d1, d2, d3⟩ := decoded_close hv hk hs ho hc hp hg
  obtain ⟨i1, i2, i3⟩ := ideal_close _ hs d1 d2 d3
  obtain ⟨j1, j2, j3⟩ := ideal_forward (std c.src_format.color_space) (val (c.yuvIn.y x y))
    (val (c.yuvIn.cb x y)) (val (c.yuvIn.cr x y))
  rw [j1] at i1
  rw [j2] at i2
  rw [j3] at i3
  obtain ⟨a1, a2, a3⟩ := C36_forward_accuracy_444 hv' hk' hd ho' (hc.pixel hp)
  rw [hc.color_space] at a1 a2 a3
  exact ⟨val_inj (int_eq_of_close a1 i1 (by norm_num)),
    val_inj (int_eq_of_close a2 i2 (by norm_num)), val_inj (int_eq_of_close a3 i3 (by norm_num))⟩

/-- The exact chroma of an average is the average of the exact chroma. -/
theorem ideal_avg (s : Std) (r₀ r₁ r₂ r₃ g₀ g₁ g₂ g₃ b₀ b₁ b₂ b₃ : ℚ) :
    idealCb s ((r₀ + r₁ + r₂ + r₃) / 4) ((g₀ + g₁ + g₂ + g₃) / 4) ((b₀ + b₁ + b₂ + b₃) / 4) =
      (idealCb s r₀ g₀ b₀ + idealCb s r₁ g₁ b₁ + idealCb s r₂ g₂ b₂ + idealCb s r₃ g₃ b₃) / 4 ∧
    idealCr s ((r₀ + r₁ + r₂ + r₃) / 4) ((g₀ + g₁ + g₂ + g₃) / 4) ((b₀ + b₁ + b₂ + b₃) / 4) =
      (idealCr s r₀ g₀ b₀ + idealCr s r₁ g₁ b₁ + idealCr s r₂ g₂ b₂ + idealCr s r₃ g₃ b₃) / 4 := by
  unfold idealCb idealCr lumaSignal
  constructor <;> ring

theorem avg_close {a₀ a₁ a₂ a₃ b₀ b₁ b₂ b₃ m : ℚ} (h₀ : |a₀ - b₀| ≤ m) (h₁ : |a₁ - b₁| ≤ m)
    (h₂ : |a₂ - b₂| ≤ m) (h₃ : |a₃ - b₃| ≤ m) :
    |(a₀ + a₁ + a₂ + a₃) / 4 - (b₀ + b₁ + b₂ + b₃) / 4| ≤ m := by
  rw [abs_le] at *
  constructor <;> linarith [h₀.1, h₀.2, h₁.1, h₁.2, h₂.1, h₂.2, h₃.1, h₃.2]

theorem sum4_cast (p : Plane) (x y : Nat) : (sum4 p x y : ℚ) =
    val (p (2 * x) (2 * y)) + val (p (2 * x + 1) (2 * y)) + val (p (2 * x) (2 * y + 1)) +
    val (p (2 * x + 1) (2 * y + 1)) := by
  unfold sum4; push_cast; rfl

/-- C69 for 4:2:0: decoding a 4:2:0 image and encoding the result to I420 or Nv12 reproduces luma and
chroma of every pixel in whose 2x2 block all four codes denote colours of the RGB cube. The source and
the final destination need not have the same format: Nv12 to I420 through RGB loses nothing. -/
theorem C69_lossless_420 (hv : Valid t c) (hv' : Valid t c') (hk : c.Decodes) (hk' : c'.Encodes)
    (hf : c.src_format.pixel_format ≠ .i444)
    (hd : c'.dst_format.pixel_format = .i420 ∨ c'.dst_format.pixel_format = .nv12)
    (hs : (std c.src_format.color_space).fullRange = false)
    (ho : Stores t crate cpu c out) (ho' : Stores t crate cpu' c' out') (hc : Encodes_of c c' out)
    {x y : Nat} (hp : c.Pixel x y)
    (hg : ∀ x' y', x' / 2 = x / 2 → y' / 2 = y / 2 → InGamut (std c.src_format.color_space)
      (val (c.yuvIn.y x' y')) (val (c.yuvIn.cb x' y')) (val (c.yuvIn.cr x' y'))) :
    YuvAt (c'.yuvOut out') c.yuvIn x y := by
  have heven : c.width.toNat % 2 = 0 ∧ c.height.toNat % 2 = 0 := by
    have := hv'.dst_legal.size
    rw [hc.width, hc.height] at this
    rcases hd with e | e <;> rw [e] at this <;> exact this
  have hpx : ∀ x' y', x' / 2 = x / 2 → y' / 2 = y / 2 → c.Pixel x' y' := by
    intro x' y' h1 h2
    have h3 := hp.1
    have h4 := hp.2
    exact ⟨by omega, by omega⟩
  have key : ∀ x' y', x' / 2 = x / 2 → y' / 2 = y / 2 → _ := fun x' y' h1 h2 =>
    decoded_close hv hk hs ho hc (hpx x' y' h1 h2) (hg x' y' h1 h2)
  obtain ⟨a1, a2, a3⟩ := C36_forward_accuracy_420 hv' hk' hd ho' (hc.pixel hp)
  rw [hc.color_space] at a1 a2 a3
  refine ⟨?_, ?_⟩
  · obtain ⟨d1, d2, d3⟩ := key x y rfl rfl
    obtain ⟨i1, -, -⟩ := ideal_close _ hs d1 d2 d3
    rw [(ideal_forward _ _ _ _).1] at i1
    exact val_inj (int_eq_of_close a1 i1 (by norm_num))
  · obtain ⟨r₀, g₀, b₀⟩ := key (2 * (x / 2)) (2 * (y / 2)) (by omega) (by omega)
    obtain ⟨r₁, g₁, b₁⟩ := key (2 * (x / 2) + 1) (2 * (y / 2)) (by omega) (by omega)
    obtain ⟨r₂, g₂, b₂⟩ := key (2 * (x / 2)) (2 * (y / 2) + 1) (by omega) (by omega)
    obtain ⟨r₃, g₃, b₃⟩ := key (2 * (x / 2) + 1) (2 * (y / 2) + 1) (by omega) (by omega)
    obtain ⟨-, i2, i3⟩ := ideal_close _ hs (avg_close r₀ r₁ r₂ r₃) (avg_close g₀ g₁ g₂ g₃)
      (avg_close b₀ b₁ b₂ b₃)
    rw [(ideal_avg _ _ _ _ _ _ _ _ _ _ _ _ _).1, (ideal_avg _ _ _ _ _ _ _ _ _ _ _ _ _).1] at i2
    rw [(ideal_avg _ _ _ _ _ _ _ _ _ _ _ _ _).2, (ideal_avg _ _ _ _ _ _ _ _ _ _ _ _ _).2] at i3
    rw [sum4_cast, sum4_cast, sum4_cast, (ideal_avg _ _ _ _ _ _ _ _ _ _ _ _ _).1] at a2
    rw [sum4_cast, sum4_cast, sum4_cast, (ideal_avg _ _ _ _ _ _ _ _ _ _ _ _ _).2] at a3
    have hb : ∀ x' y', x' / 2 = x / 2 → y' / 2 = y / 2 →
        c.yuvIn.cb x' y' = c.yuvIn.cb x y ∧ c.yuvIn.cr x' y' = c.yuvIn.cr x y :=
      fun x' y' => chroma_block hf
    have avg : ∀ q : ℚ, (q + q + q + q) / 4 = q := fun q => by ring
    simp only [(ideal_forward _ _ _ _).2.1, hb (2 * (x / 2)) (2 * (y / 2)) (by omega) (by omega),
      hb (2 * (x / 2) + 1) (2 * (y / 2)) (by omega) (by omega),
      hb (2 * (x / 2)) (2 * (y / 2) + 1) (by omega) (by omega),
      hb (2 * (x / 2) + 1) (2 * (y / 2) + 1) (by omega) (by omega), avg] at i2
    simp only [(ideal_forward _ _ _ _).2.2, hb (2 * (x / 2)) (2 * (y / 2)) (by omega) (by omega),
      hb (2 * (x / 2) + 1) (2 * (y / 2)) (by omega) (by omega),
      hb (2 * (x / 2)) (2 * (y / 2) + 1) (by omega) (by omega),
      hb (2 * (x / 2) + 1) (2 * (y / 2) + 1) (by omega) (by omega), avg] at i3
    exact ⟨val_inj (int_eq_of_close a2 i2 (by norm_num)),
      val_inj (int_eq_of_close a3 i3 (by norm_num))⟩

/-! ## A concrete case -/

/-- A 2x2 image with luma 100, 110, 120, 130 and chroma 80, 150. -/
def exYuv (cs : ColorSpace) : Call where
  width := 2
  height := 2
  src_format := ⟨.i420, cs, 3⟩
  src_strides := none
  src_buffers := [⟨4, fun i => UInt8.ofNat (100 + 10 * i)⟩, ⟨1, fun _ => 80⟩, ⟨1, fun _ => 150⟩]
  dst_format := ⟨.bgra, .rgb, 1⟩
  dst_strides := none
  dst_buffers := [noise 16 5]

/-- Encoding a 2x2 Bgra image. -/
def exAgain (cs : ColorSpace) (pf : PixelFormat) (src : List Buf) : Call where
  width := 2
  height := 2
  src_format := ⟨.bgra, .rgb, 1⟩
  src_strides := none
  src_buffers := src
  dst_format := ⟨pf, cs, if pf = .nv12 then 2 else 3⟩
  dst_strides := none
  dst_buffers := [noise 4 1, noise 4 2, noise 4 3]

/-- The hypotheses of C69 are met by `exYuv`: decode on NEON, encode to Nv12 on AVX2. -/
example : ∃ out out', Stores .x64 crate neonCpu (exYuv .bt601) out ∧
    Stores .x64 crate avx2Cpu (exAgain .bt601 .nv12 out) out' ∧
    Encodes_of (exYuv .bt601) (exAgain .bt601 .nv12 out) out ∧
    Valid .x64 (exYuv .bt601) ∧ Valid .x64 (exAgain .bt601 .nv12 out) ∧
    (exYuv .bt601).Decodes ∧ (exAgain .bt601 .nv12 out).Encodes ∧ (exYuv .bt601).Pixel 1 1 ∧
    ∀ x y, x / 2 = 0 → y / 2 = 0 → InGamut .bt601 (val ((exYuv .bt601).yuvIn.y x y))
      (val ((exYuv .bt601).yuvIn.cb x y)) (val ((exYuv .bt601).yuvIn.cr x y)) := by
  have hv : Valid .x64 (exYuv .bt601) := valid_of_check (by decide +kernel)
  have hv' : Valid .x64 (exAgain .bt601 .nv12 ((semOf .neon).out (exYuv .bt601))) :=
    valid_of_check (by decide +kernel)
  refine ⟨_, _, (Runs.crate hv (.of_ne (by decide))).stores,
    (Runs.crate hv' (.of_ne (by decide))).stores, ⟨rfl, rfl, rfl, fun _ _ _ => ⟨rfl, rfl, rfl⟩⟩,
    hv, hv', ⟨rfl, rfl⟩, by decide, by unfold Call.Pixel; decide, ?_⟩
  intro x y hx hy
  have hx' : x < 2 := by omega
  have hy' : y < 2 := by omega
  have e : ∀ x < 2, ∀ y < 2, val ((exYuv .bt601).yuvIn.y x y) = 100 + 10 * x + 20 * y ∧
      val ((exYuv .bt601).yuvIn.cb x y) = 80 ∧ val ((exYuv .bt601).yuvIn.cr x y) = 150 := by decide
  obtain ⟨e1, e2, e3⟩ := e x hx' y hy'
  rw [e1, e2, e3]
  interval_cases x <;> interval_cases y <;>
    norm_num [InGamut, idealR, idealG, idealB, signalY, yScale, cScale, lumaOffset, Kr, Kb, Kg,
      Std.fullRange]

end Verif
