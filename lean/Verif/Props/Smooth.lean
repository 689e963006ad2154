import Verif.Spec.Smooth
import Verif.Props.Uniform
/-!
# C98: small changes of the source make small changes of the destination

No sample jumps when the colours of the source change a little, whatever processors are used. The
one exception is blue beyond the 16-bit range on x86 (C46).
-/

namespace Verif
open Spec

theorem luma_step (s : Std) {r g b r' g' b' d : ℤ} (h1 : |r - r'| ≤ d) (h2 : |g - g'| ≤ d)
    (h3 : |b - b'| ≤ d) : |luma s r g b - luma s r' g' b'| ≤ d := by
  rw [abs_le] at *
  cases s <;> simp only [luma, roundUp, dot, lumaCoef] <;> omega

/-- Either rounding of a chroma sample is within half a unit of the exact value. -/
theorem cb_half (s : Std) {r g b v : ℤ} (hr : IsByte r) (hg : IsByte g) (hb : IsByte b)
    (h : v = cb s r g b ∨ v = cbUp s r g b) : |65536 * (v - 128) - dot (cbCoef s) r g b| ≤ 32768 := by
  unfold IsByte at *
  rw [abs_le]
  rcases h with rfl | rfl <;> cases s <;>
    simp only [cb, cbUp, clamp, roundUp, roundDown, dot, cbCoef] <;> omega

theorem cr_half (s : Std) {r g b v : ℤ} (hr : IsByte r) (hg : IsByte g) (hb : IsByte b)
    (h : v = cr s r g b ∨ v = crUp s r g b) : |65536 * (v - 128) - dot (crCoef s) r g b| ≤ 32768 := by
  unfold IsByte at *
  rw [abs_le]
  rcases h with rfl | rfl <;> cases s <;>
    simp only [cr, crUp, clamp, roundUp, roundDown, dot, crCoef] <;> omega

theorem cbAvg_half (s : Std) {r g b v : ℤ} (hr : IsSum4 r) (hg : IsSum4 g) (hb : IsSum4 b)
    (h : v = cbAvg s r g b ∨ v = cbAvgUp s r g b) :
    |262144 * (v - 128) - dot (cbCoef s) r g b| ≤ 131072 := by
  unfold IsSum4 at *
  rw [abs_le]
  rcases h with rfl | rfl <;> cases s <;>
    simp only [cbAvg, cbAvgUp, clamp, roundUp, roundDown, dot, cbCoef] <;> omega

theorem crAvg_half (s : Std) {r g b v : ℤ} (hr : IsSum4 r) (hg : IsSum4 g) (hb : IsSum4 b)
    (h : v = crAvg s r g b ∨ v = crAvgUp s r g b) :
    |262144 * (v - 128) - dot (crCoef s) r g b| ≤ 131072 := by
  unfold IsSum4 at *
  rw [abs_le]
  rcases h with rfl | rfl <;> cases s <;>
    simp only [crAvg, crAvgUp, clamp, roundUp, roundDown, dot, crCoef] <;> omega

/-- Chroma coefficients add up to less than one. -/
theorem dot_step (s : Std) {r g b r' g' b' d : ℤ} (h1 : |r - r'| ≤ d) (h2 : |g - g'| ≤ d)
    (h3 : |b - b'| ≤ d) :
    |dot (cbCoef s) r g b - dot (cbCoef s) r' g' b'| ≤ 65534 * d ∧
    |dot (crCoef s) r g b - dot (crCoef s) r' g' b'| ≤ 65534 * d := by
  simp only [abs_le] at *
  cases s <;> simp only [dot, cbCoef, crCoef] <;> omega

theorem step_of_half {n v v' q q' d : ℤ} (hd : 1 ≤ d) (hn : n = 65536 ∨ n = 262144)
    (h : |n * (v - 128) - q| ≤ n / 2) (h' : |n * (v' - 128) - q'| ≤ n / 2)
    (hq : |q - q'| ≤ 65534 * (n / 65536 * d)) : |v - v'| ≤ d := by
  rw [abs_le] at *
  rcases hn with rfl | rfl <;> norm_num at h h' hq <;> omega

/-- Clamping moves no two values apart. -/
theorem clamp_step {v v' e : ℤ} (h : |v - v'| ≤ e) : |clamp v - clamp v'| ≤ e := by
  unfold clamp
  rw [abs_le] at *
  omega

theorem red_step (s : Std) {y v y' v' d : ℤ} (h1 : |y - y'| ≤ d) (h2 : |v - v'| ≤ d) :
    |red s y v - red s y' v'| ≤ 3 * d := by
  refine clamp_step ?_
  rw [abs_le] at *
  rcases eq_or_ne d 0 with rfl | hd
  · obtain rfl : y = y' := by omega
    obtain rfl : v = v' := by omega
    omega
  · cases s <;> simp only [redFix, dec] <;> omega

theorem green_step (s : Std) {y u v y' u' v' d : ℤ} (h1 : |y - y'| ≤ d) (h2 : |u - u'| ≤ d)
    (h3 : |v - v'| ≤ d) : |green s y u v - green s y' u' v'| ≤ stepG s * d := by
  refine clamp_step ?_
  rw [abs_le] at *
  rcases eq_or_ne d 0 with rfl | hd
  · obtain rfl : y = y' := by omega
    obtain rfl : u = u' := by omega
    obtain rfl : v = v' := by omega
    omega
  · cases s <;> simp only [greenFix, dec, stepG] <;> omega

theorem blue_step (s : Std) {y u y' u' d : ℤ} (h1 : |y - y'| ≤ d) (h2 : |u - u'| ≤ d) :
    |blue s y u - blue s y' u'| ≤ stepB s * d := by
  refine clamp_step ?_
  rw [abs_le] at *
  rcases eq_or_ne d 0 with rfl | hd
  · obtain rfl : y = y' := by omega
    obtain rfl : u = u' := by omega
    omega
  · cases s <;> simp only [blueFix, dec, stepB] <;> omega

variable {t t' : Target} {cpu cpu' : Cpu} {c c' : Call} {out out' : List Buf} {x y x' y' : Nat}

/-- **C98**, luma: two pixels, of one image or of two, whose colours differ by at most `d`. -/
theorem C98_luma (hv : Valid t c) (hv' : Valid t' c') (hk : c.Encodes) (hk' : c'.Encodes)
    (hs : c'.dst_format.color_space = c.dst_format.color_space)
    (ho : Stores t crate cpu c out) (ho' : Stores t' crate cpu' c' out')
    (hp : c.Pixel x y) (hp' : c'.Pixel x' y') {d : ℤ}
    (hr : |val (c.rgbIn.r x y) - val (c'.rgbIn.r x' y')| ≤ d)
    (hg : |val (c.rgbIn.g x y) - val (c'.rgbIn.g x' y')| ≤ d)
    (hb : |val (c.rgbIn.b x y) - val (c'.rgbIn.b x' y')| ≤ d) :
    |val ((c.yuvOut out).y x y) - val ((c'.yuvOut out').y x' y')| ≤ d := by
  have e := (C35_no_truncation (std c.dst_format.color_space) (isByte_val (c.rgbIn.r x y))
    (isByte_val (c.rgbIn.g x y)) (isByte_val (c.rgbIn.b x y)) (isSum4 c.rgbIn.r 0 0)
    (isSum4 c.rgbIn.r 0 0) (isSum4 c.rgbIn.r 0 0)).1
  have e' := (C35_no_truncation (std c.dst_format.color_space) (isByte_val (c'.rgbIn.r x' y'))
    (isByte_val (c'.rgbIn.g x' y')) (isByte_val (c'.rgbIn.b x' y')) (isSum4 c.rgbIn.r 0 0)
    (isSum4 c.rgbIn.r 0 0) (isSum4 c.rgbIn.r 0 0)).1
  rw [C20_luma hv hk ho hp, C20_luma hv' hk' ho' hp', hs, e, e']
  exact luma_step _ hr hg hb

/-- **C98**, 4:4:4 chroma, also where the processors round ties differently. -/
theorem C98_chroma_444 (hv : Valid t c) (hv' : Valid t' c') (hk : c.Encodes) (hk' : c'.Encodes)
    (h4 : c.dst_format.pixel_format = .i444) (h4' : c'.dst_format.pixel_format = .i444)
    (hs : c'.dst_format.color_space = c.dst_format.color_space)
    (ho : Stores t crate cpu c out) (ho' : Stores t' crate cpu' c' out')
    (hp : c.Pixel x y) (hp' : c'.Pixel x' y') {d : ℤ} (hd : 1 ≤ d)
    (hr : |val (c.rgbIn.r x y) - val (c'.rgbIn.r x' y')| ≤ d)
    (hg : |val (c.rgbIn.g x y) - val (c'.rgbIn.g x' y')| ≤ d)
    (hb : |val (c.rgbIn.b x y) - val (c'.rgbIn.b x' y')| ≤ d) :
    |val ((c.yuvOut out).cb x y) - val ((c'.yuvOut out').cb x' y')| ≤ d ∧
    |val ((c.yuvOut out).cr x y) - val ((c'.yuvOut out').cr x' y')| ≤ d := by
  have key : ∀ {t : Target} {cpu : Cpu} {c : Call} {out : List Buf} {x y : Nat}, Valid t c → c.Encodes →
      c.dst_format.pixel_format = .i444 → Stores t crate cpu c out → c.Pixel x y →
      |65536 * (val ((c.yuvOut out).cb x y) - 128) - dot (cbCoef (std c.dst_format.color_space))
        (val (c.rgbIn.r x y)) (val (c.rgbIn.g x y)) (val (c.rgbIn.b x y))| ≤ 32768 ∧
      |65536 * (val ((c.yuvOut out).cr x y) - 128) - dot (crCoef (std c.dst_format.color_space))
        (val (c.rgbIn.r x y)) (val (c.rgbIn.g x y)) (val (c.rgbIn.b x y))| ≤ 32768 := by
    intro t cpu c out x y hv hk h4 ho hp
    have br := isByte_val (c.rgbIn.r x y)
    have bg := isByte_val (c.rgbIn.g x y)
    have bb := isByte_val (c.rgbIn.b x y)
    have z := isSum4 c.rgbIn.r 0 0
    obtain ⟨-, e2, e3, -, -⟩ := C35_no_truncation (std c.dst_format.color_space) br bg bb z z z
    obtain ⟨⟨k2, k3, -, -⟩, -⟩ := C35_ties (std c.dst_format.color_space) br bg bb z z z
    obtain ⟨q2, q3⟩ := C22_chroma_444_ties hv hk h4 ho hp
    refine ⟨cb_half _ br bg bb ?_, cr_half _ br bg bb ?_⟩
    · rcases q2 with q | q <;> rw [q]
      · exact .inl e2
      · exact .inr (val_byte k2)
    · rcases q3 with q | q <;> rw [q]
      · exact .inl e3
      · exact .inr (val_byte k3)
  obtain ⟨a1, a2⟩ := key hv hk h4 ho hp
  obtain ⟨b1, b2⟩ := key hv' hk' h4' ho' hp'
  rw [hs] at b1 b2
  obtain ⟨q1, q2⟩ := dot_step (std c.dst_format.color_space) hr hg hb
  exact ⟨step_of_half hd (.inl rfl) a1 b1 (by norm_num; exact q1),
    step_of_half hd (.inl rfl) a2 b2 (by norm_num; exact q2)⟩

/-- **C98**, 4:2:0 chroma: two blocks whose average colours differ by at most `d`. -/
theorem C98_chroma_420 (hv : Valid t c) (hv' : Valid t' c') (hk : c.Encodes) (hk' : c'.Encodes)
    (h4 : c.dst_format.pixel_format = .i420 ∨ c.dst_format.pixel_format = .nv12)
    (h4' : c'.dst_format.pixel_format = .i420 ∨ c'.dst_format.pixel_format = .nv12)
    (hs : c'.dst_format.color_space = c.dst_format.color_space)
    (ho : Stores t crate cpu c out) (ho' : Stores t' crate cpu' c' out')
    (hp : c.Pixel x y) (hp' : c'.Pixel x' y') {d : ℤ} (hd : 1 ≤ d)
    (hr : |sum4 c.rgbIn.r (x / 2) (y / 2) - sum4 c'.rgbIn.r (x' / 2) (y' / 2)| ≤ 4 * d)
    (hg : |sum4 c.rgbIn.g (x / 2) (y / 2) - sum4 c'.rgbIn.g (x' / 2) (y' / 2)| ≤ 4 * d)
    (hb : |sum4 c.rgbIn.b (x / 2) (y / 2) - sum4 c'.rgbIn.b (x' / 2) (y' / 2)| ≤ 4 * d) :
    |val ((c.yuvOut out).cb x y) - val ((c'.yuvOut out').cb x' y')| ≤ d ∧
    |val ((c.yuvOut out).cr x y) - val ((c'.yuvOut out').cr x' y')| ≤ d := by
  have key : ∀ {t : Target} {cpu : Cpu} {c : Call} {out : List Buf} {x y : Nat}, Valid t c → c.Encodes →
      (c.dst_format.pixel_format = .i420 ∨ c.dst_format.pixel_format = .nv12) →
      Stores t crate cpu c out → c.Pixel x y →
      |262144 * (val ((c.yuvOut out).cb x y) - 128) - dot (cbCoef (std c.dst_format.color_space))
        (sum4 c.rgbIn.r (x / 2) (y / 2)) (sum4 c.rgbIn.g (x / 2) (y / 2))
        (sum4 c.rgbIn.b (x / 2) (y / 2))| ≤ 131072 ∧
      |262144 * (val ((c.yuvOut out).cr x y) - 128) - dot (crCoef (std c.dst_format.color_space))
        (sum4 c.rgbIn.r (x / 2) (y / 2)) (sum4 c.rgbIn.g (x / 2) (y / 2))
        (sum4 c.rgbIn.b (x / 2) (y / 2))| ≤ 131072 := by
    intro t cpu c out x y hv hk h4 ho hp
    have z := isByte_val (c.rgbIn.r x y)
    have br := isSum4 c.rgbIn.r (x / 2) (y / 2)
    have bg := isSum4 c.rgbIn.g (x / 2) (y / 2)
    have bb := isSum4 c.rgbIn.b (x / 2) (y / 2)
    obtain ⟨-, -, -, e2, e3⟩ := C35_no_truncation (std c.dst_format.color_space) z z z br bg bb
    obtain ⟨⟨-, -, k2, k3⟩, -⟩ := C35_ties (std c.dst_format.color_space) z z z br bg bb
    obtain ⟨q2, q3⟩ := C21_chroma_420_ties hv hk h4 ho hp
    refine ⟨cbAvg_half _ br bg bb ?_, crAvg_half _ br bg bb ?_⟩
    · rcases q2 with q | q <;> rw [q]
      · exact .inl e2
      · exact .inr (val_byte k2)
    · rcases q3 with q | q <;> rw [q]
      · exact .inl e3
      · exact .inr (val_byte k3)
  obtain ⟨a1, a2⟩ := key hv hk h4 ho hp
  obtain ⟨b1, b2⟩ := key hv' hk' h4' ho' hp'
  rw [hs] at b1 b2
  obtain ⟨q1, q2⟩ := dot_step (std c.dst_format.color_space) hr hg hb
  exact ⟨step_of_half hd (.inr rfl) a1 b1 (by norm_num; linarith),
    step_of_half hd (.inr rfl) a2 b2 (by norm_num; linarith)⟩

/-- **C98**, decoding: two pixels whose codes differ by at most `d`. Missing: blue above the 16-bit range in
columns converted by x86 vector code, see the counterexample. -/
theorem C98_decode_partial (hv : Valid t c) (hv' : Valid t' c') (hk : c.Decodes) (hk' : c'.Decodes)
    (hs : c'.src_format.color_space = c.src_format.color_space)
    (ho : Stores t crate cpu c out) (ho' : Stores t' crate cpu' c' out')
    (hp : c.Pixel x y) (hp' : c'.Pixel x' y') {d : ℤ}
    (h1 : |val (c.yuvIn.y x y) - val (c'.yuvIn.y x' y')| ≤ d)
    (h2 : |val (c.yuvIn.cb x y) - val (c'.yuvIn.cb x' y')| ≤ d)
    (h3 : |val (c.yuvIn.cr x y) - val (c'.yuvIn.cr x' y')| ≤ d) :
    let s := std c.src_format.color_space
    let V := vectorColumns cpu.set c.src_format.pixel_format c.dst_format.pixel_format c.width.toNat
    let V' := vectorColumns cpu'.set c'.src_format.pixel_format c'.dst_format.pixel_format
      c'.width.toNat
    |val ((c.rgbOut out).r x y) - val ((c'.rgbOut out').r x' y')| ≤ 3 * d ∧
    |val ((c.rgbOut out).g x y) - val ((c'.rgbOut out').g x' y')| ≤ stepG s * d ∧
    (¬ (x < V ∧ blueFix s (val (c.yuvIn.y x y)) (val (c.yuvIn.cb x y)) > 32767) →
      ¬ (x' < V' ∧ blueFix s (val (c'.yuvIn.y x' y')) (val (c'.yuvIn.cb x' y')) > 32767) →
      |val ((c.rgbOut out).b x y) - val ((c'.rgbOut out').b x' y')| ≤ stepB s * d) := by
  intro s V V'
  obtain ⟨a1, a2, a3⟩ := C46_exact hv hk ho hp
  obtain ⟨b1, b2, b3⟩ := C46_exact hv' hk' ho' hp'
  rw [hs] at b1 b2 b3
  have e : ∀ v, val (byte (clamp v)) = clamp v := fun v => val_byte (isByte_clamp v)
  refine ⟨?_, ?_, fun n n' => ?_⟩
  · rw [a1, b1, red, red, e, e]
    exact red_step _ h1 h3
  · rw [a2, b2, green, green, e, e]
    exact green_step _ h1 h2 h3
  · rw [a3, b3, if_neg n, if_neg n', blue, blue, e, e]
    exact blue_step _ h1 h2

/-- The factors of decoding cannot be smaller: codes that differ by one. -/
theorem C98_attained (s : Std) :
    (∃ y v : ℤ, IsByte y ∧ IsByte (y + 1) ∧ IsByte v ∧ IsByte (v + 1) ∧
      red s (y + 1) (v + 1) - red s y v = 3) ∧
    (∃ y u v : ℤ, IsByte y ∧ IsByte (y + 1) ∧ IsByte u ∧ IsByte (u - 1) ∧ IsByte v ∧ IsByte (v - 1) ∧
      green s (y + 1) (u - 1) (v - 1) - green s y u v = stepG s) ∧
    ∃ y u : ℤ, IsByte y ∧ IsByte (y + 1) ∧ IsByte u ∧ IsByte (u + 1) ∧
      blue s (y + 1) (u + 1) - blue s y u = stepB s := by
  unfold IsByte
  cases s
  · exact ⟨⟨0, 141, by decide⟩, ⟨0, 1, 1, by decide⟩, 0, 184, by decide⟩
  · exact ⟨⟨0, 139, by decide⟩, ⟨0, 1, 1, by decide⟩, 0, 137, by decide⟩
  · exact ⟨⟨0, 128, by decide⟩, ⟨0, 21, 1, by decide⟩, 0, 127, by decide⟩
  · exact ⟨⟨0, 127, by decide⟩, ⟨0, 2, 1, by decide⟩, 0, 127, by decide⟩

/-- A line of 8 I444 pixels of one colour, decoded as limited-range BT.709. -/
def exPlain (y u v : UInt8) : Call where
  width := 8
  height := 1
  src_format := ⟨.i444, .bt709, 3⟩
  src_strides := none
  src_buffers := [⟨8, fun _ => y⟩, ⟨8, fun _ => u⟩, ⟨8, fun _ => v⟩]
  dst_format := ⟨.bgra, .rgb, 1⟩
  dst_strides := none
  dst_buffers := [noise 32 2]

theorem exPlain_valid (y u v : UInt8) : Valid .x64 (exPlain y u v) := valid_of_check rfl

/-- False without the exception: on SSE2 bright blue turns into yellow when luma and Cb grow by one. -/
theorem C98_counterexample {out out' : List Buf} (ho : Stores .x64 crate sse2Cpu (exPlain 235 248 128) out)
    (ho' : Stores .x64 crate sse2Cpu (exPlain 236 249 128) out') :
    ((exPlain 235 248 128).rgbOut out).b 0 0 = 255 ∧ ((exPlain 236 249 128).rgbOut out').b 0 0 = 0 := by
  have hk (y u v : UInt8) : (exPlain y u v).Decodes := ⟨rfl, rfl⟩
  have a := (C46_exact (x := 0) (y := 0) (exPlain_valid _ _ _) (hk _ _ _) ho ⟨by decide, by decide⟩).2.2
  have b := (C46_exact (x := 0) (y := 0) (exPlain_valid _ _ _) (hk _ _ _) ho' ⟨by decide, by decide⟩).2.2
  rw [a, b]
  decide

/-- Both calls succeed. Red does not jump. -/
example : ∃ out out', Stores .x64 crate sse2Cpu (exPlain 235 248 128) out ∧
    Stores .x64 crate sse2Cpu (exPlain 236 249 128) out' ∧
    |val (((exPlain 235 248 128).rgbOut out).r 0 0) - val (((exPlain 236 249 128).rgbOut out').r 0 0)| ≤
      3 * 1 := by
  obtain ⟨out, ho⟩ := valid_stores (cpu := sse2Cpu) (exPlain_valid 235 248 128) (.of_ne (by decide))
  obtain ⟨out', ho'⟩ := valid_stores (cpu := sse2Cpu) (exPlain_valid 236 249 128) (.of_ne (by decide))
  exact ⟨out, out', ho, ho', (C98_decode_partial (x := 0) (y := 0) (x' := 0) (y' := 0)
    (exPlain_valid 235 248 128) (exPlain_valid 236 249 128) ⟨rfl, rfl⟩ ⟨rfl, rfl⟩ rfl ho ho' ⟨by decide, by decide⟩
    ⟨by decide, by decide⟩ (by decide) (by decide) (by decide)).1⟩

/-- Two pixels of an image encoded with NEON: colours that differ by 43 get codes that differ by at most
43. -/
example {out : List Buf} (ho : Stores .x64 crate neonCpu exEncode444 out) :
    |val ((exEncode444.yuvOut out).cb 0 0) - val ((exEncode444.yuvOut out).cb 2 1)| ≤ 43 :=
  (C98_chroma_444 exEncode444_valid exEncode444_valid (by decide) (by decide) rfl rfl rfl ho ho
    ⟨by decide, by decide⟩ ⟨by decide, by decide⟩ (by decide) (by decide +kernel) (by decide +kernel)
    (by decide +kernel)).1

end Verif
