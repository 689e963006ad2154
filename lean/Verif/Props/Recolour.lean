import Verif.Spec.Recolour
import Verif.Props.Transcode
/-!
# C105: changing the colour space by way of RGB

The library has no conversion between two YCbCr colour spaces. A program that needs one (BT.601 to
BT.709, limited to full range) decodes to RGB and encodes the result in the other colour space.
-/

namespace Verif

open Spec

/-- `c'` encodes, in any colour space, the RGB image that `c` stored. -/
structure Recolours (c c' : Call) (out : List Buf) : Prop where
  width : c'.width = c.width
  height : c'.height = c.height
  pixels : ∀ x y, c.Pixel x y → RgbAt (c.rgbOut out) c'.rgbIn x y

theorem Recolours.pixel {c c' : Call} {out : List Buf} (h : Recolours c c' out) {x y : Nat}
    (hp : c.Pixel x y) : c'.Pixel x y := by
  unfold Call.Pixel at *; rw [h.width, h.height]; exact hp

/-- Error of red and blue after decoding. -/
def devR (s : Std) : ℚ := if s.fullRange then 2.4 else 0.54

/-- Error of green after decoding. -/
def devG (s : Std) : ℚ := if s.fullRange then 1.6 else 0.54

/-- Colours that are close have close codes. -/
theorem codeOf_close (s s' : Std) {r g b : ℚ} {p : ℚ × ℚ × ℚ} (hr : |r - p.1| ≤ devR s)
    (hg : |g - p.2.1| ≤ devG s) (hb : |b - p.2.2| ≤ devR s) :
    |idealY s' r g b - (codeOf s' p).1| ≤ recolourY s s' - 0.504 ∧
    |idealCb s' r g b - (codeOf s' p).2.1| ≤ recolourC s s' - 0.51 ∧
    |idealCr s' r g b - (codeOf s' p).2.2| ≤ recolourC s s' - 0.51 := by
  obtain ⟨p1, p2, p3⟩ := p
  rw [abs_le] at *
  obtain ⟨r1, r2⟩ := hr
  obtain ⟨g1, g2⟩ := hg
  obtain ⟨b1, b2⟩ := hb
  simp only [abs_le]
  cases s <;> cases s' <;>
  simp only [devR, devG, recolourY, recolourC, codeOf, idealY, idealCb, idealCr, lumaSignal, yScale,
    cScale, lumaOffset, Kr, Kb, Kg, Std.fullRange] at * <;> norm_num at * <;>
  refine ⟨⟨?_, ?_⟩, ⟨?_, ?_⟩, ?_, ?_⟩ <;> linarith

variable {t : Target} {cpu cpu' : Cpu} {c c' : Call} {out out' : List Buf}

/-- The exact colour of a pixel of the source, limited to the range of RGB. -/
def Call.shownAt (c : Call) (x y : Nat) : ℚ × ℚ × ℚ :=
  shown (std c.src_format.color_space) (val (c.yuvIn.y x y)) (val (c.yuvIn.cb x y))
    (val (c.yuvIn.cr x y))

/-- The decoded pixel is close to the exact colour. -/
theorem shown_close (hv : Valid t c) (hk : c.Decodes) (ho : Stores t crate cpu c out)
    (hc : Recolours c c' out) {x y : Nat} (hp : c.Pixel x y)
    (hb : cpu.set = .x86 ∨ cpu.set = .neon ∨ idealB (std c.src_format.color_space)
      (val (c.yuvIn.y x y)) (val (c.yuvIn.cb x y)) ≤ 255) :
    |val (c'.rgbIn.r x y) - (c.shownAt x y).1| ≤ devR (std c.src_format.color_space) ∧
    |val (c'.rgbIn.g x y) - (c.shownAt x y).2.1| ≤ devG (std c.src_format.color_space) ∧
    |val (c'.rgbIn.b x y) - (c.shownAt x y).2.2| ≤ devR (std c.src_format.color_space) := by
  obtain ⟨p1, p2, p3⟩ := hc.pixels x y hp
  rw [← p1, ← p2, ← p3]
  have hb' : cpu.set = .x86 ∨ cpu.set = .neon ∨ blueFix (std c.src_format.color_space)
      (val (c.yuvIn.y x y)) (val (c.yuvIn.cb x y)) ≤ 32767 :=
    hb.imp_right (·.imp_right (gamut_blue _ (isByte_val _) (isByte_val _)))
  unfold Call.shownAt shown devR devG
  cases hs : (std c.src_format.color_space).fullRange
  · exact C38_stored_partial hv hk hs ho hp hb'
  · exact C38_stored_full_range_partial hv hk ho hp hb'

theorem close_trans {a b d p q : ℚ} (h1 : |a - b| ≤ p) (h2 : |b - d| ≤ q - p) : |a - d| ≤ q := by
  rw [abs_le] at *; constructor <;> linarith [h1.1, h1.2, h2.1, h2.2]

/-- C105: a YCbCr image of any colour space that is decoded to RGB and encoded to I444 in any colour
space, on any two processors, has samples close to the exact code, in the new colour space, of the
colour that the source shows. Between limited-range spaces the error is less than one. On SSE2 and
AVX2 this holds for codes whose exact blue is at most 255. -/
theorem C105_recolour_444 (hv : Valid t c) (hv' : Valid t c') (hk : c.Decodes) (hk' : c'.Encodes)
    (hd : c'.dst_format.pixel_format = .i444)
    (ho : Stores t crate cpu c out) (ho' : Stores t crate cpu' c' out') (hc : Recolours c c' out)
    {x y : Nat} (hp : c.Pixel x y)
    (hb : cpu.set = .x86 ∨ cpu.set = .neon ∨ idealB (std c.src_format.color_space)
      (val (c.yuvIn.y x y)) (val (c.yuvIn.cb x y)) ≤ 255) :
    let s := std c.src_format.color_space
    let s' := std c'.dst_format.color_space
    let e := codeOf s' (shown s (val (c.yuvIn.y x y)) (val (c.yuvIn.cb x y)) (val (c.yuvIn.cr x y)))
    |val ((c'.yuvOut out').y x y) - e.1| ≤ recolourY s s' ∧
    |val ((c'.yuvOut out').cb x y) - e.2.1| ≤ recolourC s s' ∧
    |val ((c'.yuvOut out').cr x y) - e.2.2| ≤ recolourC s s' := by
  intro s s' e
  obtain ⟨d1, d2, d3⟩ := shown_close hv hk ho hc hp hb
  obtain ⟨i1, i2, i3⟩ := codeOf_close s s' d1 d2 d3
  obtain ⟨a1, a2, a3⟩ := C36_forward_accuracy_444 hv' hk' hd ho' (hc.pixel hp)
  exact ⟨close_trans a1 i1, close_trans a2 i2, close_trans a3 i3⟩

/-- C105 for I420 and Nv12: luma as in I444; the chroma of a block is close to the exact chroma of
the average of the four colours that the source shows in the block. -/
theorem C105_recolour_420 (hv : Valid t c) (hv' : Valid t c') (hk : c.Decodes) (hk' : c'.Encodes)
    (hd : c'.dst_format.pixel_format = .i420 ∨ c'.dst_format.pixel_format = .nv12)
    (ho : Stores t crate cpu c out) (ho' : Stores t crate cpu' c' out') (hc : Recolours c c' out)
    {x y : Nat} (hp : c.Pixel x y)
    (hb : cpu.set = .x86 ∨ cpu.set = .neon ∨ ∀ x' y', x' / 2 = x / 2 → y' / 2 = y / 2 →
      idealB (std c.src_format.color_space) (val (c.yuvIn.y x' y')) (val (c.yuvIn.cb x' y')) ≤ 255) :
    let s := std c.src_format.color_space
    let s' := std c'.dst_format.color_space
    let p := fun x y => shown s (val (c.yuvIn.y x y)) (val (c.yuvIn.cb x y)) (val (c.yuvIn.cr x y))
    let m := (mean4 (fun i j => (p i j).1) x y, mean4 (fun i j => (p i j).2.1) x y,
      mean4 (fun i j => (p i j).2.2) x y)
    |val ((c'.yuvOut out').y x y) - (codeOf s' (p x y)).1| ≤ recolourY s s' ∧
    |val ((c'.yuvOut out').cb x y) - (codeOf s' m).2.1| ≤ recolourC s s' ∧
    |val ((c'.yuvOut out').cr x y) - (codeOf s' m).2.2| ≤ recolourC s s' := by
  intro s s' p m
  have heven : c.width.toNat % 2 = 0 ∧ c.height.toNat % 2 = 0 := by
    have := hv'.dst_legal.size
    rw [hc.width, hc.height] at this
    rcases hd with e | e <;> rw [e] at this <;> exact this
  have hpx : ∀ x' y', x' / 2 = x / 2 → y' / 2 = y / 2 → c.Pixel x' y' := by
    intro x' y' h1 h2
    have h3 := hp.1
    have h4 := hp.2
    exact ⟨by omega, by omega⟩
  have key : ∀ x' y', x' / 2 = x / 2 → y' / 2 = y / 2 → _ := fun x' y' h1 h2 =>
    shown_close hv hk ho hc (hpx x' y' h1 h2)
      (hb.imp_right (·.imp_right fun h => h x' y' h1 h2))
  obtain ⟨a1, a2, a3⟩ := C36_forward_accuracy_420 hv' hk' hd ho' (hc.pixel hp)
  obtain ⟨d1, d2, d3⟩ := key x y rfl rfl
  refine ⟨close_trans a1 (codeOf_close s s' d1 d2 d3).1, ?_⟩
  obtain ⟨r₀, g₀, b₀⟩ := key (2 * (x / 2)) (2 * (y / 2)) (by omega) (by omega)
  obtain ⟨r₁, g₁, b₁⟩ := key (2 * (x / 2) + 1) (2 * (y / 2)) (by omega) (by omega)
  obtain ⟨r₂, g₂, b₂⟩ := key (2 * (x / 2)) (2 * (y / 2) + 1) (by omega) (by omega)
  obtain ⟨r₃, g₃, b₃⟩ := key (2 * (x / 2) + 1) (2 * (y / 2) + 1) (by omega) (by omega)
  obtain ⟨-, i2, i3⟩ := codeOf_close s s' (p := m) (avg_close r₀ r₁ r₂ r₃) (avg_close g₀ g₁ g₂ g₃)
    (avg_close b₀ b₁ b₂ b₃)
  rw [sum4_cast, sum4_cast, sum4_cast] at a2 a3
  exact ⟨close_trans a2 i2, close_trans a3 i3⟩

/-! ## Concrete cases -/

/-- A 2x2 I444 image of one light green. -/
def exGreen : Call where
  width := 2
  height := 2
  src_format := ⟨.i444, .bt601, 3⟩
  src_strides := none
  src_buffers := [⟨4, fun _ => 204⟩, ⟨4, fun _ => 48⟩, ⟨4, fun _ => 124⟩]
  dst_format := ⟨.bgra, .rgb, 1⟩
  dst_strides := none
  dst_buffers := [noise 16 5]

theorem exGreen_valid : Valid .x64 exGreen := valid_of_check (by decide +kernel)

theorem exGreen_again (set : InstructionSet) (pf : PixelFormat) (h : pf = .i444 ∨ pf = .nv12) :
    Valid .x64 (exAgain .bt709 pf ((semOf set).out exGreen)) := by
  rcases h with rfl | rfl <;> cases set <;> exact valid_of_check (by decide +kernel)

/-- The colour is one of the RGB cube, and its exact luma in Bt709 is 214.08. -/
theorem exGreen_code : idealB .bt601 204 48 ≤ 255 ∧
    (codeOf .bt709 (shown .bt601 204 48 124)).1 = 2513249076411 / 11740000000 := by
  norm_num [codeOf, shown, clampQ, idealR, idealG, idealB, idealY, signalY, lumaSignal, yScale,
    cScale, lumaOffset, Kr, Kb, Kg, Std.fullRange]

/-- The hypotheses of C105 are met: Bt601 to Bt709, in I444 and in Nv12, on any two processors. -/
example (cpu cpu' : Cpu) (pf : PixelFormat) (h : pf = .i444 ∨ pf = .nv12) :
    ∃ out out', Stores .x64 crate cpu exGreen out ∧
    Stores .x64 crate cpu' (exAgain .bt709 pf out) out' ∧
    Recolours exGreen (exAgain .bt709 pf out) out ∧
    Valid .x64 exGreen ∧ Valid .x64 (exAgain .bt709 pf out) ∧
    exGreen.Decodes ∧ (exAgain .bt709 pf out).Encodes ∧ exGreen.Pixel 1 1 ∧
    ∀ x y, idealB .bt601 (val (exGreen.yuvIn.y x y)) (val (exGreen.yuvIn.cb x y)) ≤ 255 :=
  ⟨_, _, (Runs.crate exGreen_valid (.of_ne (by decide))).stores,
    (Runs.crate (exGreen_again cpu.set pf h) (.of_ne fun e => by cases e)).stores,
    ⟨rfl, rfl, fun _ _ _ => ⟨rfl, rfl, rfl⟩⟩, exGreen_valid, exGreen_again cpu.set pf h, ⟨rfl, rfl⟩,
    by rcases h with rfl | rfl <;> exact ⟨rfl, rfl⟩, by unfold Call.Pixel; decide,
    fun _ _ => exGreen_code.1⟩

/-- The bound of C105 cannot be improved to one half: a sample is not always the nearest to the exact
value. Every pair of processors stores 215 for the luma 214.08 of the light green. -/
theorem C105_not_nearest (cpu cpu' : Cpu) : ∃ out out', Stores .x64 crate cpu exGreen out ∧
    Recolours exGreen (exAgain .bt709 .i444 out) out ∧
    Stores .x64 crate cpu' (exAgain .bt709 .i444 out) out' ∧
    val (((exAgain .bt709 .i444 out).yuvOut out').y 1 1) = 215 ∧
    |215 - (codeOf .bt709 (shown .bt601 204 48 124)).1| > 0.92 := by
  have h1 := (Runs.crate (cpu := cpu) exGreen_valid (.of_ne (by decide))).stores
  have hv' := exGreen_again cpu.set .i444 (.inl rfl)
  have h2 := (Runs.crate (cpu := cpu') hv' (.of_ne fun e => by cases e)).stores
  refine ⟨_, _, h1, ⟨rfl, rfl, fun _ _ _ => ⟨rfl, rfl, rfl⟩⟩, h2, ?_, ?_⟩
  · obtain ⟨d1, d2, d3⟩ := C23_decode_partial exGreen_valid ⟨rfl, rfl⟩ h1 (x := 1) (y := 1)
      ⟨by decide, by decide⟩ (.inr (.inr (by decide +kernel)))
    rw [C20_luma hv' ⟨rfl, rfl⟩ h2 (x := 1) (y := 1) ⟨Nat.one_lt_two, Nat.one_lt_two⟩]
    have e : ∀ x y, (exAgain .bt709 .i444 ((semOf cpu.set).out exGreen)).rgbIn.r x y =
        (exGreen.rgbOut ((semOf cpu.set).out exGreen)).r x y ∧
        (exAgain .bt709 .i444 ((semOf cpu.set).out exGreen)).rgbIn.g x y =
        (exGreen.rgbOut ((semOf cpu.set).out exGreen)).g x y ∧
        (exAgain .bt709 .i444 ((semOf cpu.set).out exGreen)).rgbIn.b x y =
        (exGreen.rgbOut ((semOf cpu.set).out exGreen)).b x y := fun _ _ => ⟨rfl, rfl, rfl⟩
    rw [(e 1 1).1, (e 1 1).2.1, (e 1 1).2.2, d1, d2, d3]
    exact (by decide +kernel : val (byte (luma .bt709 (val (byte (red .bt601 204 124)))
      (val (byte (green .bt601 204 48 124))) (val (byte (blue .bt601 204 48))))) = 215)
  · rw [exGreen_code.2]
    norm_num [abs_of_pos]

end Verif
