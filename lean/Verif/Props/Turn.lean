import Verif.Spec.Turn
import Verif.Props.Uniform
/-!
# C96: turned images are converted to turned images

Mirroring, flipping, transposing or rotating a picture and then converting it gives the same as
converting it first. The two calls may use different pixel formats, strides, targets and processors.
The exceptions are those of C46 and C51: columns converted by vector code.
-/

namespace Verif
open Spec

theorem Turn.from_lt (τ : Turn) {w h x y : Nat} (hx : x < (τ.size w h).1) (hy : y < (τ.size w h).2) :
    (τ.from w h x y).1 < w ∧ (τ.from w h x y).2 < h := by
  obtain ⟨s, m, f⟩ := τ
  cases s <;> cases m <;> cases f <;> simp [Turn.size, Turn.from] at * <;> omega

theorem mirror_block {w x : Nat} (hw : w % 2 = 0) (hx : x < w) :
    w - 1 - 2 * (x / 2) = 2 * ((w - 1 - x) / 2) + 1 ∧
    w - 1 - (2 * (x / 2) + 1) = 2 * ((w - 1 - x) / 2) := by omega

/-- Turning a picture of even size moves blocks to blocks. -/
theorem turned_sum4 {τ : Turn} {w h : Nat} {P P' : Plane} (hP : Turned τ w h P P')
    (hw : w % 2 = 0) (hh : h % 2 = 0) {x y : Nat} (hx : x < (τ.size w h).1)
    (hy : y < (τ.size w h).2) :
    Spec.sum4 P' (x / 2) (y / 2) =
      Spec.sum4 P ((τ.from w h x y).1 / 2) ((τ.from w h x y).2 / 2) := by
  have e : (τ.size w h).1 % 2 = 0 ∧ (τ.size w h).2 % 2 = 0 := by
    unfold Turn.size; split <;> simp [hw, hh]
  have h00 := hP (2 * (x / 2)) (2 * (y / 2)) (by omega) (by omega)
  have h10 := hP (2 * (x / 2) + 1) (2 * (y / 2)) (by omega) (by omega)
  have h01 := hP (2 * (x / 2)) (2 * (y / 2) + 1) (by omega) (by omega)
  have h11 := hP (2 * (x / 2) + 1) (2 * (y / 2) + 1) (by omega) (by omega)
  simp only [Spec.sum4, h00, h10, h01, h11]
  obtain ⟨s, m, f⟩ := τ
  cases s <;> simp only [Turn.size, Turn.from, if_true, if_false, Bool.false_eq_true] at hx hy ⊢
  · obtain ⟨a1, a2⟩ := mirror_block hw hx
    obtain ⟨b1, b2⟩ := mirror_block hh hy
    cases m <;> cases f <;> simp only [if_true, if_false, Bool.false_eq_true, a1, a2, b1, b2] <;> omega
  · obtain ⟨a1, a2⟩ := mirror_block hw hy
    obtain ⟨b1, b2⟩ := mirror_block hh hx
    cases m <;> cases f <;> simp only [if_true, if_false, Bool.false_eq_true, a1, a2, b1, b2] <;> omega

/-- The call `c'` is for a picture of the turned size, and has the colour spaces of `c`. -/
structure TurnedCall (τ : Turn) (c c' : Call) : Prop where
  width : c'.width.toNat = (τ.size c.width.toNat c.height.toNat).1
  height : c'.height.toNat = (τ.size c.width.toNat c.height.toNat).2
  src_space : c'.src_format.color_space = c.src_format.color_space
  dst_space : c'.dst_format.color_space = c.dst_format.color_space

variable {τ : Turn} {t t' : Target} {cpu cpu' : Cpu} {c c' : Call} {out out' : List Buf}

theorem TurnedCall.pixels (hc : TurnedCall τ c c') {x y : Nat}
    (hx : x < (τ.size c.width.toNat c.height.toNat).1)
    (hy : y < (τ.size c.width.toNat c.height.toNat).2) :
    c'.Pixel x y ∧ c.Pixel (τ.from c.width.toNat c.height.toNat x y).1
      (τ.from c.width.toNat c.height.toNat x y).2 := by
  have h := Turn.from_lt τ hx hy
  refine ⟨⟨?_, ?_⟩, ⟨h.1, h.2⟩⟩
  · rw [hc.width]; exact hx
  · rw [hc.height]; exact hy

/-- The destination has subsampled chroma. -/
theorem Valid.even (hv : Valid t c)
    (hd : c.dst_format.pixel_format = .i420 ∨ c.dst_format.pixel_format = .nv12) :
    c.width.toNat % 2 = 0 ∧ c.height.toNat % 2 = 0 := by
  have h := hv.dst_legal.size
  rcases hd with hd | hd <;> rw [hd] at h <;> exact h

/-- C96, conversions between RGB formats: the turned picture comes out turned, on every processor. -/
theorem C96_shuffle (hv : Valid t c) (hv' : Valid t' c') (hk : c.Shuffles) (hk' : c'.Shuffles)
    (hc : TurnedCall τ c c')
    (hi : TurnedRgb τ c.width.toNat c.height.toNat c.rgbIn c'.rgbIn)
    (ho : Stores t crate cpu c out) (ho' : Stores t' crate cpu' c' out') :
    TurnedRgb τ c.width.toNat c.height.toNat (c.rgbOut out) (c'.rgbOut out') := by
  have hr := Runs.crate hv (ho.room hv)
  have hr' := Runs.crate hv' (ho'.room hv')
  rw [hr.out_eq ho, hr'.out_eq ho']
  refine ⟨?_, ?_, ?_⟩ <;> intro x y hx hy
  all_goals
    obtain ⟨p', p⟩ := hc.pixels hx hy
    obtain ⟨a1, a2, a3⟩ := hr.shuffle hk p
    obtain ⟨b1, b2, b3⟩ := hr'.shuffle hk' p'
  · rw [a1, b1]; exact hi.1 x y hx hy
  · rw [a2, b2]; exact hi.2.1 x y hx hy
  · rw [a3, b3]; exact hi.2.2 x y hx hy

/-- C96, luma: on every processor. -/
theorem C96_luma (hv : Valid t c) (hv' : Valid t' c') (hk : c.Encodes) (hk' : c'.Encodes)
    (hc : TurnedCall τ c c')
    (hi : TurnedRgb τ c.width.toNat c.height.toNat c.rgbIn c'.rgbIn)
    (ho : Stores t crate cpu c out) (ho' : Stores t' crate cpu' c' out') :
    Turned τ c.width.toNat c.height.toNat (c.yuvOut out).y (c'.yuvOut out').y := by
  intro x y hx hy
  obtain ⟨p', p⟩ := hc.pixels hx hy
  rw [C20_luma hv hk ho p, C20_luma hv' hk' ho' p', hi.1 x y hx hy, hi.2.1 x y hx hy,
    hi.2.2 x y hx hy, hc.dst_space]

/-- C96, encoding, on processors without NEON: the whole image is turned. Both destinations have 4:4:4
chroma, or both have 4:2:0 chroma. Missing:
NEON, see `C96_chroma_444_neon` and `C96_chroma_420_neon`. -/
theorem C96_encode_partial (hv : Valid t c) (hv' : Valid t' c') (hk : c.Encodes) (hk' : c'.Encodes)
    (hc : TurnedCall τ c c')
    (h4 : c'.dst_format.pixel_format = .i444 ↔ c.dst_format.pixel_format = .i444)
    (hi : TurnedRgb τ c.width.toNat c.height.toNat c.rgbIn c'.rgbIn)
    (hn : cpu.set ≠ .neon) (hn' : cpu'.set ≠ .neon)
    (ho : Stores t crate cpu c out) (ho' : Stores t' crate cpu' c' out') :
    TurnedYuv τ c.width.toNat c.height.toNat (c.yuvOut out) (c'.yuvOut out') := by
  refine ⟨C96_luma hv hv' hk hk' hc hi ho ho', ?_⟩
  by_cases h : c.dst_format.pixel_format = .i444
  · refine ⟨?_, ?_⟩ <;> intro x y hx hy
    all_goals
      obtain ⟨p', p⟩ := hc.pixels hx hy
      obtain ⟨a1, a2⟩ := C22_chroma_444_partial hv hk hn h ho p
      obtain ⟨b1, b2⟩ := C22_chroma_444_partial hv' hk' hn' (h4.2 h) ho' p'
    · rw [a1, b1, hi.1 x y hx hy, hi.2.1 x y hx hy, hi.2.2 x y hx hy, hc.dst_space]
    · rw [a2, b2, hi.1 x y hx hy, hi.2.1 x y hx hy, hi.2.2 x y hx hy, hc.dst_space]
  · have hd := hk.subsampled hv h
    have hd' := hk'.subsampled hv' (fun e => h (h4.1 e))
    obtain ⟨ew, eh⟩ := Valid.even hv hd
    refine ⟨?_, ?_⟩ <;> intro x y hx hy
    all_goals
      obtain ⟨p', p⟩ := hc.pixels hx hy
      obtain ⟨a1, a2⟩ := C21_chroma_420_partial hv hk hn hd ho p
      obtain ⟨b1, b2⟩ := C21_chroma_420_partial hv' hk' hn' hd' ho' p'
    · rw [a1, b1, turned_sum4 hi.1 ew eh hx hy, turned_sum4 hi.2.1 ew eh hx hy, turned_sum4 hi.2.2 ew eh hx hy,
        hc.dst_space]
    · rw [a2, b2, turned_sum4 hi.1 ew eh hx hy, turned_sum4 hi.2.1 ew eh hx hy, turned_sum4 hi.2.2 ew eh hx hy,
        hc.dst_space]

/-- C96, 4:4:4 chroma with NEON, exactly: a sample differs from that of the other picture if and only
if one of the two, but not the other, is in a column converted by vector code, and it is a tie. -/
theorem C96_chroma_444_neon (hv : Valid t c) (hv' : Valid t' c') (hk : c.Encodes) (hk' : c'.Encodes)
    (hc : TurnedCall τ c c') (hd : c.dst_format.pixel_format = .i444)
    (hd' : c'.dst_format.pixel_format = .i444)
    (hi : TurnedRgb τ c.width.toNat c.height.toNat c.rgbIn c'.rgbIn)
    (hn : cpu.set = .neon) (hn' : cpu'.set = .neon)
    (ho : Stores t crate cpu c out) (ho' : Stores t' crate cpu' c' out') {x y : Nat}
    (hp : c'.Pixel x y) :
    let X := (τ.from c.width.toNat c.height.toNat x y).1
    let Y := (τ.from c.width.toNat c.height.toNat x y).2
    let s := std c.dst_format.color_space
    let r := val (c.rgbIn.r X Y)
    let g := val (c.rgbIn.g X Y)
    let b := val (c.rgbIn.b X Y)
    ((c'.yuvOut out').cb x y = (c.yuvOut out).cb X Y ↔
      ((X < 8 * (c.width.toNat / 8) ↔ x < 8 * (c'.width.toNat / 8)) ∨ cbUp s r g b = cb s r g b)) ∧
    ((c'.yuvOut out').cr x y = (c.yuvOut out).cr X Y ↔
      ((X < 8 * (c.width.toNat / 8) ↔ x < 8 * (c'.width.toNat / 8)) ∨ crUp s r g b = cr s r g b)) := by
  obtain ⟨hx, hy⟩ := hp
  rw [hc.width] at hx
  rw [hc.height] at hy
  obtain ⟨p', p⟩ := hc.pixels hx hy
  obtain ⟨a1, a2⟩ := C22_chroma_444_neon hv hk hn hd ho p
  obtain ⟨b1, b2⟩ := C22_chroma_444_neon hv' hk' hn' hd' ho' p'
  rw [hi.1 x y hx hy, hi.2.1 x y hx hy, hi.2.2 x y hx hy, hc.dst_space] at b1 b2
  simp only
  generalize (τ.from c.width.toNat c.height.toNat x y).1 = X at *
  generalize (τ.from c.width.toNat c.height.toNat x y).2 = Y at *
  have hB := C35_full (std c.dst_format.color_space)
    (isByte_val (c.rgbIn.r X Y)) (isByte_val (c.rgbIn.g X Y))
    (isByte_val (c.rgbIn.b X Y)) (isSum4 c.rgbIn.r 0 0) (isSum4 c.rgbIn.r 0 0)
    (isSum4 c.rgbIn.r 0 0)
  rw [a1, a2, b1, b2]
  exact ⟨pick_iff (isByte_clamp _) hB.2.1, pick_iff (isByte_clamp _) hB.2.2.1⟩

/-- C96, 4:2:0 chroma with NEON, exactly. -/
theorem C96_chroma_420_neon (hv : Valid t c) (hv' : Valid t' c') (hk : c.Encodes) (hk' : c'.Encodes)
    (hc : TurnedCall τ c c')
    (hd : c.dst_format.pixel_format = .i420 ∨ c.dst_format.pixel_format = .nv12)
    (hd' : c'.dst_format.pixel_format = .i420 ∨ c'.dst_format.pixel_format = .nv12)
    (hi : TurnedRgb τ c.width.toNat c.height.toNat c.rgbIn c'.rgbIn)
    (hn : cpu.set = .neon) (hn' : cpu'.set = .neon)
    (ho : Stores t crate cpu c out) (ho' : Stores t' crate cpu' c' out') {x y : Nat}
    (hp : c'.Pixel x y) :
    let X := (τ.from c.width.toNat c.height.toNat x y).1
    let Y := (τ.from c.width.toNat c.height.toNat x y).2
    let s := std c.dst_format.color_space
    let r4 := sum4 c.rgbIn.r (X / 2) (Y / 2)
    let g4 := sum4 c.rgbIn.g (X / 2) (Y / 2)
    let b4 := sum4 c.rgbIn.b (X / 2) (Y / 2)
    ((c'.yuvOut out').cb x y = (c.yuvOut out).cb X Y ↔
      ((X / 2 < 4 * (c.width.toNat / 8) ↔ x / 2 < 4 * (c'.width.toNat / 8)) ∨
        cbAvgUp s r4 g4 b4 = cbAvg s r4 g4 b4)) ∧
    ((c'.yuvOut out').cr x y = (c.yuvOut out).cr X Y ↔
      ((X / 2 < 4 * (c.width.toNat / 8) ↔ x / 2 < 4 * (c'.width.toNat / 8)) ∨
        crAvgUp s r4 g4 b4 = crAvg s r4 g4 b4)) := by
  obtain ⟨hx, hy⟩ := hp
  rw [hc.width] at hx
  rw [hc.height] at hy
  obtain ⟨ew, eh⟩ := Valid.even hv hd
  obtain ⟨p', p⟩ := hc.pixels hx hy
  obtain ⟨a1, a2⟩ := C21_chroma_420_neon hv hk hn hd ho p
  obtain ⟨b1, b2⟩ := C21_chroma_420_neon hv' hk' hn' hd' ho' p'
  rw [turned_sum4 hi.1 ew eh hx hy, turned_sum4 hi.2.1 ew eh hx hy, turned_sum4 hi.2.2 ew eh hx hy,
    hc.dst_space] at b1 b2
  simp only
  generalize (τ.from c.width.toNat c.height.toNat x y).1 = X at *
  generalize (τ.from c.width.toNat c.height.toNat x y).2 = Y at *
  have hB := C35_full (std c.dst_format.color_space)
    (isByte_val 0) (isByte_val 0) (isByte_val 0)
    (isSum4 c.rgbIn.r (X / 2) (Y / 2)) (isSum4 c.rgbIn.g (X / 2) (Y / 2))
    (isSum4 c.rgbIn.b (X / 2) (Y / 2))
  rw [a1, a2, b1, b2]
  exact ⟨pick_iff (isByte_clamp _) hB.2.2.2.1, pick_iff (isByte_clamp _) hB.2.2.2.2⟩

/-- C96, decoding, exactly: red and green are turned, on every processor. Blue is turned but for pixels
whose blue exceeds the 16-bit range, of which one, but not the other, is in a column converted by x86
vector code. -/
theorem C96_decode (hv : Valid t c) (hv' : Valid t' c') (hk : c.Decodes) (hk' : c'.Decodes)
    (hc : TurnedCall τ c c')
    (hi : TurnedYuv τ c.width.toNat c.height.toNat c.yuvIn c'.yuvIn)
    (ho : Stores t crate cpu c out) (ho' : Stores t' crate cpu' c' out') :
    Turned τ c.width.toNat c.height.toNat (c.rgbOut out).r (c'.rgbOut out').r ∧
    Turned τ c.width.toNat c.height.toNat (c.rgbOut out).g (c'.rgbOut out').g ∧
    ∀ x y, c'.Pixel x y →
      let X := (τ.from c.width.toNat c.height.toNat x y).1
      let Y := (τ.from c.width.toNat c.height.toNat x y).2
      ((c'.rgbOut out').b x y = (c.rgbOut out).b X Y ↔
        ((X < vectorColumns cpu.set c.src_format.pixel_format c.dst_format.pixel_format
            c.width.toNat ↔
          x < vectorColumns cpu'.set c'.src_format.pixel_format c'.dst_format.pixel_format
            c'.width.toNat) ∨
        blueFix (std c.src_format.color_space) (val (c.yuvIn.y X Y)) (val (c.yuvIn.cb X Y)) ≤
          32767)) := by
  refine ⟨?_, ?_, ?_⟩
  · intro x y hx hy
    obtain ⟨p', p⟩ := hc.pixels hx hy
    rw [(C46_exact hv hk ho p).1, (C46_exact hv' hk' ho' p').1, hi.1 x y hx hy, hi.2.2 x y hx hy,
      hc.src_space]
  · intro x y hx hy
    obtain ⟨p', p⟩ := hc.pixels hx hy
    rw [(C46_exact hv hk ho p).2.1, (C46_exact hv' hk' ho' p').2.1, hi.1 x y hx hy,
      hi.2.1 x y hx hy, hi.2.2 x y hx hy, hc.src_space]
  · rintro x y ⟨hx, hy⟩
    rw [hc.width] at hx
    rw [hc.height] at hy
    obtain ⟨p', p⟩ := hc.pixels hx hy
    have a3 := (C46_exact hv hk ho p).2.2
    have b3 := (C46_exact hv' hk' ho' p').2.2
    rw [hi.1 x y hx hy, hi.2.1 x y hx hy, hc.src_space] at b3
    simp only
    rw [a3, b3]
    exact blue_iff _ _ _ _ _

/-- False without the exceptions: on SSE2 a line of nine limited-range pixels, all codes 255, is its own
mirror image. It is decoded to eight yellow pixels and a white one. -/
theorem C96_counterexample {out : List Buf} (ho : Stores .x64 crate sse2Cpu (exLine 9) out) :
    TurnedYuv ⟨false, true, false⟩ 9 1 (exLine 9).yuvIn (exLine 9).yuvIn ∧
    ¬ TurnedRgb ⟨false, true, false⟩ 9 1 ((exLine 9).rgbOut out) ((exLine 9).rgbOut out) := by
  refine ⟨⟨fun _ _ _ _ => rfl, fun _ _ _ _ => rfl, fun _ _ _ _ => rfl⟩, fun h => ?_⟩
  have hk : (exLine 9).Decodes := by unfold Call.Decodes; decide
  have e := h.2.2 0 0 (by decide) (by decide)
  have a := (C46_exact (x := 0) (y := 0) exLine_valid.1 hk ho (by unfold Call.Pixel; decide)).2.2
  have b := (C46_exact (x := 8) (y := 0) exLine_valid.1 hk ho (by unfold Call.Pixel; decide)).2.2
  have e' : ((exLine 9).rgbOut out).b 0 0 = ((exLine 9).rgbOut out).b 8 0 := e
  rw [a, b] at e'
  revert e'
  decide

/-- False with NEON: an image of one colour is its own mirror image. Its chroma planes are not. -/
theorem C96_counterexample_neon {out : List Buf} (ho : Stores .x64 crate neonCpu exOneColour out) :
    TurnedRgb ⟨false, true, false⟩ 10 2 exOneColour.rgbIn exOneColour.rgbIn ∧
    ¬ Turned ⟨false, true, false⟩ 10 2 (exOneColour.yuvOut out).cb (exOneColour.yuvOut out).cb := by
  refine ⟨?_, fun h => ?_⟩
  · have e := exOneColour_colour
    refine ⟨?_, ?_, ?_⟩ <;> intro x y _ _
    · rw [(e _ _).1, (e _ _).1]
    · rw [(e _ _).2.1, (e _ _).2.1]
    · rw [(e _ _).2.2, (e _ _).2.2]
  · refine C82_counterexample_neon ho ?_
    exact (h 0 1 (by decide) (by decide)).symm.trans
      ((C82_chroma_420_neon (x := 0) (y := 0) (x' := 0) (y' := 1) exOneColour_valid
        (by unfold Call.Encodes; decide) rfl (.inl rfl) ho (by unfold Call.Pixel; decide)
        (by unfold Call.Pixel; decide) (exOneColour_block _ _ _ _)).1.2 (.inl Iff.rfl))

/-- A 10x2 Bgra picture. -/
def exTurnFrom : Call where
  width := 10
  height := 2
  src_format := ⟨.bgra, .rgb, 1⟩
  src_strides := none
  src_buffers := [noise 80 5]
  dst_format := ⟨.i420, .bt709FR, 3⟩
  dst_strides := none
  dst_buffers := [noise 20 2, noise 5 3, noise 5 4]

/-- The same picture turned by a quarter to the right, as Bgr with padded lines: 2 columns and 10 lines. The
pixel `(x, y)` is the pixel `(y, 1 - x)` of the original. -/
def exTurnTo : Call where
  width := 2
  height := 10
  src_format := ⟨.bgr, .rgb, 1⟩
  src_strides := some [8]
  src_buffers := [⟨80, fun i => if i % 8 < 6
    then (noise 80 5).bytes (40 * (1 - i % 8 / 3) + 4 * (i / 8) + i % 8 % 3) else 77⟩]
  dst_format := ⟨.nv12, .bt709FR, 2⟩
  dst_strides := none
  dst_buffers := [noise 20 2, noise 10 3]

theorem exTurn_valid : Valid .x64 exTurnFrom ∧ Valid .x64 exTurnTo :=
  ⟨valid_of_check (by decide +kernel), valid_of_check (by decide +kernel)⟩

/-- A quarter turn: rows become columns, and top and bottom are exchanged. -/
theorem exTurn_in : TurnedCall ⟨true, false, true⟩ exTurnFrom exTurnTo ∧
    TurnedRgb ⟨true, false, true⟩ 10 2 exTurnFrom.rgbIn exTurnTo.rgbIn := by
  have key : ∀ x : Fin 2, ∀ y : Fin 10,
      exTurnTo.rgbIn.r x y = exTurnFrom.rgbIn.r y (2 - 1 - x) ∧
      exTurnTo.rgbIn.g x y = exTurnFrom.rgbIn.g y (2 - 1 - x) ∧
      exTurnTo.rgbIn.b x y = exTurnFrom.rgbIn.b y (2 - 1 - x) := by
    decide +kernel
  refine ⟨⟨rfl, rfl, rfl, rfl⟩, ?_, ?_, ?_⟩ <;> intro x y hx hy
  · exact (key ⟨x, hx⟩ ⟨y, hy⟩).1
  · exact (key ⟨x, hx⟩ ⟨y, hy⟩).2.1
  · exact (key ⟨x, hx⟩ ⟨y, hy⟩).2.2

/-- One is encoded to I420 with AVX2, the other to Nv12 with SSE2. The picture is not symmetric. -/
example : ∃ out out', Stores .x64 crate avx2Cpu exTurnFrom out ∧ Stores .x64 crate sse2Cpu exTurnTo out' ∧
    TurnedYuv ⟨true, false, true⟩ 10 2 (exTurnFrom.yuvOut out) (exTurnTo.yuvOut out') ∧
    exTurnFrom.rgbIn.r 0 0 ≠ exTurnFrom.rgbIn.r 0 1 := by
  obtain ⟨out, ho⟩ := valid_stores (cpu := avx2Cpu) exTurn_valid.1 (.of_ne (by decide))
  have hm (set : InstructionSet) : VectorRoom set exTurnTo := by
    rintro - - b ⟨⟩
    cases set <;> simp [exTurnTo, strideOf, GroupRoom]
  obtain ⟨out', ho'⟩ := valid_stores (cpu := sse2Cpu) exTurn_valid.2 (hm _)
  exact ⟨out, out', ho, ho', C96_encode_partial exTurn_valid.1 exTurn_valid.2
    (by unfold Call.Encodes; decide) (by unfold Call.Encodes; decide) exTurn_in.1 (by decide)
    exTurn_in.2 (by decide) (by decide) ho ho', by decide +kernel⟩

end Verif
