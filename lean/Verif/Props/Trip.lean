import Mathlib.Order.Bounds.Defs
import Verif.Spec.Trip
import Verif.Props.WorstBlock
import Verif.Props.WorstDecode
/-!
# C93: exact range of the change of a colour that is encoded and decoded
-/

namespace Verif
open Spec

theorem trip_lower {v i r w d : ℚ} (h : |v - clampQ i| ≤ w) (hi : r - d ≤ i) (hd : 0 ≤ d)
    (hr : r ≤ 255) : r - d - w ≤ v := by
  have h1 := (abs_le.1 h).1
  have h2 : r - d ≤ clampQ i := by
    unfold clampQ
    exact le_max_of_le_right (le_min (by linarith) hi)
  linarith

theorem trip_upper {v i r w d : ℚ} (h : |v - clampQ i| ≤ w) (hi : i ≤ r + d) (hd : 0 ≤ d)
    (hr : 0 ≤ r) : v ≤ r + d + w := by
  have h1 := (abs_le.1 h).2
  have h2 : clampQ i ≤ r + d := by
    unfold clampQ
    exact max_le (by linarith) ((min_le_right _ _).trans hi)
  linarith

theorem le_of_cast_gt {v r m : ℤ} (h : (m : ℚ) - 1 < (v : ℚ) - r) : m ≤ v - r := by
  have h' : m - 1 < v - r := by exact_mod_cast h
  omega

theorem ge_of_cast_lt {v r m : ℤ} (h : (v : ℚ) - r < (m : ℚ) + 1) : v - r ≤ m := by
  have h' : v - r < m + 1 := by exact_mod_cast h
  omega

/-- How far inexact samples can move exact red, green and blue. -/
def moveR : Std → ℚ
  | .bt601 => 1.388
  | .bt709 => 1.485
  | .bt601FR => 1.208
  | .bt709FR => 1.295

def moveG : Std → ℚ
  | .bt601 => 1.191
  | .bt709 => 0.959
  | .bt601FR => 1.035
  | .bt709FR => 0.832

def moveB : Std → ℚ
  | .bt601 => 1.598
  | .bt709 => 1.645
  | .bt601FR => 1.394
  | .bt709FR => 1.435

theorem moved_red (s : Std) {Y V Y' V' : ℚ} (a1 : |Y - Y'| ≤ worstY s)
    (a3 : |V - V'| ≤ worstCr420 s) :
    idealR s Y' V' - moveR s ≤ idealR s Y V ∧ idealR s Y V ≤ idealR s Y' V' + moveR s := by
  rw [abs_le] at a1 a3
  obtain ⟨a11, a12⟩ := a1
  obtain ⟨a31, a32⟩ := a3
  cases s <;> simp only [idealR, signalY, worstY, worstCr420, moveR, yScale, cScale, lumaOffset, Kr,
    Std.fullRange] at * <;> norm_num at * <;> constructor <;> linarith

theorem moved_blue (s : Std) {Y U Y' U' : ℚ} (a1 : |Y - Y'| ≤ worstY s)
    (a2 : |U - U'| ≤ worstCb420 s) :
    idealB s Y' U' - moveB s ≤ idealB s Y U ∧ idealB s Y U ≤ idealB s Y' U' + moveB s := by
  rw [abs_le] at a1 a2
  obtain ⟨a11, a12⟩ := a1
  obtain ⟨a21, a22⟩ := a2
  cases s <;> simp only [idealB, signalY, worstY, worstCb420, moveB, yScale, cScale, lumaOffset, Kb,
    Std.fullRange] at * <;> norm_num at * <;> constructor <;> linarith

theorem moved_green (s : Std) {Y U V Y' U' V' : ℚ} (a1 : |Y - Y'| ≤ worstY s)
    (a2 : |U - U'| ≤ worstCb420 s) (a3 : |V - V'| ≤ worstCr420 s) :
    idealG s Y' U' V' - moveG s ≤ idealG s Y U V ∧ idealG s Y U V ≤ idealG s Y' U' V' + moveG s := by
  rw [abs_le] at a1 a2 a3
  obtain ⟨a11, a12⟩ := a1
  obtain ⟨a21, a22⟩ := a2
  obtain ⟨a31, a32⟩ := a3
  cases s <;> simp only [idealG, idealR, idealB, signalY, worstY, worstCb420, worstCr420, moveG,
    yScale, cScale, lumaOffset, Kr, Kb, Kg, Std.fullRange] at * <;> norm_num at * <;>
    constructor <;> linarith

/-- In full range, chroma one larger is more red and blue and less green. -/
theorem ideal_shift (s : Std) (hs : s.fullRange = true) (y u v : ℚ) :
    idealR s y (v + 1) = idealR s y v + 2 * (1 - Kr s) ∧
    idealB s y (u + 1) = idealB s y u + 2 * (1 - Kb s) ∧
    idealG s y (u + 1) (v + 1) =
      idealG s y u v - (2 * (1 - Kr s) * Kr s + 2 * (1 - Kb s) * Kb s) / Kg s := by
  cases s <;> cases hs <;> simp only [idealG, idealR, idealB, signalY, yScale, cScale, lumaOffset,
    Kr, Kb, Kg, Std.fullRange] <;> norm_num <;> refine ⟨?_, ?_, ?_⟩ <;> ring

theorem near_red (s : Std) {r y v : ℤ} (hr : IsByte r) (hy : IsByte y) (hv : IsByte v)
    (m : (r : ℚ) - moveR s ≤ idealR s y v ∧ idealR s y v ≤ r + moveR s) :
    (tripRed s).1 ≤ red s y v - r ∧ red s y v - r ≤ (tripRed s).2 := by
  obtain ⟨r0, r1⟩ := cast_byte hr
  have p : 0 ≤ moveR s := by cases s <;> norm_num [moveR]
  have w := worst_red s hy hv
  have l := trip_lower w m.1 p r1
  have uu := trip_upper w m.2 p r0
  cases hs : s.fullRange
  · clear w
    constructor
    · refine le_of_cast_gt ?_
      cases s <;> simp only [Std.fullRange, Bool.true_eq_false] at hs <;>
        simp only [moveR, worstR, tripRed] at l uu ⊢ <;> norm_num at l uu ⊢ <;> linarith
    · refine ge_of_cast_lt ?_
      cases s <;> simp only [Std.fullRange, Bool.true_eq_false] at hs <;>
        simp only [moveR, worstR, tripRed] at l uu ⊢ <;> norm_num at l uu ⊢ <;> linarith
  · clear w
    have z' := worst_redShifted s hs hy hv
    rw [(ideal_shift s hs y 0 v).1] at z'
    have z := trip_lower (r := (r : ℚ)) (d := 0) z' (by
      cases s <;> simp only [Std.fullRange, Bool.false_eq_true] at hs <;>
        simp only [moveR, Kr] at m ⊢ <;> norm_num at m ⊢ <;> linarith) le_rfl r1
    clear z' m
    constructor
    · refine le_of_cast_gt ?_
      cases s <;> simp only [Std.fullRange, Bool.false_eq_true] at hs <;>
        simp only [moveR, worstR, tripRed, shiftedR] at l uu z ⊢ <;> norm_num at l uu z ⊢ <;> linarith
    · refine ge_of_cast_lt ?_
      cases s <;> simp only [Std.fullRange, Bool.false_eq_true] at hs <;>
        simp only [moveR, worstR, tripRed, shiftedR] at l uu z ⊢ <;> norm_num at l uu z ⊢ <;> linarith

theorem near_green (s : Std) {r y u v : ℤ} (hr : IsByte r) (hy : IsByte y) (hu : IsByte u) (hv : IsByte v)
    (m : (r : ℚ) - moveG s ≤ idealG s y u v ∧ idealG s y u v ≤ r + moveG s) :
    (tripGreen s).1 ≤ green s y u v - r ∧ green s y u v - r ≤ (tripGreen s).2 := by
  obtain ⟨r0, r1⟩ := cast_byte hr
  have p : 0 ≤ moveG s := by cases s <;> norm_num [moveG]
  have w := worst_green s hy hu hv
  have l := trip_lower w m.1 p r1
  have uu := trip_upper w m.2 p r0
  cases hs : s.fullRange
  · clear w
    constructor
    · refine le_of_cast_gt ?_
      cases s <;> simp only [Std.fullRange, Bool.true_eq_false] at hs <;>
        simp only [moveG, worstG, tripGreen] at l uu ⊢ <;> norm_num at l uu ⊢ <;> linarith
    · refine ge_of_cast_lt ?_
      cases s <;> simp only [Std.fullRange, Bool.true_eq_false] at hs <;>
        simp only [moveG, worstG, tripGreen] at l uu ⊢ <;> norm_num at l uu ⊢ <;> linarith
  · clear w
    have z' := worst_greenShifted s hs (y := y) hu hv
    rw [(ideal_shift s hs y u v).2.2] at z'
    have z := trip_upper (r := (r : ℚ)) (d := 0.2) z' (by
      cases s <;> simp only [Std.fullRange, Bool.false_eq_true] at hs <;>
        simp only [moveG, Kr, Kb, Kg] at m ⊢ <;> norm_num at m ⊢ <;> linarith) (by norm_num) r0
    clear z' m
    constructor
    · refine le_of_cast_gt ?_
      cases s <;> simp only [Std.fullRange, Bool.false_eq_true] at hs <;>
        simp only [moveG, worstG, tripGreen, shiftedG] at l uu z ⊢ <;> norm_num at l uu z ⊢ <;> linarith
    · refine ge_of_cast_lt ?_
      cases s <;> simp only [Std.fullRange, Bool.false_eq_true] at hs <;>
        simp only [moveG, worstG, tripGreen, shiftedG] at l uu z ⊢ <;> norm_num at l uu z ⊢ <;> linarith

theorem near_blue (s : Std) {r y u : ℤ} (hr : IsByte r) (hy : IsByte y) (hu : IsByte u)
    (m : (r : ℚ) - moveB s ≤ idealB s y u ∧ idealB s y u ≤ r + moveB s) :
    (tripBlue s).1 ≤ blue s y u - r ∧ blue s y u - r ≤ (tripBlue s).2 := by
  obtain ⟨r0, r1⟩ := cast_byte hr
  have p : 0 ≤ moveB s := by cases s <;> norm_num [moveB]
  have w := worst_blue s hy hu
  have l := trip_lower w m.1 p r1
  have uu := trip_upper w m.2 p r0
  cases hs : s.fullRange
  · clear w
    constructor
    · refine le_of_cast_gt ?_
      cases s <;> simp only [Std.fullRange, Bool.true_eq_false] at hs <;>
        simp only [moveB, worstB, tripBlue] at l uu ⊢ <;> norm_num at l uu ⊢ <;> linarith
    · refine ge_of_cast_lt ?_
      cases s <;> simp only [Std.fullRange, Bool.true_eq_false] at hs <;>
        simp only [moveB, worstB, tripBlue] at l uu ⊢ <;> norm_num at l uu ⊢ <;> linarith
  · clear w
    have z' := worst_blueShifted s hs hy hu
    rw [(ideal_shift s hs y u 0).2.1] at z'
    have z := trip_lower (r := (r : ℚ)) (d := 0) z' (by
      cases s <;> simp only [Std.fullRange, Bool.false_eq_true] at hs <;>
        simp only [moveB, Kb] at m ⊢ <;> norm_num at m ⊢ <;> linarith) le_rfl r1
    clear z' m
    constructor
    · refine le_of_cast_gt ?_
      cases s <;> simp only [Std.fullRange, Bool.false_eq_true] at hs <;>
        simp only [moveB, worstB, tripBlue, shiftedB] at l uu z ⊢ <;> norm_num at l uu z ⊢ <;> linarith
    · refine ge_of_cast_lt ?_
      cases s <;> simp only [Std.fullRange, Bool.false_eq_true] at hs <;>
        simp only [moveB, worstB, tripBlue, shiftedB] at l uu z ⊢ <;> norm_num at l uu z ⊢ <;> linarith

/-- C93 for one pixel: decoding any samples of a colour that are as accurate as those of C89 and
C92. -/
theorem C93_near (s : Std) {r g b y u v : ℤ} (hr : IsByte r) (hg : IsByte g) (hb : IsByte b)
    (hy : IsByte y) (hu : IsByte u) (hv : IsByte v)
    (a1 : |(y : ℚ) - idealY s r g b| ≤ worstY s) (a2 : |(u : ℚ) - idealCb s r g b| ≤ worstCb420 s)
    (a3 : |(v : ℚ) - idealCr s r g b| ≤ worstCr420 s) :
    ((tripRed s).1 ≤ red s y v - r ∧ red s y v - r ≤ (tripRed s).2) ∧
    ((tripGreen s).1 ≤ green s y u v - g ∧ green s y u v - g ≤ (tripGreen s).2) ∧
    ((tripBlue s).1 ≤ blue s y u - b ∧ blue s y u - b ≤ (tripBlue s).2) := by
  obtain ⟨i1, i2, i3⟩ := ideal_inverse s r g b
  have m1 := moved_red s a1 a3
  have m2 := moved_green s a1 a2 a3
  have m3 := moved_blue s a1 a2
  rw [i1] at m1
  rw [i2] at m2
  rw [i3] at m3
  exact ⟨near_red s hr hy hv m1, near_green s hg hy hu hv m2, near_blue s hb hy hu m3⟩

/-- The samples a colour can be stored as: luma, and either rounding of chroma. -/
def SamplesOf (s : Std) (r g b y u v : ℤ) : Prop :=
  y = luma s r g b ∧ (u = cb s r g b ∨ u = cbUp s r g b) ∧ (v = cr s r g b ∨ v = crUp s r g b)

theorem samples_near (s : Std) {r g b y u v : ℤ} (hr : IsByte r) (hg : IsByte g) (hb : IsByte b)
    (h : SamplesOf s r g b y u v) :
    (IsByte y ∧ IsByte u ∧ IsByte v) ∧ |(y : ℚ) - idealY s r g b| ≤ worstY s ∧
    |(u : ℚ) - idealCb s r g b| ≤ worstCb420 s ∧ |(v : ℚ) - idealCr s r g b| ≤ worstCr420 s := by
  have h0 : IsSum4 0 := by unfold IsSum4; omega
  obtain ⟨ky, ku, kv, -, -⟩ := C35_full s hr hg hb h0 h0 h0
  obtain ⟨⟨u2, u3, -, -⟩, -⟩ := C35_ties s hr hg hb h0 h0 h0
  obtain ⟨c1, c2, -⟩ := C92_compare s
  obtain ⟨rfl, hu, hv⟩ := h
  refine ⟨⟨ky, ?_, ?_⟩, worst_luma s hr hg hb, ?_, ?_⟩
  · rcases hu with rfl | rfl
    · exact ku
    · exact u2
  · rcases hv with rfl | rfl
    · exact kv
    · exact u3
  · refine le_trans ?_ c1
    rcases hu with rfl | rfl
    · exact worst_cb s hr hg hb
    · exact worst_cbUp s hr hg hb
  · refine le_trans ?_ c2
    rcases hv with rfl | rfl
    · exact worst_cr s hr hg hb
    · exact worst_crUp s hr hg hb

/-- The changes of a component of all colours: `f` gives the decoded component for `y, u, v`, `p` the
component itself. -/
def Changes (s : Std) (f : ℤ → ℤ → ℤ → ℤ) (p : ℤ → ℤ → ℤ → ℤ) : Set ℤ :=
  {e | ∃ r g b y u v : ℤ, IsByte r ∧ IsByte g ∧ IsByte b ∧ SamplesOf s r g b y u v ∧
    e = f y u v - p r g b}

/-- The extreme colours are bytes, have no ties, and change as stated. -/
def Extreme (s : Std) (f : ℤ → ℤ → ℤ → ℤ) (p : ℤ → ℤ → ℤ → ℤ) (c : ℤ × ℤ × ℤ) (e : ℤ) : Prop :=
  (IsByte c.1 ∧ IsByte c.2.1 ∧ IsByte c.2.2) ∧
  at3 (cbUp s) c = at3 (cb s) c ∧ at3 (crUp s) c = at3 (cr s) c ∧
  f (at3 (luma s) c) (at3 (cb s) c) (at3 (cr s) c) - at3 p c = e

instance (s f p c e) : Decidable (Extreme s f p c e) := by
  unfold Extreme IsByte; infer_instance

theorem extreme_red (s : Std) :
    Extreme s (fun y _ v => red s y v) (fun r _ _ => r) (tripRedAt s).1 (tripRed s).1 ∧
    Extreme s (fun y _ v => red s y v) (fun r _ _ => r) (tripRedAt s).2 (tripRed s).2 := by
  cases s <;> decide

theorem extreme_green (s : Std) :
    Extreme s (green s) (fun _ g _ => g) (tripGreenAt s).1 (tripGreen s).1 ∧
    Extreme s (green s) (fun _ g _ => g) (tripGreenAt s).2 (tripGreen s).2 := by
  cases s <;> decide

theorem extreme_blue (s : Std) :
    Extreme s (fun y u _ => blue s y u) (fun _ _ b => b) (tripBlueAt s).1 (tripBlue s).1 ∧
    Extreme s (fun y u _ => blue s y u) (fun _ _ b => b) (tripBlueAt s).2 (tripBlue s).2 := by
  cases s <;> decide

theorem Extreme.mem {s : Std} {f p : ℤ → ℤ → ℤ → ℤ} {c : ℤ × ℤ × ℤ} {e : ℤ}
    (h : Extreme s f p c e) : e ∈ Changes s f p := by
  obtain ⟨⟨h1, h2, h3⟩, -, -, h4⟩ := h
  exact ⟨_, _, _, _, _, _, h1, h2, h3, ⟨rfl, .inl rfl, .inl rfl⟩, h4.symm⟩

/-- C93: smallest and largest change of each component, over all colours. -/
theorem C93_range (s : Std) :
    (IsLeast (Changes s (fun y _ v => red s y v) fun r _ _ => r) (tripRed s).1 ∧
      IsGreatest (Changes s (fun y _ v => red s y v) fun r _ _ => r) (tripRed s).2) ∧
    (IsLeast (Changes s (green s) fun _ g _ => g) (tripGreen s).1 ∧
      IsGreatest (Changes s (green s) fun _ g _ => g) (tripGreen s).2) ∧
    (IsLeast (Changes s (fun y u _ => blue s y u) fun _ _ b => b) (tripBlue s).1 ∧
      IsGreatest (Changes s (fun y u _ => blue s y u) fun _ _ b => b) (tripBlue s).2) := by
  have key : ∀ {r g b y u v : ℤ}, IsByte r → IsByte g → IsByte b → SamplesOf s r g b y u v →
      ((tripRed s).1 ≤ red s y v - r ∧ red s y v - r ≤ (tripRed s).2) ∧
      ((tripGreen s).1 ≤ green s y u v - g ∧ green s y u v - g ≤ (tripGreen s).2) ∧
      ((tripBlue s).1 ≤ blue s y u - b ∧ blue s y u - b ≤ (tripBlue s).2) := by
    intro r g b y u v hr hg hb h
    obtain ⟨⟨hy, hu, hv⟩, a1, a2, a3⟩ := samples_near s hr hg hb h
    exact C93_near s hr hg hb hy hu hv a1 a2 a3
  refine ⟨⟨⟨(extreme_red s).1.mem, ?_⟩, (extreme_red s).2.mem, ?_⟩,
    ⟨⟨(extreme_green s).1.mem, ?_⟩, (extreme_green s).2.mem, ?_⟩,
    ⟨(extreme_blue s).1.mem, ?_⟩, (extreme_blue s).2.mem, ?_⟩ <;>
  rintro _ ⟨r, g, b, y, u, v, hr, hg, hb, h, rfl⟩
  · exact (key hr hg hb h).1.1
  · exact (key hr hg hb h).1.2
  · exact (key hr hg hb h).2.1.1
  · exact (key hr hg hb h).2.1.2
  · exact (key hr hg hb h).2.2.1
  · exact (key hr hg hb h).2.2.2

/-- In full range red and blue never get darker, and green never gets lighter. -/
theorem C93_tint (s : Std) (hs : s.fullRange = true) {r g b y u v : ℤ} (hr : IsByte r)
    (hg : IsByte g) (hb : IsByte b) (h : SamplesOf s r g b y u v) :
    r ≤ red s y v ∧ green s y u v ≤ g ∧ b ≤ blue s y u := by
  obtain ⟨⟨hy, hu, hv⟩, a1, a2, a3⟩ := samples_near s hr hg hb h
  obtain ⟨⟨h1, -⟩, ⟨-, h2⟩, h3, -⟩ := C93_near s hr hg hb hy hu hv a1 a2 a3
  cases s <;> cases hs <;> simp only [tripRed, tripGreen, tripBlue] at h1 h2 h3 <;>
    refine ⟨?_, ?_, ?_⟩ <;> omega

/-- Orange through Bt601FR. -/
example : luma .bt601FR 255 88 0 = 128 ∧ cb .bt601FR 255 88 0 = 56 ∧ cr .bt601FR 255 88 0 = 219 ∧
    red .bt601FR 128 219 = 255 ∧ green .bt601FR 128 56 219 = 87 ∧ blue .bt601FR 128 56 = 2 := by
  decide

/-- C93 of whole conversions: encode on one processor, decode the result in the same colour space on
any processor. In 4:2:0 the 2x2 block of the pixel has to be of one colour. -/
theorem C93_stored {t : Target} {cpu cpu' : Cpu} {c c' : Call}
    {out out' : List Buf} (hv : Valid t c) (hv' : Valid t c')
    (hk : c.Encodes) (hk' : c'.Decodes)
    (ho : Stores t crate cpu c out) (ho' : Stores t crate cpu' c' out')
    (hc : Decodes_of c c' out) {x y : Nat} (hp : c.Pixel x y)
    (hflat : c.dst_format.pixel_format = .i444 ∨
      ∀ x' y', x' / 2 = x / 2 → y' / 2 = y / 2 → c.rgbIn.r x' y' = c.rgbIn.r x y ∧
        c.rgbIn.g x' y' = c.rgbIn.g x y ∧ c.rgbIn.b x' y' = c.rgbIn.b x y) :
    let s := std c.dst_format.color_space
    let dr := val ((c'.rgbOut out').r x y) - val (c.rgbIn.r x y)
    let dg := val ((c'.rgbOut out').g x y) - val (c.rgbIn.g x y)
    let db := val ((c'.rgbOut out').b x y) - val (c.rgbIn.b x y)
    ((tripRed s).1 ≤ dr ∧ dr ≤ (tripRed s).2) ∧
    ((tripGreen s).1 ≤ dg ∧ dg ≤ (tripGreen s).2) ∧
    ((tripBlue s).1 ≤ db ∧ db ≤ (tripBlue s).2) := by
  intro s
  have hp' : c'.Pixel x y := by unfold Call.Pixel at *; rw [hc.width, hc.height]; exact hp
  obtain ⟨d1, d2, d3⟩ := C23_decode_partial hv' hk' ho' hp' (stored_blue hv hk ho hc hp)
  have e : ∀ v, val (byte (clamp v)) = clamp v := fun v => val_byte (by unfold IsByte clamp; omega)
  rw [d1, d2, d3, hc.format, hc.image, red, green, blue, e, e, e]
  obtain ⟨c1, c2, -⟩ := C92_compare s
  obtain ⟨a1, a4⟩ := C89_stored hv hk ho hp
  by_cases hd : c.dst_format.pixel_format = .i444
  · obtain ⟨a2, a3⟩ := a4 hd
    exact C93_near s (isByte_val _) (isByte_val _) (isByte_val _) (isByte_val _) (isByte_val _)
      (isByte_val _) a1 (a2.trans c1) (a3.trans c2)
  · obtain ⟨a2, a3⟩ := C92_stored hv hk (dst_420 hv hk hd) ho hp
    have hflat := hflat.resolve_left hd
    have h4 : ∀ f : Nat → Nat → UInt8,
        (∀ x' y', x' / 2 = x / 2 → y' / 2 = y / 2 → f x' y' = f x y) →
        (sum4 f (x / 2) (y / 2) : ℚ) / 4 = val (f x y) := by
      intro f h
      have : sum4 f (x / 2) (y / 2) = 4 * val (f x y) := by
        unfold sum4
        have h0 := h (2 * (x / 2)) (2 * (y / 2)) (by omega) (by omega)
        have h1 := h (2 * (x / 2) + 1) (2 * (y / 2)) (by omega) (by omega)
        have h2 := h (2 * (x / 2)) (2 * (y / 2) + 1) (by omega) (by omega)
        have h3 := h (2 * (x / 2) + 1) (2 * (y / 2) + 1) (by omega) (by omega)
        rw [h0, h1, h2, h3]
        omega
      rw [this]; push_cast; ring
    rw [h4 _ fun x' y' hx hy => (hflat x' y' hx hy).1,
      h4 _ fun x' y' hx hy => (hflat x' y' hx hy).2.1,
      h4 _ fun x' y' hx hy => (hflat x' y' hx hy).2.2] at a2 a3
    exact C93_near s (isByte_val _) (isByte_val _) (isByte_val _) (isByte_val _) (isByte_val _)
      (isByte_val _) a1 a2 a3

/-- C93: the extreme changes occur in every conversion, on every pair of processors, of a 4:4:4 image
with a pixel of an extreme colour. -/
theorem C93_attained {t : Target} {cpu cpu' : Cpu} {c c' : Call}
    {out out' : List Buf} (hv : Valid t c) (hv' : Valid t c')
    (hk : c.Encodes) (hk' : c'.Decodes) (hd : c.dst_format.pixel_format = .i444)
    (ho : Stores t crate cpu c out) (ho' : Stores t crate cpu' c' out')
    (hc : Decodes_of c c' out) {x y : Nat} (hp : c.Pixel x y) :
    let s := std c.dst_format.color_space
    let rgb := (val (c.rgbIn.r x y), val (c.rgbIn.g x y), val (c.rgbIn.b x y))
    let dr := val ((c'.rgbOut out').r x y) - val (c.rgbIn.r x y)
    let dg := val ((c'.rgbOut out').g x y) - val (c.rgbIn.g x y)
    let db := val ((c'.rgbOut out').b x y) - val (c.rgbIn.b x y)
    ((rgb = (tripRedAt s).1 → dr = (tripRed s).1) ∧ (rgb = (tripRedAt s).2 → dr = (tripRed s).2)) ∧
    ((rgb = (tripGreenAt s).1 → dg = (tripGreen s).1) ∧
      (rgb = (tripGreenAt s).2 → dg = (tripGreen s).2)) ∧
    ((rgb = (tripBlueAt s).1 → db = (tripBlue s).1) ∧
      (rgb = (tripBlueAt s).2 → db = (tripBlue s).2)) := by
  intro s rgb
  have hp' : c'.Pixel x y := by unfold Call.Pixel at *; rw [hc.width, hc.height]; exact hp
  obtain ⟨d1, d2, d3⟩ := C23_decode_partial hv' hk' ho' hp' (stored_blue hv hk ho hc hp)
  have e : ∀ v, val (byte (clamp v)) = clamp v := fun v => val_byte (by unfold IsByte clamp; omega)
  rw [d1, d2, d3, hc.format, hc.image, red, green, blue, e, e, e]
  have hr := isByte_val (c.rgbIn.r x y)
  have hg := isByte_val (c.rgbIn.g x y)
  have hb := isByte_val (c.rgbIn.b x y)
  have h0 : IsSum4 0 := by unfold IsSum4; omega
  obtain ⟨e1, e2, e3, -, -⟩ := C35_no_truncation s hr hg hb h0 h0 h0
  obtain ⟨⟨k2, k3, -, -⟩, -⟩ := C35_ties s hr hg hb h0 h0 h0
  have k1 := C20_luma hv hk ho hp
  obtain ⟨q2, q3⟩ := C22_chroma_444_ties hv hk hd ho hp
  have main : ∀ {f p : ℤ → ℤ → ℤ → ℤ} {a : ℤ × ℤ × ℤ} {z : ℤ}, Extreme s f p a z → rgb = a →
      f (val ((c.yuvOut out).y x y)) (val ((c.yuvOut out).cb x y)) (val ((c.yuvOut out).cr x y)) -
        at3 p rgb = z := by
    rintro f p a z ⟨-, t1, t2, t3⟩ rfl
    have y1 : val ((c.yuvOut out).y x y) = at3 (luma s) rgb := by rw [k1]; exact e1
    have y2 : val ((c.yuvOut out).cb x y) = at3 (cb s) rgb := by
      rcases q2 with q | q <;> rw [q]
      · exact e2
      · rw [val_byte k2]; exact t1
    have y3 : val ((c.yuvOut out).cr x y) = at3 (cr s) rgb := by
      rcases q3 with q | q <;> rw [q]
      · exact e3
      · rw [val_byte k3]; exact t2
    rw [y1, y2, y3]
    exact t3
  exact ⟨⟨main (extreme_red s).1, main (extreme_red s).2⟩,
    ⟨main (extreme_green s).1, main (extreme_green s).2⟩,
    main (extreme_blue s).1, main (extreme_blue s).2⟩

/-- An image with a pixel of an extreme colour of `Bt709FR`: (0, 0, 7). -/
def exTrip : Call := { exEncode444 with
  src_buffers := [⟨18, fun i => [7, 0, 0, 0, 1, 0].getD i 50⟩] }

/-- Encoded on NEON and decoded on AVX2, red is 3 instead of 0. -/
example : ∃ out out', Stores .x64 crate neonCpu exTrip out ∧
    Stores .x64 crate avx2Cpu (exDecode444 out) out' ∧
    val (((exDecode444 out).rgbOut out').r 0 0) - val (exTrip.rgbIn.r 0 0) = 3 := by
  have hv : Valid .x64 exTrip := valid_of_check (by decide +kernel)
  have hr : VectorRoom neonCpu.set exTrip := fun _ _ _ _ => trivial
  have hv' : Valid .x64 (exDecode444 ((semOf .neon).out exTrip)) :=
    valid_of_check (by decide +kernel)
  exact ⟨_, _, (Runs.crate hv hr).stores, (Runs.crate hv' (.of_rgb (by decide))).stores,
    (C93_attained hv hv' (by decide) ⟨rfl, rfl⟩ rfl (Runs.crate hv hr).stores
      (Runs.crate hv' (.of_rgb (by decide))).stores ⟨rfl, rfl, rfl, rfl, rfl⟩ (x := 0) (y := 0)
      (by unfold Call.Pixel; decide)).1.2 (by decide +kernel)⟩

end Verif
