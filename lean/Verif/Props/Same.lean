import Mathlib.Tactic.IntervalCases
import Verif.Spec.Same
import Verif.Props.Trip
/-!
# C94: colours stored as the same samples
-/

namespace Verif
open Spec

theorem near_of_forms (s : Std) {r g b : ℤ}
    (y0 : -65536 ≤ dot (lumaCoef s) r g b) (y1 : dot (lumaCoef s) r g b ≤ 65536)
    (u0 : -65536 ≤ dot (cbCoef s) r g b) (u1 : dot (cbCoef s) r g b ≤ 65536)
    (v0 : -65536 ≤ dot (crCoef s) r g b) (v1 : dot (crCoef s) r g b ≤ 65536) :
    |r| ≤ sameRed s ∧ |g| ≤ sameGreen s ∧ |b| ≤ sameBlue s := by
  simp only [abs_le]
  cases s <;> simp only [dot, lumaCoef, cbCoef, crCoef, sameRed, sameGreen, sameBlue] at * <;> (
    have r0 : -2 ≤ r := by
      by_contra h
      have : r ≤ -3 := by omega
      linarith
    have r1 : r ≤ 2 := by
      by_contra h
      have : 3 ≤ r := by omega
      linarith
    have b0 : -3 ≤ b := by
      by_contra h
      have : b ≤ -4 := by omega
      linarith
    have b1 : b ≤ 3 := by
      by_contra h
      have : 4 ≤ b := by omega
      linarith
    interval_cases r <;> interval_cases b <;> omega)

/-- Samples determine the linear forms of a colour up to half a step. -/
theorem SamplesOf.forms {s : Std} {r g b y u v : ℤ} (hr : IsByte r) (hg : IsByte g) (hb : IsByte b)
    (h : SamplesOf s r g b y u v) :
    (-32768 ≤ 65536 * (y - lumaOffset s) - dot (lumaCoef s) r g b ∧
      65536 * (y - lumaOffset s) - dot (lumaCoef s) r g b ≤ 32768) ∧
    (-32768 ≤ 65536 * (u - 128) - dot (cbCoef s) r g b ∧
      65536 * (u - 128) - dot (cbCoef s) r g b ≤ 32768) ∧
    (-32768 ≤ 65536 * (v - 128) - dot (crCoef s) r g b ∧
      65536 * (v - 128) - dot (crCoef s) r g b ≤ 32768) := by
  obtain ⟨h1, h2, h3⟩ := h
  unfold IsByte at hr hg hb
  refine ⟨?_, ?_, ?_⟩
  · rw [h1, luma, roundUp]; omega
  · rcases h2 with rfl | rfl
    · rw [cb, roundDown]; omega
    · have : -8388608 ≤ dot (cbCoef s) r g b ∧ dot (cbCoef s) r g b < 8355840 := by
        cases s <;> simp only [dot, cbCoef] <;> omega
      rw [cbUp, roundUp, clamp]; omega
  · rcases h3 with rfl | rfl
    · rw [cr, roundDown]; omega
    · have : -8388608 ≤ dot (crCoef s) r g b ∧ dot (crCoef s) r g b < 8355840 := by
        cases s <;> simp only [dot, crCoef] <;> omega
      rw [crUp, roundUp, clamp]; omega

theorem dot_sub (k : ℤ × ℤ × ℤ) (r g b r' g' b' : ℤ) :
    dot k (r - r') (g - g') (b - b') = dot k r g b - dot k r' g' b' := by
  unfold dot; ring

/-- C94 for one pixel. -/
theorem C94_same (s : Std) {r g b r' g' b' y u v : ℤ} (hr : IsByte r) (hg : IsByte g)
    (hb : IsByte b) (hr' : IsByte r') (hg' : IsByte g') (hb' : IsByte b')
    (h : SamplesOf s r g b y u v) (h' : SamplesOf s r' g' b' y u v) :
    |r - r'| ≤ sameRed s ∧ |g - g'| ≤ sameGreen s ∧ |b - b'| ≤ sameBlue s := by
  obtain ⟨⟨a1, a2⟩, ⟨a3, a4⟩, a5, a6⟩ := h.forms hr hg hb
  obtain ⟨⟨b1, b2⟩, ⟨b3, b4⟩, b5, b6⟩ := h'.forms hr' hg' hb'
  apply near_of_forms <;> rw [dot_sub] <;> linarith

/-- Two colours without ties that are stored alike and differ by `e` in component `p`. -/
def Alike (s : Std) (p : ℤ → ℤ → ℤ → ℤ) (c : (ℤ × ℤ × ℤ) × (ℤ × ℤ × ℤ)) (e : ℤ) : Prop :=
  ((IsByte c.1.1 ∧ IsByte c.1.2.1 ∧ IsByte c.1.2.2) ∧
    IsByte c.2.1 ∧ IsByte c.2.2.1 ∧ IsByte c.2.2.2) ∧
  (at3 (cbUp s) c.1 = at3 (cb s) c.1 ∧ at3 (crUp s) c.1 = at3 (cr s) c.1 ∧
    at3 (cbUp s) c.2 = at3 (cb s) c.2 ∧ at3 (crUp s) c.2 = at3 (cr s) c.2) ∧
  (at3 (luma s) c.1 = at3 (luma s) c.2 ∧ at3 (cb s) c.1 = at3 (cb s) c.2 ∧
    at3 (cr s) c.1 = at3 (cr s) c.2) ∧
  |at3 p c.1 - at3 p c.2| = e

instance (s p c e) : Decidable (Alike s p c e) := by
  unfold Alike IsByte; infer_instance

theorem alike_red (s : Std) : Alike s (fun r _ _ => r) (sameRedAt s) (sameRed s) := by
  cases s <;> decide

theorem alike_green (s : Std) : Alike s (fun _ g _ => g) (sameGreenAt s) (sameGreen s) := by
  cases s <;> decide

theorem alike_blue (s : Std) : Alike s (fun _ _ b => b) (sameBlueAt s) (sameBlue s) := by
  cases s <;> decide

/-- Differences of component `p` between colours that can be stored alike. -/
def Confused (s : Std) (p : ℤ → ℤ → ℤ → ℤ) : Set ℤ :=
  {e | ∃ r g b r' g' b' y u v : ℤ, (IsByte r ∧ IsByte g ∧ IsByte b) ∧
    (IsByte r' ∧ IsByte g' ∧ IsByte b') ∧ SamplesOf s r g b y u v ∧ SamplesOf s r' g' b' y u v ∧
    e = |p r g b - p r' g' b'|}

theorem Alike.mem {s : Std} {p : ℤ → ℤ → ℤ → ℤ} {c : (ℤ × ℤ × ℤ) × (ℤ × ℤ × ℤ)} {e : ℤ}
    (h : Alike s p c e) : e ∈ Confused s p := by
  obtain ⟨⟨h1, h2⟩, -, ⟨h3, h4, h5⟩, h6⟩ := h
  exact ⟨_, _, _, _, _, _, _, _, _, h1, h2, ⟨rfl, .inl rfl, .inl rfl⟩, ⟨h3, .inl h4, .inl h5⟩,
    h6.symm⟩

/-- C94: the largest differences, over all pairs of colours. -/
theorem C94_largest (s : Std) :
    IsGreatest (Confused s fun r _ _ => r) (sameRed s) ∧
    IsGreatest (Confused s fun _ g _ => g) (sameGreen s) ∧
    IsGreatest (Confused s fun _ _ b => b) (sameBlue s) := by
  refine ⟨⟨(alike_red s).mem, ?_⟩, ⟨(alike_green s).mem, ?_⟩, (alike_blue s).mem, ?_⟩ <;>
  rintro _ ⟨r, g, b, r', g', b', y, u, v, ⟨h1, h2, h3⟩, ⟨h1', h2', h3'⟩, h, h', rfl⟩
  · exact (C94_same s h1 h2 h3 h1' h2' h3' h h').1
  · exact (C94_same s h1 h2 h3 h1' h2' h3' h h').2.1
  · exact (C94_same s h1 h2 h3 h1' h2' h3' h h').2.2

/-- The pixel `(x, y)` is stored with its own chroma: in I444, or in a block of one colour. -/
def OwnChroma (c : Call) (x y : Nat) : Prop :=
  c.dst_format.pixel_format = .i444 ∨
    ∀ x' y', x' / 2 = x / 2 → y' / 2 = y / 2 → c.rgbIn.r x' y' = c.rgbIn.r x y ∧
      c.rgbIn.g x' y' = c.rgbIn.g x y ∧ c.rgbIn.b x' y' = c.rgbIn.b x y

theorem sum4_flat {f : Nat → Nat → UInt8} {x y : Nat}
    (h : ∀ x' y', x' / 2 = x / 2 → y' / 2 = y / 2 → f x' y' = f x y) :
    sum4 f (x / 2) (y / 2) = 4 * val (f x y) := by
  unfold sum4
  have h0 := h (2 * (x / 2)) (2 * (y / 2)) (by omega) (by omega)
  have h1 := h (2 * (x / 2) + 1) (2 * (y / 2)) (by omega) (by omega)
  have h2 := h (2 * (x / 2)) (2 * (y / 2) + 1) (by omega) (by omega)
  have h3 := h (2 * (x / 2) + 1) (2 * (y / 2) + 1) (by omega) (by omega)
  rw [h0, h1, h2, h3]
  omega

theorem avg_flat (s : Std) (r g b : ℤ) :
    cbAvg s (4 * r) (4 * g) (4 * b) = cb s r g b ∧ crAvg s (4 * r) (4 * g) (4 * b) = cr s r g b ∧
    cbAvgUp s (4 * r) (4 * g) (4 * b) = cbUp s r g b ∧
    crAvgUp s (4 * r) (4 * g) (4 * b) = crUp s r g b := by
  have h : ∀ k, dot k (4 * r) (4 * g) (4 * b) = 4 * dot k r g b := fun k => by unfold dot; ring
  have d : ∀ t : ℤ, roundDown (4 * t) (4 * 65536) = roundDown t 65536 := fun t => by
    unfold roundDown; omega
  have e : ∀ t : ℤ, roundUp (4 * t) (4 * 65536) = roundUp t 65536 := fun t => by
    unfold roundUp; omega
  simp only [cbAvg, crAvg, cbAvgUp, crAvgUp, cb, cr, cbUp, crUp, h, d, e, and_self]

/-- The samples stored for a pixel with its own chroma. -/
theorem stored_samples {t : Target} {cpu : Cpu} {c : Call} {out : List Buf} (hv : Valid t c)
    (hk : c.Encodes) (ho : Stores t crate cpu c out) {x y : Nat} (hp : c.Pixel x y)
    (hown : OwnChroma c x y) :
    SamplesOf (std c.dst_format.color_space) (val (c.rgbIn.r x y)) (val (c.rgbIn.g x y))
      (val (c.rgbIn.b x y)) (val ((c.yuvOut out).y x y)) (val ((c.yuvOut out).cb x y))
      (val ((c.yuvOut out).cr x y)) := by
  have hr := isByte_val (c.rgbIn.r x y)
  have hg := isByte_val (c.rgbIn.g x y)
  have hb := isByte_val (c.rgbIn.b x y)
  have h0 : IsSum4 0 := by unfold IsSum4; omega
  obtain ⟨e1, e2, e3, -, -⟩ := C35_no_truncation (std c.dst_format.color_space) hr hg hb h0 h0 h0
  obtain ⟨⟨k2, k3, -, -⟩, -⟩ := C35_ties (std c.dst_format.color_space) hr hg hb h0 h0 h0
  refine ⟨by rw [C20_luma hv hk ho hp]; exact e1, ?_⟩
  by_cases hd : c.dst_format.pixel_format = .i444
  · obtain ⟨q2, q3⟩ := C22_chroma_444_ties hv hk hd ho hp
    refine ⟨q2.imp ?_ ?_, q3.imp ?_ ?_⟩ <;> intro q <;> rw [q]
    · exact e2
    · exact val_byte k2
    · exact e3
    · exact val_byte k3
  · obtain ⟨q2, q3⟩ := C21_chroma_420_ties hv hk (dst_420 hv hk hd) ho hp
    have hown := hown.resolve_left hd
    rw [sum4_flat fun x' y' hx hy => (hown x' y' hx hy).1,
      sum4_flat fun x' y' hx hy => (hown x' y' hx hy).2.1,
      sum4_flat fun x' y' hx hy => (hown x' y' hx hy).2.2] at q2 q3
    obtain ⟨f1, f2, f3, f4⟩ := avg_flat (std c.dst_format.color_space) (val (c.rgbIn.r x y))
      (val (c.rgbIn.g x y)) (val (c.rgbIn.b x y))
    rw [f1, f3] at q2
    rw [f2, f4] at q3
    refine ⟨q2.imp ?_ ?_, q3.imp ?_ ?_⟩ <;> intro q <;> rw [q]
    · exact e2
    · exact val_byte k2
    · exact e3
    · exact val_byte k3

/-- C94: pixels of two images (or of one) encoded in the same colour space, on any processors, as
the same samples. -/
theorem C94_stored {t t' : Target} {cpu cpu' : Cpu} {c c' : Call} {out out' : List Buf}
    (hv : Valid t c) (hv' : Valid t' c') (hk : c.Encodes) (hk' : c'.Encodes)
    (hs : std c'.dst_format.color_space = std c.dst_format.color_space)
    (ho : Stores t crate cpu c out) (ho' : Stores t' crate cpu' c' out')
    {x y x' y' : Nat} (hp : c.Pixel x y) (hp' : c'.Pixel x' y')
    (hown : OwnChroma c x y) (hown' : OwnChroma c' x' y')
    (h1 : (c'.yuvOut out').y x' y' = (c.yuvOut out).y x y)
    (h2 : (c'.yuvOut out').cb x' y' = (c.yuvOut out).cb x y)
    (h3 : (c'.yuvOut out').cr x' y' = (c.yuvOut out).cr x y) :
    let s := std c.dst_format.color_space
    |val (c.rgbIn.r x y) - val (c'.rgbIn.r x' y')| ≤ sameRed s ∧
    |val (c.rgbIn.g x y) - val (c'.rgbIn.g x' y')| ≤ sameGreen s ∧
    |val (c.rgbIn.b x y) - val (c'.rgbIn.b x' y')| ≤ sameBlue s := by
  intro s
  have a := stored_samples hv hk ho hp hown
  have a' := stored_samples hv' hk' ho' hp' hown'
  rw [h1, h2, h3, hs] at a'
  exact C94_same s (isByte_val _) (isByte_val _) (isByte_val _) (isByte_val _) (isByte_val _)
    (isByte_val _) a a'

/-- A colour without ties is stored as its own samples by every processor. -/
theorem stored_untied {t : Target} {cpu : Cpu} {c : Call} {out : List Buf} (hv : Valid t c)
    (hk : c.Encodes) (ho : Stores t crate cpu c out) {x y : Nat} (hp : c.Pixel x y)
    (hown : OwnChroma c x y) {a : ℤ × ℤ × ℤ}
    (ha : (val (c.rgbIn.r x y), val (c.rgbIn.g x y), val (c.rgbIn.b x y)) = a)
    (t1 : at3 (cbUp (std c.dst_format.color_space)) a = at3 (cb (std c.dst_format.color_space)) a)
    (t2 : at3 (crUp (std c.dst_format.color_space)) a = at3 (cr (std c.dst_format.color_space)) a) :
    val ((c.yuvOut out).y x y) = at3 (luma (std c.dst_format.color_space)) a ∧
    val ((c.yuvOut out).cb x y) = at3 (cb (std c.dst_format.color_space)) a ∧
    val ((c.yuvOut out).cr x y) = at3 (cr (std c.dst_format.color_space)) a := by
  obtain ⟨h1, h2, h3⟩ := stored_samples hv hk ho hp hown
  subst ha
  exact ⟨h1, h2.elim id fun h => h.trans t1, h3.elim id fun h => h.trans t2⟩

/-- C94: the pairs of colours that differ most are stored alike by every processor, in every colour
space and format. -/
theorem C94_attained {t t' : Target} {cpu cpu' : Cpu} {c c' : Call} {out out' : List Buf}
    (hv : Valid t c) (hv' : Valid t' c') (hk : c.Encodes) (hk' : c'.Encodes)
    (hs : std c'.dst_format.color_space = std c.dst_format.color_space)
    (ho : Stores t crate cpu c out) (ho' : Stores t' crate cpu' c' out')
    {x y x' y' : Nat} (hp : c.Pixel x y) (hp' : c'.Pixel x' y')
    (hown : OwnChroma c x y) (hown' : OwnChroma c' x' y')
    (hpair : ((val (c.rgbIn.r x y), val (c.rgbIn.g x y), val (c.rgbIn.b x y)),
        (val (c'.rgbIn.r x' y'), val (c'.rgbIn.g x' y'), val (c'.rgbIn.b x' y'))) ∈
      [sameRedAt (std c.dst_format.color_space), sameGreenAt (std c.dst_format.color_space),
        sameBlueAt (std c.dst_format.color_space)]) :
    (c'.yuvOut out').y x' y' = (c.yuvOut out).y x y ∧
    (c'.yuvOut out').cb x' y' = (c.yuvOut out).cb x y ∧
    (c'.yuvOut out').cr x' y' = (c.yuvOut out).cr x y := by
  have main : ∀ {p : ℤ → ℤ → ℤ → ℤ} {a : (ℤ × ℤ × ℤ) × (ℤ × ℤ × ℤ)} {e : ℤ},
      Alike (std c.dst_format.color_space) p a e →
      ((val (c.rgbIn.r x y), val (c.rgbIn.g x y), val (c.rgbIn.b x y)),
        (val (c'.rgbIn.r x' y'), val (c'.rgbIn.g x' y'), val (c'.rgbIn.b x' y'))) = a →
      (c'.yuvOut out').y x' y' = (c.yuvOut out).y x y ∧
      (c'.yuvOut out').cb x' y' = (c.yuvOut out).cb x y ∧
      (c'.yuvOut out').cr x' y' = (c.yuvOut out).cr x y := by
    rintro p a e ⟨-, ⟨t1, t2, t3, t4⟩, ⟨q1, q2, q3⟩, -⟩ h
    subst h
    obtain ⟨a1, a2, a3⟩ := stored_untied hv hk ho hp hown rfl t1 t2
    rw [← hs] at t3 t4
    obtain ⟨b1, b2, b3⟩ := stored_untied hv' hk' ho' hp' hown' rfl t3 t4
    rw [hs] at b1 b2 b3
    have inj : ∀ {m n : UInt8}, val m = val n → m = n := by
      intro m n h
      unfold val at h
      exact UInt8.toNat_inj.1 (by omega)
    exact ⟨inj (b1.trans (q1.symm.trans a1.symm)), inj (b2.trans (q2.symm.trans a2.symm)),
      inj (b3.trans (q3.symm.trans a3.symm))⟩
  simp only [List.mem_cons, List.not_mem_nil, or_false] at hpair
  rcases hpair with h | h | h
  · exact main (alike_red _) h
  · exact main (alike_green _) h
  · exact main (alike_blue _) h

/-- An image whose first two pixels are (22, 20, 31) and (20, 20, 30). -/
def exAlike : Call := { exEncode444 with
  src_buffers := [⟨18, fun i => [31, 20, 22, 30, 20, 20].getD i 50⟩] }

/-- Though their red differs by 2 (the most there is), both pixels are stored as the same samples. -/
example : ∃ out, Stores .x64 crate neonCpu exAlike out ∧
    (exAlike.yuvOut out).y 1 0 = (exAlike.yuvOut out).y 0 0 ∧
    (exAlike.yuvOut out).cb 1 0 = (exAlike.yuvOut out).cb 0 0 ∧
    (exAlike.yuvOut out).cr 1 0 = (exAlike.yuvOut out).cr 0 0 ∧
    |val (exAlike.rgbIn.r 0 0) - val (exAlike.rgbIn.r 1 0)| = 2 := by
  have hv : Valid .x64 exAlike := valid_of_check (by decide +kernel)
  obtain ⟨out, ho⟩ := valid_stores (cpu := neonCpu) hv fun _ _ _ _ => trivial
  obtain ⟨h1, h2, h3⟩ := C94_attained hv hv (by decide) (by decide) rfl ho ho (x := 0) (y := 0)
    (x' := 1) (y' := 0) (by unfold Call.Pixel; decide) (by unfold Call.Pixel; decide) (.inl rfl)
    (.inl rfl) (by decide +kernel)
  exact ⟨out, ho, h1, h2, h3, by decide +kernel⟩

end Verif
