import Verif.Spec.Grey
import Verif.Props.Turn
import Verif.Props.Numeric
/-!
# C112: for grey pictures it does not matter whether Bt601 or Bt709 is chosen

The luma coefficients of the two standards have the same sums, which is what makes the encodings equal
to the bit. The offsets of the limited-range decoders cancel neutral chroma exactly. Those of the
full-range decoders do not (C40), and red gets another value in Bt709.
-/

namespace Verif
open Spec

variable {t t' t₂ : Target} {cpu cpu' cpu₂ : Cpu} {c c' c₂ : Call} {out out' out₂ : List Buf}
  {x y x' y' : Nat}

theorem grey_luma_same {s s' : Std} (h : s.fullRange = s'.fullRange) (v : ℤ) :
    luma s v v v = luma s' v v v := by
  have e : dot (lumaCoef s) v v v = dot (lumaCoef s') v v v := by
    cases s <;> cases s' <;> cases h <;> simp only [dot, lumaCoef] <;> omega
  rw [luma, luma, e, lumaOffset, lumaOffset, h]

/-- Chroma of a grey block is neutral on every processor. -/
theorem grey_neutral (hv : Valid t c) (hk : c.Encodes) (ho : Stores t crate cpu c out)
    (hp : c.Pixel x y) (hg : GreyAround c x y) :
    (c.yuvOut out).cb x y = 128 ∧ (c.yuvOut out).cr x y = 128 := by
  by_cases hd : c.dst_format.pixel_format = .i444
  · obtain ⟨e1, e2⟩ := hg x y hp rfl rfl
    obtain ⟨h1, h2⟩ := C22_chroma_444_ties hv hk hd ho hp
    rw [e1, e2, (C39_grey_pixel _ _).1, (C39_grey_pixel_ties _ _).1, or_self] at h1
    rw [e1, e2, (C39_grey_pixel _ _).2, (C39_grey_pixel_ties _ _).2, or_self] at h2
    exact ⟨h1, h2⟩
  · have hd' := dst_420 hv hk hd
    obtain ⟨h1, h2⟩ := C21_chroma_420_ties hv hk hd' ho hp
    have hs : sum4 c.rgbIn.g (x / 2) (y / 2) = sum4 c.rgbIn.r (x / 2) (y / 2) ∧
        sum4 c.rgbIn.b (x / 2) (y / 2) = sum4 c.rgbIn.r (x / 2) (y / 2) := by
      obtain ⟨m1, m2⟩ := Valid.even hv hd'
      obtain ⟨p1, p2⟩ := hp
      have q := fun i j (hi : i < 2) (hj : j < 2) => hg (2 * (x / 2) + i) (2 * (y / 2) + j)
        ⟨by omega, by omega⟩ (by omega) (by omega)
      have q1 := q 0 0 (by decide) (by decide)
      have q2 := q 1 0 (by decide) (by decide)
      have q3 := q 0 1 (by decide) (by decide)
      have q4 := q 1 1 (by decide) (by decide)
      simp only [Nat.add_zero] at q1 q2 q3
      unfold sum4
      simp only [q1.1, q1.2, q2.1, q2.2, q3.1, q3.2, q4.1, q4.2, and_self]
    simp only [hs.1, hs.2] at h1 h2
    unfold sum4 at h1 h2
    rw [(C39_grey_block _ _ _ _ _).1, (C39_grey_block_ties _ _ _ _ _).1, or_self] at h1
    rw [(C39_grey_block _ _ _ _ _).2, (C39_grey_block_ties _ _ _ _ _).2, or_self] at h2
    exact ⟨h1, h2⟩

/-- **C112**, encoding: the same grey gets the same three codes in Bt601 and in Bt709, in all formats
and on all processors. -/
theorem C112_encode (hv : Valid t c) (hv' : Valid t' c') (hk : c.Encodes) (hk' : c'.Encodes)
    (hr : SameRange c.dst_format.color_space c'.dst_format.color_space)
    (ho : Stores t crate cpu c out) (ho' : Stores t' crate cpu' c' out')
    (hp : c.Pixel x y) (hp' : c'.Pixel x' y') (hg : GreyAround c x y) (hg' : GreyAround c' x' y')
    (he : c'.rgbIn.r x' y' = c.rgbIn.r x y) :
    (c'.yuvOut out').y x' y' = (c.yuvOut out).y x y ∧
    (c'.yuvOut out').cb x' y' = (c.yuvOut out).cb x y ∧
    (c'.yuvOut out').cr x' y' = (c.yuvOut out).cr x y := by
  obtain ⟨a1, a2⟩ := grey_neutral hv hk ho hp hg
  obtain ⟨b1, b2⟩ := grey_neutral hv' hk' ho' hp' hg'
  obtain ⟨e1, e2⟩ := hg x y hp rfl rfl
  obtain ⟨d1, d2⟩ := hg' x' y' hp' rfl rfl
  refine ⟨?_, b1.trans a1.symm, b2.trans a2.symm⟩
  rw [C20_luma hv hk ho hp, C20_luma hv' hk' ho' hp', e1, e2, d1, d2, he, grey_luma_same hr]

/-- What neutral chroma decodes to. -/
def Spec.neutral (s : Std) (y : ℤ) : ℤ × ℤ × ℤ :=
  match s with
  | .bt601 | .bt709 => (clamp ((y * 19077 / 256 - 1160) / 64), clamp ((y * 19077 / 256 - 1160) / 64),
      clamp ((y * 19077 / 256 - 1160) / 64))
  | .bt601FR => (clamp (y + 1), clamp (y - 1), clamp (y + 2))
  | .bt709FR => (clamp (y + 2), clamp (y - 1), clamp (y + 2))

theorem neutral_decode (s : Std) (y : ℤ) : red s y 128 = (neutral s y).1 ∧
    green s y 128 128 = (neutral s y).2.1 ∧ blue s y 128 = (neutral s y).2.2 := by
  cases s <;> simp only [red, green, blue, redFix, greenFix, blueFix, dec, neutral, clamp] <;> omega

/-- **C112**, decoding of neutral chroma, exactly: all processors, without exception. -/
theorem C112_decode (hv : Valid t c) (hk : c.Decodes) (ho : Stores t crate cpu c out)
    (hp : c.Pixel x y) (hu : c.yuvIn.cb x y = 128) (hw : c.yuvIn.cr x y = 128) :
    let s := std c.src_format.color_space
    let Y := val (c.yuvIn.y x y)
    val ((c.rgbOut out).r x y) = (neutral s Y).1 ∧ val ((c.rgbOut out).g x y) = (neutral s Y).2.1 ∧
    val ((c.rgbOut out).b x y) = (neutral s Y).2.2 := by
  intro s Y
  have hY : 0 ≤ Y ∧ Y ≤ 255 := val_range _
  have e : val 128 = 128 := rfl
  have hb : blueFix s Y 128 ≤ 32767 := by
    clear_value s Y
    cases s <;> simp only [blueFix, dec] <;> omega
  obtain ⟨h1, h2, h3⟩ := C23_decode_partial hv hk ho hp (.inr (.inr (by rw [hu]; exact hb)))
  rw [hu, hw, e] at h2
  rw [hw, e] at h1
  rw [hu, e] at h3
  obtain ⟨n1, n2, n3⟩ := neutral_decode s Y
  rw [h1, h2, h3, ← n1, ← n2, ← n3]
  exact ⟨val_byte (isByte_clamp _), val_byte (isByte_clamp _), val_byte (isByte_clamp _)⟩

/-- **C112**, decoding in limited range: the same luma with neutral chroma is the same grey in Bt601 and
in Bt709. -/
theorem C112_decode_limited (hv : Valid t c) (hv' : Valid t' c') (hk : c.Decodes) (hk' : c'.Decodes)
    (hs : (std c.src_format.color_space).fullRange = false)
    (hs' : (std c'.src_format.color_space).fullRange = false)
    (ho : Stores t crate cpu c out) (ho' : Stores t' crate cpu' c' out')
    (hp : c.Pixel x y) (hp' : c'.Pixel x' y') (hu : c.yuvIn.cb x y = 128) (hw : c.yuvIn.cr x y = 128)
    (hu' : c'.yuvIn.cb x' y' = 128) (hw' : c'.yuvIn.cr x' y' = 128)
    (he : c'.yuvIn.y x' y' = c.yuvIn.y x y) :
    val ((c'.rgbOut out').r x' y') = val ((c.rgbOut out).r x y) ∧
    val ((c'.rgbOut out').g x' y') = val ((c.rgbOut out).g x y) ∧
    val ((c'.rgbOut out').b x' y') = val ((c.rgbOut out).b x y) := by
  obtain ⟨a1, a2, a3⟩ := C112_decode hv hk ho hp hu hw
  obtain ⟨b1, b2, b3⟩ := C112_decode hv' hk' ho' hp' hu' hw'
  rw [a1, a2, a3, b1, b2, b3, he]
  generalize std c.src_format.color_space = s at *
  generalize std c'.src_format.color_space = s' at *
  cases s <;> cases hs <;> cases s' <;> cases hs' <;> exact ⟨rfl, rfl, rfl⟩

/-- **C112**, decoding in full range: Bt709 shows red one step brighter than Bt601 (unless it saturates),
green and blue the same. -/
theorem C112_decode_full (hv : Valid t c) (hv' : Valid t' c') (hk : c.Decodes) (hk' : c'.Decodes)
    (hs : std c.src_format.color_space = .bt601FR) (hs' : std c'.src_format.color_space = .bt709FR)
    (ho : Stores t crate cpu c out) (ho' : Stores t' crate cpu' c' out')
    (hp : c.Pixel x y) (hp' : c'.Pixel x' y') (hu : c.yuvIn.cb x y = 128) (hw : c.yuvIn.cr x y = 128)
    (hu' : c'.yuvIn.cb x' y' = 128) (hw' : c'.yuvIn.cr x' y' = 128)
    (he : c'.yuvIn.y x' y' = c.yuvIn.y x y) :
    val ((c'.rgbOut out').r x' y') = (if val (c.yuvIn.y x y) ≤ 253 then val ((c.rgbOut out).r x y) + 1
      else val ((c.rgbOut out).r x y)) ∧
    val ((c'.rgbOut out').g x' y') = val ((c.rgbOut out).g x y) ∧
    val ((c'.rgbOut out').b x' y') = val ((c.rgbOut out).b x y) := by
  obtain ⟨a1, a2, a3⟩ := C112_decode hv hk ho hp hu hw
  obtain ⟨b1, b2, b3⟩ := C112_decode hv' hk' ho' hp' hu' hw'
  rw [a1, a2, a3, b1, b2, b3, he, hs, hs']
  have := val_range (c.yuvIn.y x y)
  refine ⟨?_, rfl, rfl⟩
  simp only [neutral, clamp]
  omega

/-- **C112**, the wrong standard: a grey picture stored in limited range is shown the same when it is
taken for one in the other standard. -/
theorem C112_mistaken (hv : Valid t c) (hk : c.Encodes) (ho : Stores t crate cpu c out)
    (hp : c.Pixel x y) (hg : GreyAround c x y)
    (hv' : Valid t' c') (hk' : c'.Decodes) (ho' : Stores t' crate cpu' c' out')
    (hv₂ : Valid t₂ c₂) (hk₂ : c₂.Decodes) (ho₂ : Stores t₂ crate cpu₂ c₂ out₂)
    (hp' : c'.Pixel x y) (hp₂ : c₂.Pixel x y)
    (hi' : YuvAt (c.yuvOut out) c'.yuvIn x y) (hi₂ : YuvAt (c.yuvOut out) c₂.yuvIn x y)
    (hs : (std c'.src_format.color_space).fullRange = false)
    (hs₂ : (std c₂.src_format.color_space).fullRange = false) :
    val ((c₂.rgbOut out₂).r x y) = val ((c'.rgbOut out').r x y) ∧
    val ((c₂.rgbOut out₂).g x y) = val ((c'.rgbOut out').g x y) ∧
    val ((c₂.rgbOut out₂).b x y) = val ((c'.rgbOut out').b x y) := by
  obtain ⟨a1, a2⟩ := grey_neutral hv hk ho hp hg
  obtain ⟨i1, i2, i3⟩ := hi'
  obtain ⟨j1, j2, j3⟩ := hi₂
  exact C112_decode_limited hv' hv₂ hk' hk₂ hs hs₂ ho' ho₂ hp' hp₂ (i2 ▸ a1) (i3 ▸ a2) (j2 ▸ a1)
    (j3 ▸ a2) (j1.symm.trans i1)

/-- The same grey ramp of 10x2 pixels in another standard and format. -/
def exRamp (cs : ColorSpace) : Call where
  width := 10
  height := 2
  src_format := ⟨.bgra, .rgb, 1⟩
  src_strides := none
  src_buffers := [⟨80, fun i => UInt8.ofNat (i / 4 * 12)⟩]
  dst_format := ⟨.nv12, cs, 2⟩
  dst_strides := none
  dst_buffers := [noise 20 2, noise 10 3]

/-- What is stored, taken for an image in the standard `cs`. -/
def exRampShown (cs : ColorSpace) (out : List Buf) : Call where
  width := 10
  height := 2
  src_format := ⟨.nv12, cs, 2⟩
  src_strides := none
  src_buffers := out
  dst_format := ⟨.bgra, .rgb, 1⟩
  dst_strides := none
  dst_buffers := [noise 80 5]

theorem exRamp_valid : Valid .x64 (exRamp .bt601) ∧ Valid .x64 (exRamp .bt709) :=
  ⟨valid_of_check (by decide +kernel), valid_of_check (by decide +kernel)⟩

theorem exRamp_grey (cs : ColorSpace) (x y : Nat) : GreyAround (exRamp cs) x y := by
  intro x' y' ⟨h1, h2⟩ _ _
  change x' < 10 at h1
  change y' < 2 at h2
  exact (by decide +kernel : ∀ x < 10, ∀ y < 2, (exRamp .bt601).rgbIn.g x y = (exRamp .bt601).rgbIn.r x y ∧
    (exRamp .bt601).rgbIn.b x y = (exRamp .bt601).rgbIn.r x y) x' h1 y' h2

theorem exRamp_shown (set : InstructionSet) :
    Valid .x64 (exRampShown .bt601 ((semOf set).out (exRamp .bt601))) ∧
    Valid .x64 (exRampShown .bt709 ((semOf set).out (exRamp .bt601))) := by
  constructor <;> cases set <;> exact valid_of_check (by decide +kernel)

/-- The hypotheses of C112 are met by a grey ramp: the two encodings agree, and what is stored in Bt601
may be taken for Bt709, on any processors. -/
example (cpu cpu' cpu₂ : Cpu) : ∃ out out' out₂ out₃, Stores .x64 crate cpu (exRamp .bt601) out ∧
    Stores .x64 crate cpu' (exRamp .bt709) out₃ ∧
    ((exRamp .bt709).yuvOut out₃).y 9 1 = ((exRamp .bt601).yuvOut out).y 9 1 ∧
    Stores .x64 crate cpu' (exRampShown .bt601 out) out' ∧
    Stores .x64 crate cpu₂ (exRampShown .bt709 out) out₂ ∧
    val (((exRampShown .bt709 out).rgbOut out₂).r 9 1) =
      val (((exRampShown .bt601 out).rgbOut out').r 9 1) := by
  have h1 := (Runs.crate (cpu := cpu) exRamp_valid.1 (.of_ne (by decide))).stores
  have h3 := (Runs.crate (cpu := cpu') exRamp_valid.2 (.of_ne (by decide))).stores
  obtain ⟨v1, v2⟩ := exRamp_shown cpu.set
  generalize (semOf cpu.set).out (exRamp .bt601) = out at *
  have h4 := (Runs.crate (cpu := cpu') v1 (.of_ne fun e => by cases e)).stores
  have h5 := (Runs.crate (cpu := cpu₂) v2 (.of_ne fun e => by cases e)).stores
  have hp : 9 < (10 : UInt32).toNat ∧ 1 < (2 : UInt32).toNat := by decide
  refine ⟨out, _, _, _, h1, h3, ?_, h4, h5, ?_⟩
  · exact (C112_encode exRamp_valid.1 exRamp_valid.2 ⟨rfl, rfl⟩ ⟨rfl, rfl⟩ rfl h1 h3
      ⟨by decide, by decide⟩ ⟨by decide, by decide⟩ (exRamp_grey _ _ _) (exRamp_grey _ _ _) rfl).1
  · exact (C112_mistaken (x := 9) (y := 1) exRamp_valid.1 ⟨rfl, rfl⟩ h1 ⟨by decide, by decide⟩
      (exRamp_grey _ _ _) v1 ⟨rfl, rfl⟩ h4 v2 ⟨rfl, rfl⟩ h5 hp
      hp ⟨rfl, rfl, rfl⟩ ⟨rfl, rfl, rfl⟩ rfl rfl).1

/-- Decoding in full range: the grey 100 gets red 101 in Bt601 and 102 in Bt709. -/
example : neutral .bt601FR 100 = (101, 99, 102) ∧ neutral .bt709FR 100 = (102, 99, 102) ∧
    neutral .bt709 100 = (98, 98, 98) := by decide

/-- It is the colour that makes the difference: pure red has other codes in Bt709. -/
example : luma .bt601 255 0 0 = 81 ∧ luma .bt709 255 0 0 = 63 := by decide

end Verif
