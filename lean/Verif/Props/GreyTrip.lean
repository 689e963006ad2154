import Verif.Props.Grey
import Verif.Props.Transcode
/-!
# C113: grey pictures survive encoding and decoding; C114: mistaking the range

In limited range a grey stays a grey, at most one step lighter or darker, and a second encoding changes
nothing. In full range the offsets of the decoder (C40) tint it.
-/

namespace Verif
open Spec

variable {t t' t₂ t₂' : Target} {cpu cpu' cpu₂ cpu₂' : Cpu} {c c' c₂ c₂' : Call}
  {out out' out₂ out₂' : List Buf} {x y x₂ y₂ : Nat}

/-- What becomes of the grey `v` in limited range: the luma is 16 + 0.8588 v to the nearest integer, the
decoder multiplies by 1.1644. -/
def Spec.greyTrip (v : ℤ) : ℤ := clamp (((16 + (56284 * v + 32768) / 65536) * 19077 / 256 - 1160) / 64)

theorem grey_luma_limited {s : Std} (h : s.fullRange = false) (v : ℤ) :
    luma s v v v = 16 + (56284 * v + 32768) / 65536 := by
  have e : dot (lumaCoef s) v v v = 56284 * v := by
    cases s <;> cases h <;> simp only [dot, lumaCoef] <;> omega
  rw [luma, e, lumaOffset, h]
  rfl

theorem greyTrip_near {v : ℤ} (h : 0 ≤ v ∧ v ≤ 255) : |greyTrip v - v| ≤ 1 := by
  rw [abs_le]
  unfold greyTrip clamp
  omega

theorem greyTrip_mono {v w : ℤ} (h : v ≤ w) : greyTrip v ≤ greyTrip w := by
  unfold greyTrip clamp
  omega

theorem greyTrip_codes {v : ℤ} (h : 0 ≤ v ∧ v ≤ 255) :
    (56284 * greyTrip v + 32768) / 65536 = (56284 * v + 32768) / 65536 := by
  obtain ⟨n, rfl⟩ := Int.eq_ofNat_of_zero_le h.1
  exact (by decide +kernel : ∀ n < 256, (56284 * greyTrip (n : ℕ) + 32768) / 65536 =
    (56284 * (n : ℕ) + 32768) / 65536) n (by omega)

/-- The stored luma of a grey, as a number. -/
theorem grey_luma_stored (hv : Valid t c) (hk : c.Encodes) (ho : Stores t crate cpu c out)
    (hp : c.Pixel x y) (hg : GreyAround c x y) : val ((c.yuvOut out).y x y) =
      luma (std c.dst_format.color_space) (val (c.rgbIn.r x y)) (val (c.rgbIn.r x y))
        (val (c.rgbIn.r x y)) := by
  obtain ⟨e1, e2⟩ := hg x y hp rfl rfl
  rw [C20_luma hv hk ho hp, e1, e2]
  refine val_byte ?_
  exact (C35_full _ (isByte_val _) (isByte_val _) (isByte_val _) (isSum4 c.rgbIn.r 0 0)
    (isSum4 c.rgbIn.r 0 0) (isSum4 c.rgbIn.r 0 0)).1

/-- **C113**, limited range: what is shown of a grey, whatever the two processors, the sampling of chroma
and the standards. -/
theorem C113_limited (hv : Valid t c) (hk : c.Encodes) (ho : Stores t crate cpu c out)
    (hp : c.Pixel x y) (hg : GreyAround c x y)
    (hv' : Valid t' c') (hk' : c'.Decodes) (ho' : Stores t' crate cpu' c' out') (hp' : c'.Pixel x y)
    (hi : YuvAt (c.yuvOut out) c'.yuvIn x y)
    (hs : (std c.dst_format.color_space).fullRange = false)
    (hs' : (std c'.src_format.color_space).fullRange = false) :
    val ((c'.rgbOut out').r x y) = greyTrip (val (c.rgbIn.r x y)) ∧
    val ((c'.rgbOut out').g x y) = greyTrip (val (c.rgbIn.r x y)) ∧
    val ((c'.rgbOut out').b x y) = greyTrip (val (c.rgbIn.r x y)) := by
  obtain ⟨a1, a2⟩ := grey_neutral hv hk ho hp hg
  obtain ⟨i1, i2, i3⟩ := hi
  have h := C112_decode hv' hk' ho' hp' (i2 ▸ a1) (i3 ▸ a2)
  rw [← i1, grey_luma_stored hv hk ho hp hg, grey_luma_limited hs] at h
  generalize std c'.src_format.color_space = s at *
  cases s <;> cases hs' <;> exact h

/-- **C113**, limited range: at most one step lighter or darker. -/
theorem C113_near (hv : Valid t c) (hk : c.Encodes) (ho : Stores t crate cpu c out)
    (hp : c.Pixel x y) (hg : GreyAround c x y)
    (hv' : Valid t' c') (hk' : c'.Decodes) (ho' : Stores t' crate cpu' c' out') (hp' : c'.Pixel x y)
    (hi : YuvAt (c.yuvOut out) c'.yuvIn x y)
    (hs : (std c.dst_format.color_space).fullRange = false)
    (hs' : (std c'.src_format.color_space).fullRange = false) :
    (c'.rgbOut out').g x y = (c'.rgbOut out').r x y ∧ (c'.rgbOut out').b x y = (c'.rgbOut out').r x y ∧
    |val ((c'.rgbOut out').r x y) - val (c.rgbIn.r x y)| ≤ 1 := by
  obtain ⟨h1, h2, h3⟩ := C113_limited hv hk ho hp hg hv' hk' ho' hp' hi hs hs'
  refine ⟨val_inj (h2.trans h1.symm), val_inj (h3.trans h1.symm), ?_⟩
  rw [h1]
  exact greyTrip_near (val_range _)

/-- **C113**, limited range: of two greys the lighter one is not shown darker. -/
theorem C113_order (hv : Valid t c) (hk : c.Encodes) (ho : Stores t crate cpu c out)
    (hp : c.Pixel x y) (hg : GreyAround c x y)
    (hv' : Valid t' c') (hk' : c'.Decodes) (ho' : Stores t' crate cpu' c' out') (hp' : c'.Pixel x y)
    (hi : YuvAt (c.yuvOut out) c'.yuvIn x y)
    (hs : (std c.dst_format.color_space).fullRange = false)
    (hs' : (std c'.src_format.color_space).fullRange = false)
    (hv₂ : Valid t₂ c₂) (hk₂ : c₂.Encodes) (ho₂ : Stores t₂ crate cpu₂ c₂ out₂)
    (hp₂ : c₂.Pixel x₂ y₂) (hg₂ : GreyAround c₂ x₂ y₂)
    (hv₂' : Valid t₂' c₂') (hk₂' : c₂'.Decodes) (ho₂' : Stores t₂' crate cpu₂' c₂' out₂')
    (hp₂' : c₂'.Pixel x₂ y₂) (hi₂ : YuvAt (c₂.yuvOut out₂) c₂'.yuvIn x₂ y₂)
    (hs₂ : (std c₂.dst_format.color_space).fullRange = false)
    (hs₂' : (std c₂'.src_format.color_space).fullRange = false)
    (h : val (c.rgbIn.r x y) ≤ val (c₂.rgbIn.r x₂ y₂)) :
    val ((c'.rgbOut out').r x y) ≤ val ((c₂'.rgbOut out₂').r x₂ y₂) := by
  rw [(C113_limited hv hk ho hp hg hv' hk' ho' hp' hi hs hs').1,
    (C113_limited hv₂ hk₂ ho₂ hp₂ hg₂ hv₂' hk₂' ho₂' hp₂' hi₂ hs₂ hs₂').1]
  exact greyTrip_mono h

/-- **C113**, limited range: encoding what is shown gives the same codes again. -/
theorem C113_again (hv : Valid t c) (hk : c.Encodes) (ho : Stores t crate cpu c out)
    (hp : c.Pixel x y) (hg : GreyAround c x y)
    (hv' : Valid t' c') (hk' : c'.Decodes) (ho' : Stores t' crate cpu' c' out') (hp' : c'.Pixel x y)
    (hi : YuvAt (c.yuvOut out) c'.yuvIn x y)
    (hs : (std c.dst_format.color_space).fullRange = false)
    (hs' : (std c'.src_format.color_space).fullRange = false)
    (hv₂ : Valid t₂ c₂) (hk₂ : c₂.Encodes) (ho₂ : Stores t₂ crate cpu₂ c₂ out₂)
    (hp₂ : c₂.Pixel x y) (hg₂ : GreyAround c₂ x y) (hi₂ : RgbAt (c'.rgbOut out') c₂.rgbIn x y)
    (hs₂ : (std c₂.dst_format.color_space).fullRange = false) :
    YuvAt (c.yuvOut out) (c₂.yuvOut out₂) x y := by
  obtain ⟨a1, a2⟩ := grey_neutral hv hk ho hp hg
  obtain ⟨b1, b2⟩ := grey_neutral hv₂ hk₂ ho₂ hp₂ hg₂
  refine ⟨val_inj ?_, a1.trans b1.symm, a2.trans b2.symm⟩
  rw [grey_luma_stored hv hk ho hp hg, grey_luma_stored hv₂ hk₂ ho₂ hp₂ hg₂, grey_luma_limited hs,
    grey_luma_limited hs₂, ← hi₂.1, (C113_limited hv hk ho hp hg hv' hk' ho' hp' hi hs hs').1,
    greyTrip_codes (val_range _)]

/-- **C113**, which greys change: black, white and 218 others do not, the remaining 36 do. -/
theorem C113_kept : greyTrip 0 = 0 ∧ greyTrip 255 = 255 ∧
    ((List.range 256).filter fun v => greyTrip (v : ℕ) = (v : ℕ)).length = 220 := by
  decide +kernel

/-- **C113**, full range: the tint. -/
theorem C113_full (hv : Valid t c) (hk : c.Encodes) (ho : Stores t crate cpu c out)
    (hp : c.Pixel x y) (hg : GreyAround c x y)
    (hv' : Valid t' c') (hk' : c'.Decodes) (ho' : Stores t' crate cpu' c' out') (hp' : c'.Pixel x y)
    (hi : YuvAt (c.yuvOut out) c'.yuvIn x y)
    (hs : (std c.dst_format.color_space).fullRange = true)
    (hs' : (std c'.src_format.color_space).fullRange = true) :
    let v := val (c.rgbIn.r x y)
    val ((c'.rgbOut out').r x y) =
      clamp (v + if std c'.src_format.color_space = .bt709FR then 2 else 1) ∧
    val ((c'.rgbOut out').g x y) = clamp (v - 1) ∧ val ((c'.rgbOut out').b x y) = clamp (v + 2) := by
  obtain ⟨a1, a2⟩ := grey_neutral hv hk ho hp hg
  obtain ⟨i1, i2, i3⟩ := hi
  have h := C112_decode hv' hk' ho' hp' (i2 ▸ a1) (i3 ▸ a2)
  rw [← i1, grey_luma_stored hv hk ho hp hg, C39_grey_luma _ hs] at h
  generalize std c'.src_format.color_space = s at *
  cases s <;> cases hs' <;> exact h

/-! ## C114: mistaking the range -/

/-- What a limited-range decoder makes of luma `v` with neutral chroma. -/
def Spec.stretched (v : ℤ) : ℤ := clamp ((v * 19077 / 256 - 1160) / 64)

/-- **C114**, a full-range picture taken for one in limited range: greys stay greys, contrast grows. -/
theorem C114_stretched (hv : Valid t c) (hk : c.Encodes) (ho : Stores t crate cpu c out)
    (hp : c.Pixel x y) (hg : GreyAround c x y)
    (hv' : Valid t' c') (hk' : c'.Decodes) (ho' : Stores t' crate cpu' c' out') (hp' : c'.Pixel x y)
    (hi : YuvAt (c.yuvOut out) c'.yuvIn x y)
    (hs : (std c.dst_format.color_space).fullRange = true)
    (hs' : (std c'.src_format.color_space).fullRange = false) :
    val ((c'.rgbOut out').r x y) = stretched (val (c.rgbIn.r x y)) ∧
    val ((c'.rgbOut out').g x y) = stretched (val (c.rgbIn.r x y)) ∧
    val ((c'.rgbOut out').b x y) = stretched (val (c.rgbIn.r x y)) := by
  obtain ⟨a1, a2⟩ := grey_neutral hv hk ho hp hg
  obtain ⟨i1, i2, i3⟩ := hi
  have h := C112_decode hv' hk' ho' hp' (i2 ▸ a1) (i3 ▸ a2)
  rw [← i1, grey_luma_stored hv hk ho hp hg, C39_grey_luma _ hs] at h
  generalize std c'.src_format.color_space = s at *
  cases s <;> cases hs' <;> exact h

/-- **C114**: exactly the greys up to 16 become black, exactly those from 235 on become white, and those
between them stay distinct. -/
theorem C114_crushed {v w : ℤ} : (stretched v = 0 ↔ v ≤ 16) ∧ (stretched v = 255 ↔ 235 ≤ v) ∧
    (16 ≤ v → v < w → w ≤ 235 → stretched v < stretched w) := by
  unfold stretched clamp
  omega

/-- **C114**, a limited-range picture taken for one in full range: black and white are not reached. -/
theorem C114_washed (hv : Valid t c) (hk : c.Encodes) (ho : Stores t crate cpu c out)
    (hp : c.Pixel x y) (hg : GreyAround c x y)
    (hv' : Valid t' c') (hk' : c'.Decodes) (ho' : Stores t' crate cpu' c' out') (hp' : c'.Pixel x y)
    (hi : YuvAt (c.yuvOut out) c'.yuvIn x y)
    (hs : (std c.dst_format.color_space).fullRange = false)
    (hs' : (std c'.src_format.color_space).fullRange = true) :
    let l := 16 + (56284 * val (c.rgbIn.r x y) + 32768) / 65536
    16 ≤ l ∧ l ≤ 235 ∧ val ((c'.rgbOut out').r x y) =
      (l + if std c'.src_format.color_space = .bt709FR then 2 else 1) ∧
    val ((c'.rgbOut out').g x y) = l - 1 ∧ val ((c'.rgbOut out').b x y) = l + 2 := by
  intro l
  obtain ⟨a1, a2⟩ := grey_neutral hv hk ho hp hg
  obtain ⟨i1, i2, i3⟩ := hi
  have h := C112_decode hv' hk' ho' hp' (i2 ▸ a1) (i3 ▸ a2)
  rw [← i1, grey_luma_stored hv hk ho hp hg, grey_luma_limited hs] at h
  change _ = (neutral _ l).1 ∧ _ = (neutral _ l).2.1 ∧ _ = (neutral _ l).2.2 at h
  have hr := val_range (c.rgbIn.r x y)
  have hl : 16 ≤ l ∧ l ≤ 235 := by omega
  refine ⟨hl.1, hl.2, ?_⟩
  clear_value l
  have e : ∀ {k : ℤ}, 0 ≤ k → k ≤ 255 → clamp k = k := fun h0 h1 => by unfold clamp; omega
  generalize std c'.src_format.color_space = s at *
  rw [h.1, h.2.1, h.2.2]
  cases s <;> cases hs'
  · exact ⟨e (by omega) (by omega), e (by omega) (by omega), e (by omega) (by omega)⟩
  · exact ⟨e (by omega) (by omega), e (by omega) (by omega), e (by omega) (by omega)⟩

/-- The shown ramp is encoded once more. -/
def exRampAgain (cs : ColorSpace) (out : List Buf) : Call := { exRamp cs with src_buffers := out }

/-- Validity of the third call does not depend on what has been shown. -/
theorem exRamp_again (set set' : InstructionSet) : Valid .x64 (exRampAgain .bt709
    ((semOf set').out (exRampShown .bt601 ((semOf set).out (exRamp .bt601))))) := by
  cases set <;> cases set' <;> exact valid_of_check (by decide +kernel)

theorem exRamp_step {cpu cpu' : Cpu} {out out' : List Buf}
    (h : Stores .x64 crate cpu (exRamp .bt601) out) (hv : Valid .x64 (exRampShown .bt601 out))
    (h' : Stores .x64 crate cpu' (exRampShown .bt601 out) out') {x y : Nat}
    (hp : (exRamp .bt601).Pixel x y) :
    ((exRampShown .bt601 out).rgbOut out').g x y = ((exRampShown .bt601 out).rgbOut out').r x y ∧
    ((exRampShown .bt601 out).rgbOut out').b x y = ((exRampShown .bt601 out).rgbOut out').r x y ∧
    |val (((exRampShown .bt601 out).rgbOut out').r x y) - val ((exRamp .bt601).rgbIn.r x y)| ≤ 1 :=
  C113_near exRamp_valid.1 ⟨rfl, rfl⟩ h hp (exRamp_grey _ _ _) hv ⟨rfl, rfl⟩ h' hp ⟨rfl, rfl, rfl⟩
    rfl rfl

/-- The hypotheses of C113 are met by a grey ramp in Nv12, also for the second encoding, on any three
processors. -/
example (cpu cpu' cpu₂ : Cpu) : ∃ out out' out₂, Stores .x64 crate cpu (exRamp .bt601) out ∧
    Stores .x64 crate cpu' (exRampShown .bt601 out) out' ∧
    Stores .x64 crate cpu₂ (exRampAgain .bt709 out') out₂ ∧
    YuvAt ((exRamp .bt601).yuvOut out) ((exRampAgain .bt709 out').yuvOut out₂) 9 1 := by
  have h1 := (Runs.crate (cpu := cpu) exRamp_valid.1 (.of_ne (by decide))).stores
  have v1 := (exRamp_shown cpu.set).1
  have v2 := exRamp_again cpu.set cpu'.set
  have h2 := (Runs.crate (cpu := cpu') v1 (.of_ne fun e => by cases e)).stores
  generalize (semOf cpu'.set).out (exRampShown .bt601 ((semOf cpu.set).out (exRamp .bt601))) = out' at *
  generalize (semOf cpu.set).out (exRamp .bt601) = out at *
  have h3 := (Runs.crate (cpu := cpu₂) v2 (.of_ne fun e => by cases e)).stores
  have hp : 9 < (10 : UInt32).toNat ∧ 1 < (2 : UInt32).toNat := by decide
  refine ⟨out, out', _, h1, h2, h3, ?_⟩
  exact C113_again exRamp_valid.1 ⟨rfl, rfl⟩ h1 hp (exRamp_grey _ _ _) v1 ⟨rfl, rfl⟩ h2 hp
    ⟨rfl, rfl, rfl⟩ rfl rfl v2 ⟨rfl, rfl⟩ h3 hp
    (fun x' y' h _ _ => ⟨(exRamp_step h1 v1 h2 h).1, (exRamp_step h1 v1 h2 h).2.1⟩) ⟨rfl, rfl, rfl⟩ rfl

/-- A grey that changes, and one in full range. -/
example : greyTrip 4 = 3 ∧ clamp (100 - 1) = 99 := by decide

theorem exRamp_full (set : InstructionSet) : Valid .x64 (exRamp .bt709FR) ∧
    Valid .x64 (exRampShown .bt601 ((semOf set).out (exRamp .bt709FR))) ∧
    Valid .x64 (exRampShown .bt601FR ((semOf set).out (exRamp .bt601))) := by
  refine ⟨valid_of_check (by decide +kernel), ?_, ?_⟩ <;> cases set <;>
  exact valid_of_check (by decide +kernel)

/-- The hypotheses of C114 are met by the ramp, which ends with 228: stored in full range it is shown
as 247, stored in limited range as (213, 211, 214). -/
example (cpu cpu' : Cpu) : (∃ out out', Stores .x64 crate cpu (exRamp .bt709FR) out ∧
      Stores .x64 crate cpu' (exRampShown .bt601 out) out' ∧
      val (((exRampShown .bt601 out).rgbOut out').g 9 1) = 247) ∧
    ∃ out out', Stores .x64 crate cpu (exRamp .bt601) out ∧
      Stores .x64 crate cpu' (exRampShown .bt601FR out) out' ∧
      val (((exRampShown .bt601FR out).rgbOut out').g 9 1) = 211 := by
  obtain ⟨v0, v1, v2⟩ := exRamp_full cpu.set
  have h1 := (Runs.crate (cpu := cpu) v0 (.of_ne (by decide))).stores
  have h2 := (Runs.crate (cpu := cpu) exRamp_valid.1 (.of_ne (by decide))).stores
  generalize (semOf cpu.set).out (exRamp .bt709FR) = out at *
  generalize (semOf cpu.set).out (exRamp .bt601) = out₂ at *
  have h3 := (Runs.crate (cpu := cpu') v1 (.of_ne fun e => by cases e)).stores
  have h4 := (Runs.crate (cpu := cpu') v2 (.of_ne fun e => by cases e)).stores
  have hp : 9 < (10 : UInt32).toNat ∧ 1 < (2 : UInt32).toNat := by decide
  refine ⟨⟨out, _, h1, h3, ?_⟩, ⟨out₂, _, h2, h4, ?_⟩⟩
  · rw [(C114_stretched (c' := exRampShown .bt601 out) (x := 9) (y := 1) v0 ⟨rfl, rfl⟩ h1 hp
      (exRamp_grey _ _ _) v1 ⟨rfl, rfl⟩ h3 hp ⟨rfl, rfl, rfl⟩ rfl rfl).2.1]
    decide +kernel
  · rw [(C114_washed (c' := exRampShown .bt601FR out₂) (x := 9) (y := 1) exRamp_valid.1 ⟨rfl, rfl⟩ h2 hp
      (exRamp_grey _ _ _) v2 ⟨rfl, rfl⟩ h4 hp ⟨rfl, rfl, rfl⟩ rfl rfl).2.2.2.1]
    decide +kernel

end Verif
