import Verif.Spec.Pipeline
import Verif.Props.Smooth
import Verif.Props.Turn
/-!
# C111: a picture encoded by the library looks the same on every processor

The exceptions of C46 (blue beyond the 16-bit range) never concern images stored by the library, so
that the processor of the receiver does not matter. The processor of the sender matters only if one
of two senders uses NEON, which rounds ties of chroma differently (C51), and then by little.
-/

namespace Verif
open Spec

variable {t t' t₂ t₂' : Target} {cpu cpu' cpu₂ cpu₂' : Cpu} {c c' c₂ c₂' : Call}
  {out out' out₂ out₂' : List Buf} {x y : Nat}

/-- What a receiver stores: the documented function of the codes, without exception. -/
theorem received (hv : Valid t c) (hk : c.Encodes) (ho : Stores t crate cpu c out)
    (hr : Receives c c' out) (hv' : Valid t' c') (hk' : c'.Decodes)
    (ho' : Stores t' crate cpu' c' out') (hp : c.Pixel x y) :
    let s := std c.dst_format.color_space
    let Y := val ((c.yuvOut out).y x y)
    let U := val ((c.yuvOut out).cb x y)
    let V := val ((c.yuvOut out).cr x y)
    (c'.rgbOut out').r x y = byte (red s Y V) ∧ (c'.rgbOut out').g x y = byte (green s Y U V) ∧
    (c'.rgbOut out').b x y = byte (blue s Y U) := by
  intro s Y U V
  obtain ⟨h1, h2, h3⟩ := hr.samples x y hp
  have hp' : c'.Pixel x y := by unfold Call.Pixel at *; rw [hr.width, hr.height]; exact hp
  have hb : blueFix s Y U ≤ 32767 := by
    refine blueFix_small (val_range _) (val_range _) ?_
    cases hs : (std c.dst_format.color_space).fullRange
    · obtain ⟨⟨-, h1⟩, ⟨-, h2⟩, -⟩ := C35_stored hv hk hs ho hp
      rw [UInt8.le_iff_toNat_le] at h1 h2
      refine .inr ⟨?_, ?_⟩
      · show ((c.yuvOut out).y x y).toNat ≤ (_ : ℤ)
        exact_mod_cast h1
      · show ((c.yuvOut out).cb x y).toNat ≤ (_ : ℤ)
        exact_mod_cast h2
    · exact .inl rfl
  have := C23_decode_partial hv' hk' ho' hp' (.inr (.inr (by rw [hr.space, ← h1, ← h2]; exact hb)))
  rw [hr.space, ← h1, ← h2, ← h3] at this
  exact this

/-- **C111**, receivers: whatever the processors, targets and destination formats of two receivers of
one encoded picture, they show the same colours. -/
theorem C111_receivers (hv : Valid t c) (hk : c.Encodes) (ho : Stores t crate cpu c out)
    (hr : Receives c c' out) (hv' : Valid t' c') (hk' : c'.Decodes)
    (ho' : Stores t' crate cpu' c' out')
    (hr₂ : Receives c c₂' out) (hv₂' : Valid t₂' c₂') (hk₂' : c₂'.Decodes)
    (ho₂' : Stores t₂' crate cpu₂' c₂' out₂') (hp : c.Pixel x y) :
    RgbAt (c'.rgbOut out') (c₂'.rgbOut out₂') x y := by
  obtain ⟨a1, a2, a3⟩ := received hv hk ho hr hv' hk' ho' hp
  obtain ⟨b1, b2, b3⟩ := received hv hk ho hr₂ hv₂' hk₂' ho₂' hp
  exact ⟨a1.trans b1.symm, a2.trans b2.symm, a3.trans b3.symm⟩

theorem SentTwice.sums (h : SentTwice c c₂) (hv : Valid t c)
    (hd : c.dst_format.pixel_format = .i420 ∨ c.dst_format.pixel_format = .nv12)
    (hp : c.Pixel x y) : sum4 c₂.rgbIn.r (x / 2) (y / 2) = sum4 c.rgbIn.r (x / 2) (y / 2) ∧
    sum4 c₂.rgbIn.g (x / 2) (y / 2) = sum4 c.rgbIn.g (x / 2) (y / 2) ∧
    sum4 c₂.rgbIn.b (x / 2) (y / 2) = sum4 c.rgbIn.b (x / 2) (y / 2) := by
  obtain ⟨e1, e2⟩ := Valid.even hv hd
  obtain ⟨p1, p2⟩ := hp
  have q : ∀ i j, i < 2 → j < 2 → RgbAt c.rgbIn c₂.rgbIn (2 * (x / 2) + i) (2 * (y / 2) + j) :=
    fun i j hi hj => h.pixels _ _ ⟨by omega, by omega⟩
  obtain ⟨a1, a2, a3⟩ := q 0 0 (by decide) (by decide)
  obtain ⟨b1, b2, b3⟩ := q 1 0 (by decide) (by decide)
  obtain ⟨c1, c2, c3⟩ := q 0 1 (by decide) (by decide)
  obtain ⟨d1, d2, d3⟩ := q 1 1 (by decide) (by decide)
  simp only [Nat.add_zero] at a1 a2 a3 b1 b2 b3 c1 c2 c3
  unfold sum4
  rw [a1, a2, a3, b1, b2, b3, c1, c2, c3, d1, d2, d3]
  exact ⟨rfl, rfl, rfl⟩

/-- Two encodings of one picture, both with NEON or both without, store the same codes. -/
theorem same_codes (h : SentTwice c c₂) (hv : Valid t c) (hv₂ : Valid t₂ c₂) (hk : c.Encodes)
    (hk₂ : c₂.Encodes) (hn : cpu.set = .neon ↔ cpu₂.set = .neon)
    (ho : Stores t crate cpu c out) (ho₂ : Stores t₂ crate cpu₂ c₂ out₂) (hp : c.Pixel x y) :
    YuvAt (c.yuvOut out) (c₂.yuvOut out₂) x y := by
  have hp₂ : c₂.Pixel x y := by unfold Call.Pixel at *; rw [h.width, h.height]; exact hp
  obtain ⟨a1, a2, a3⟩ := h.pixels x y hp
  refine ⟨?_, ?_⟩
  · rw [C20_luma hv hk ho hp, C20_luma hv₂ hk₂ ho₂ hp₂, h.space, a1, a2, a3]
  · by_cases hd : c.dst_format.pixel_format = .i444
    · have hd₂ := h.sampling.mpr hd
      by_cases n : cpu.set = .neon
      · obtain ⟨b1, b2⟩ := C22_chroma_444_neon hv hk n hd ho hp
        obtain ⟨d1, d2⟩ := C22_chroma_444_neon hv₂ hk₂ (hn.1 n) hd₂ ho₂ hp₂
        rw [b1, b2, d1, d2, h.space, h.width, a1, a2, a3]
        exact ⟨rfl, rfl⟩
      · obtain ⟨b1, b2⟩ := C22_chroma_444_partial hv hk n hd ho hp
        obtain ⟨d1, d2⟩ := C22_chroma_444_partial hv₂ hk₂ (fun e => n (hn.2 e)) hd₂ ho₂ hp₂
        rw [b1, b2, d1, d2, h.space, a1, a2, a3]
        exact ⟨rfl, rfl⟩
    · have hd' := dst_420 hv hk hd
      have hd₂ := dst_420 hv₂ hk₂ (fun e => hd (h.sampling.mp e))
      obtain ⟨s1, s2, s3⟩ := SentTwice.sums h hv hd' hp
      by_cases n : cpu.set = .neon
      · obtain ⟨b1, b2⟩ := C21_chroma_420_neon hv hk n hd' ho hp
        obtain ⟨d1, d2⟩ := C21_chroma_420_neon hv₂ hk₂ (hn.1 n) hd₂ ho₂ hp₂
        rw [b1, b2, d1, d2, h.space, h.width, s1, s2, s3]
        exact ⟨rfl, rfl⟩
      · obtain ⟨b1, b2⟩ := C21_chroma_420_partial hv hk n hd' ho hp
        obtain ⟨d1, d2⟩ := C21_chroma_420_partial hv₂ hk₂ (fun e => n (hn.2 e)) hd₂ ho₂ hp₂
        rw [b1, b2, d1, d2, h.space, s1, s2, s3]
        exact ⟨rfl, rfl⟩

/-- **C111**, two senders that both use NEON or both do without: two encodings of one picture are shown
with the same colours, whatever the four processors, the layout of the picture, the layout of the
encoded image and the format shown. -/
theorem C111_senders (h : SentTwice c c₂) (hv : Valid t c) (hv₂ : Valid t₂ c₂) (hk : c.Encodes)
    (hk₂ : c₂.Encodes) (hn : cpu.set = .neon ↔ cpu₂.set = .neon)
    (ho : Stores t crate cpu c out) (ho₂ : Stores t₂ crate cpu₂ c₂ out₂)
    (hr : Receives c c' out) (hv' : Valid t' c') (hk' : c'.Decodes)
    (ho' : Stores t' crate cpu' c' out')
    (hr₂ : Receives c₂ c₂' out₂) (hv₂' : Valid t₂' c₂') (hk₂' : c₂'.Decodes)
    (ho₂' : Stores t₂' crate cpu₂' c₂' out₂') (hp : c.Pixel x y) :
    RgbAt (c'.rgbOut out') (c₂'.rgbOut out₂') x y := by
  have hp₂ : c₂.Pixel x y := by unfold Call.Pixel at *; rw [h.width, h.height]; exact hp
  obtain ⟨a1, a2, a3⟩ := received hv hk ho hr hv' hk' ho' hp
  obtain ⟨b1, b2, b3⟩ := received hv₂ hk₂ ho₂ hr₂ hv₂' hk₂' ho₂' hp₂
  obtain ⟨e1, e2, e3⟩ := same_codes h hv hv₂ hk hk₂ hn ho ho₂ hp
  simp only [h.space, ← e1, ← e2, ← e3] at b1 b2 b3
  exact ⟨a1.trans b1.symm, a2.trans b2.symm, a3.trans b3.symm⟩

/-- Without ties NEON stores what the portable code stores. -/
theorem without_neon (hv : Valid t c) (hk : c.Encodes) (hn : NoTies c) (ho : Stores t crate cpu c out) :
    ∃ cpu' : Cpu, cpu'.set ≠ .neon ∧ Stores t crate cpu' c out := by
  by_cases n : cpu.set = .neon
  · refine ⟨plainCpu, by decide, ?_⟩
    unfold Stores at *
    rw [← C51_encode_partial hv hk n rfl hn]
    exact ho
  · exact ⟨cpu, n, ho⟩

/-- **C111**, all senders, pictures without ties of chroma: the same colours. -/
theorem C111_no_ties (h : SentTwice c c₂) (hv : Valid t c) (hv₂ : Valid t₂ c₂) (hk : c.Encodes)
    (hk₂ : c₂.Encodes) (hn : NoTies c) (hn₂ : NoTies c₂)
    (ho : Stores t crate cpu c out) (ho₂ : Stores t₂ crate cpu₂ c₂ out₂)
    (hr : Receives c c' out) (hv' : Valid t' c') (hk' : c'.Decodes)
    (ho' : Stores t' crate cpu' c' out')
    (hr₂ : Receives c₂ c₂' out₂) (hv₂' : Valid t₂' c₂') (hk₂' : c₂'.Decodes)
    (ho₂' : Stores t₂' crate cpu₂' c₂' out₂') (hp : c.Pixel x y) :
    RgbAt (c'.rgbOut out') (c₂'.rgbOut out₂') x y := by
  obtain ⟨_, n, q⟩ := without_neon hv hk hn ho
  obtain ⟨_, n₂, q₂⟩ := without_neon hv₂ hk₂ hn₂ ho₂
  exact C111_senders h hv hv₂ hk hk₂ (iff_of_false n n₂) q q₂ hr hv' hk' ho' hr₂ hv₂' hk₂' ho₂' hp

theorem red_unit (s : Std) (y : ℤ) {v v' : ℤ} (h : |v - v'| ≤ 1) : |red s y v - red s y v'| ≤ 2 := by
  refine clamp_step ?_
  rw [abs_le] at *
  cases s <;> simp only [redFix, dec] <;> omega

theorem green_unit (s : Std) (y : ℤ) {u v u' v' : ℤ} (h : |u - u'| ≤ 1) (h' : |v - v'| ≤ 1) :
    |green s y u v - green s y u' v'| ≤ 2 := by
  refine clamp_step ?_
  rw [abs_le] at *
  cases s <;> simp only [greenFix, dec] <;> omega

theorem blue_unit (s : Std) (y : ℤ) {u u' : ℤ} (h : |u - u'| ≤ 1) :
    |blue s y u - blue s y u'| ≤ unitB s := by
  refine clamp_step ?_
  rw [abs_le] at *
  cases s <;> simp only [blueFix, dec, unitB] <;> omega

/-- **C111**, all senders: on any processors, two encodings of one picture are shown with nearly the
same colours. -/
theorem C111_any (h : SentTwice c c₂) (hv : Valid t c) (hv₂ : Valid t₂ c₂) (hk : c.Encodes)
    (hk₂ : c₂.Encodes) (ho : Stores t crate cpu c out) (ho₂ : Stores t₂ crate cpu₂ c₂ out₂)
    (hr : Receives c c' out) (hv' : Valid t' c') (hk' : c'.Decodes)
    (ho' : Stores t' crate cpu' c' out')
    (hr₂ : Receives c₂ c₂' out₂) (hv₂' : Valid t₂' c₂') (hk₂' : c₂'.Decodes)
    (ho₂' : Stores t₂' crate cpu₂' c₂' out₂') (hp : c.Pixel x y) :
    |val ((c'.rgbOut out').r x y) - val ((c₂'.rgbOut out₂').r x y)| ≤ 2 ∧
    |val ((c'.rgbOut out').g x y) - val ((c₂'.rgbOut out₂').g x y)| ≤ 2 ∧
    |val ((c'.rgbOut out').b x y) - val ((c₂'.rgbOut out₂').b x y)| ≤
      unitB (std c.dst_format.color_space) := by
  have hp₂ : c₂.Pixel x y := by unfold Call.Pixel at *; rw [h.width, h.height]; exact hp
  obtain ⟨p1, p2, p3⟩ := h.pixels x y hp
  have hl : (c₂.yuvOut out₂).y x y = (c.yuvOut out).y x y := by
    rw [C20_luma hv hk ho hp, C20_luma hv₂ hk₂ ho₂ hp₂, h.space, p1, p2, p3]
  have z : ∀ v : ℤ, |v - v| ≤ 1 := fun v => by rw [sub_self]; decide
  have z4 : ∀ v : ℤ, |v - v| ≤ 4 * 1 := fun v => by rw [sub_self]; decide
  have hc : |val ((c.yuvOut out).cb x y) - val ((c₂.yuvOut out₂).cb x y)| ≤ 1 ∧
      |val ((c.yuvOut out).cr x y) - val ((c₂.yuvOut out₂).cr x y)| ≤ 1 := by
    by_cases hd : c.dst_format.pixel_format = .i444
    · exact C98_chroma_444 hv hv₂ hk hk₂ hd (h.sampling.mpr hd) h.space ho ho₂ hp hp₂ le_rfl
        (by rw [p1]; exact z _) (by rw [p2]; exact z _) (by rw [p3]; exact z _)
    · have hd' := dst_420 hv hk hd
      obtain ⟨s1, s2, s3⟩ := SentTwice.sums h hv hd' hp
      exact C98_chroma_420 hv hv₂ hk hk₂ hd' (dst_420 hv₂ hk₂ (fun e => hd (h.sampling.mp e)))
        h.space ho ho₂ hp hp₂ le_rfl (by rw [s1]; exact z4 _) (by rw [s2]; exact z4 _)
        (by rw [s3]; exact z4 _)
  obtain ⟨a1, a2, a3⟩ := received hv hk ho hr hv' hk' ho' hp
  obtain ⟨b1, b2, b3⟩ := received hv₂ hk₂ ho₂ hr₂ hv₂' hk₂' ho₂' hp₂
  rw [h.space, hl] at b1 b2 b3
  have e : ∀ v, val (byte (clamp v)) = clamp v := fun v => val_byte (isByte_clamp v)
  refine ⟨?_, ?_, ?_⟩
  · rw [a1, b1, red, red, e, e]; exact red_unit _ _ hc.2
  · rw [a2, b2, green, green, e, e]; exact green_unit _ _ hc.1 hc.2
  · rw [a3, b3, blue, blue, e, e]; exact blue_unit _ _ hc.1

/-- An 8x1 image of one dark blue, r = 18, g = 2, b = 66. -/
def exDark : Call where
  width := 8
  height := 1
  src_format := ⟨.bgra, .rgb, 1⟩
  src_strides := none
  src_buffers := [⟨32, fun i => if i % 4 = 0 then 66 else if i % 4 = 1 then 2 else
    if i % 4 = 2 then 18 else 7⟩]
  dst_format := ⟨.i444, .bt709, 3⟩
  dst_strides := none
  dst_buffers := [noise 8 2, noise 8 3, noise 8 4]

/-- The same picture in Argb with padded lines. -/
def exDark' : Call := { exDark with
  src_format := ⟨.argb, .rgb, 1⟩
  src_strides := some [40]
  src_buffers := [⟨40, fun i => if i % 4 = 3 then 66 else if i % 4 = 2 then 2 else
    if i % 4 = 1 then 18 else 9⟩] }

/-- Decoding of the planes that have been stored. -/
def exShow (out : List Buf) : Call where
  width := 8
  height := 1
  src_format := ⟨.i444, .bt709, 3⟩
  src_strides := none
  src_buffers := out
  dst_format := ⟨.bgra, .rgb, 1⟩
  dst_strides := none
  dst_buffers := [noise 32 5]

theorem exDark_valid : Valid .x64 exDark := valid_of_check (by decide +kernel)

theorem exDark_valid' : Valid .x64 exDark' := valid_of_check (by decide +kernel)

theorem exDark_same : SentTwice exDark exDark' := by
  refine ⟨rfl, rfl, rfl, Iff.rfl, fun x y ⟨h1, h2⟩ => ?_⟩
  have e : y = 0 := by change y < 1 at h2; omega
  subst e
  change x < 8 at h1
  exact (by decide +kernel : ∀ x < 8, exDark.rgbIn.r x 0 = exDark'.rgbIn.r x 0 ∧
    exDark.rgbIn.g x 0 = exDark'.rgbIn.g x 0 ∧ exDark.rgbIn.b x 0 = exDark'.rgbIn.b x 0) x h1

theorem exShow_valid (set : InstructionSet) : Valid .x64 (exShow ((semOf set).out exDark)) ∧
    Valid .x64 (exShow ((semOf set).out exDark')) := by
  constructor <;> cases set <;> exact valid_of_check (by decide +kernel)

/-- The hypotheses of C111 are met, on any four processors. -/
example (cpu cpu' cpu₂ cpu₂' : Cpu) : ∃ out out' out₂ out₂', SentTwice exDark exDark' ∧
    Valid .x64 exDark ∧ Valid .x64 exDark' ∧ exDark.Encodes ∧ exDark'.Encodes ∧
    Stores .x64 crate cpu exDark out ∧ Stores .x64 crate cpu₂ exDark' out₂ ∧
    Receives exDark (exShow out) out ∧ Receives exDark' (exShow out₂) out₂ ∧
    Valid .x64 (exShow out) ∧ Valid .x64 (exShow out₂) ∧
    (exShow out).Decodes ∧ (exShow out₂).Decodes ∧
    Stores .x64 crate cpu' (exShow out) out' ∧
    Stores .x64 crate cpu₂' (exShow out₂) out₂' ∧ exDark.Pixel 7 0 :=
  ⟨_, _, _, _, exDark_same, exDark_valid, exDark_valid', ⟨rfl, rfl⟩, ⟨rfl, rfl⟩,
    (Runs.crate exDark_valid (.of_ne (by decide))).stores,
    (Runs.crate exDark_valid' (.of_ne (by decide))).stores,
    ⟨rfl, rfl, rfl, fun _ _ _ => ⟨rfl, rfl, rfl⟩⟩, ⟨rfl, rfl, rfl, fun _ _ _ => ⟨rfl, rfl, rfl⟩⟩,
    (exShow_valid cpu.set).1, (exShow_valid cpu₂.set).2, ⟨rfl, rfl⟩, ⟨rfl, rfl⟩,
    (Runs.crate (exShow_valid cpu.set).1 (.of_ne fun e => by cases e)).stores,
    (Runs.crate (exShow_valid cpu₂.set).2 (.of_ne fun e => by cases e)).stores,
    ⟨by decide, by decide⟩⟩

theorem exDark_codes : val ((exDark.yuvOut ((semOf .neon).out exDark)).y 0 0) = 25 ∧
    val ((exDark.yuvOut ((semOf .neon).out exDark)).cb 0 0) = 155 ∧
    val ((exDark.yuvOut ((semOf .x86).out exDark)).y 0 0) = 25 ∧
    val ((exDark.yuvOut ((semOf .x86).out exDark)).cb 0 0) = 154 := by
  decide +kernel

theorem exShow_blue {cpu cpu' : Cpu} {out out' : List Buf} (h : Stores .x64 crate cpu exDark out)
    (hv : Valid .x64 (exShow out)) (h' : Stores .x64 crate cpu' (exShow out) out') :
    val (((exShow out).rgbOut out').b 0 0) =
      blue .bt709 (val ((exDark.yuvOut out).y 0 0)) (val ((exDark.yuvOut out).cb 0 0)) := by
  rw [(received (c' := exShow out) (x := 0) (y := 0) exDark_valid ⟨rfl, rfl⟩ h
    ⟨rfl, rfl, rfl, fun _ _ _ => ⟨rfl, rfl, rfl⟩⟩ hv ⟨rfl, rfl⟩ h' ⟨by decide, by decide⟩).2.2]
  exact val_byte (isByte_clamp _)

/-- **C111**, the bound for blue is attained: encoded with NEON the dark blue is shown three steps
brighter than encoded on a processor without vector instructions, whatever the receivers are. -/
theorem C111_attained (cpu cpu' : Cpu) : ∃ out out' out₂ out₂',
    Stores .x64 crate neonCpu exDark out ∧ Stores .x64 crate cpu (exShow out) out' ∧
    Stores .x64 crate plainCpu exDark out₂ ∧ Stores .x64 crate cpu' (exShow out₂) out₂' ∧
    val (((exShow out).rgbOut out').b 0 0) = val (((exShow out₂).rgbOut out₂').b 0 0) + 3 := by
  have h1 : Stores .x64 crate neonCpu exDark ((semOf .neon).out exDark) :=
    (Runs.crate (cpu := neonCpu) exDark_valid (.of_ne (by decide))).stores
  have h2 : Stores .x64 crate plainCpu exDark ((semOf .x86).out exDark) :=
    (Runs.crate (cpu := plainCpu) exDark_valid (.of_ne (by decide))).stores
  obtain ⟨e1, e2, e3, e4⟩ := exDark_codes
  have v1 := (exShow_valid .neon).1
  have v2 := (exShow_valid .x86).1
  generalize (semOf .neon).out exDark = out at *
  generalize (semOf .x86).out exDark = out₂ at *
  have h3 := (Runs.crate (cpu := cpu) v1 (.of_ne fun e => by cases e)).stores
  have h4 := (Runs.crate (cpu := cpu') v2 (.of_ne fun e => by cases e)).stores
  refine ⟨out, _, out₂, _, h1, h3, h2, h4, ?_⟩
  rw [exShow_blue h1 v1 h3, exShow_blue h2 v2 h4, e1, e2, e3, e4]
  decide

end Verif
