import Verif.Spec.Band
import Verif.Props.Simd
import Verif.Props.Numeric
/-!
# C73: converting a part of an image

The part may begin at any pixel (at an even position if the destination has subsampled chroma). What
is stored for a pixel is what the conversion of the whole image stores for it, with the exceptions
that follow from the differences between vector and scalar arithmetic (C23, C51): these depend on
the position of a pixel relative to the end of the line.
-/

namespace Verif

open Spec (bytesAt strideOf dims painted val byte)

variable {t : Target} {cpu : Cpu} {c c' : Call} {out out' : List Buf} {x0 y0 : Nat}

theorem Call.CropOf.pixel (hc : c'.CropOf c x0 y0) {x y : Nat} (hp : c'.Pixel x y) :
    c.Pixel (x0 + x) (y0 + y) := by
  have h1 := hc.right
  have h2 := hc.bottom
  obtain ⟨h3, h4⟩ := hp
  exact ⟨by omega, by omega⟩

/-- The part and the image have the same arithmetic for column `x` of the part. -/
def SameColumn (S : Sem) (p : PixelFormat) (w w' x0 x : Nat) : Prop :=
  S.cb p w' x = S.cb p w (x0 + x) ∧ S.cr p w' x = S.cr p w (x0 + x) ∧
  S.cbAvg p w' (x / 2) = S.cbAvg p w ((x0 + x) / 2) ∧
  S.crAvg p w' (x / 2) = S.crAvg p w ((x0 + x) / 2)

theorem sum4_crop {p p' : Spec.Plane} {x y : Nat} (hx : x0 % 2 = 0) (hy : y0 % 2 = 0)
    (h : ∀ dx dy, dx < 2 → dy < 2 → p' (2 * (x / 2) + dx) (2 * (y / 2) + dy) =
      p (x0 + (2 * (x / 2) + dx)) (y0 + (2 * (y / 2) + dy))) :
    Spec.sum4 p' (x / 2) (y / 2) = Spec.sum4 p ((x0 + x) / 2) ((y0 + y) / 2) := by
  have e1 : 2 * ((x0 + x) / 2) = x0 + 2 * (x / 2) := by omega
  have e2 : 2 * ((y0 + y) / 2) = y0 + 2 * (y / 2) := by omega
  have a := h 0 0 (by omega) (by omega)
  have b := h 1 0 (by omega) (by omega)
  have d := h 0 1 (by omega) (by omega)
  have e := h 1 1 (by omega) (by omega)
  simp only [Nat.add_zero, ← Nat.add_assoc] at a b d e
  simp only [Spec.sum4, e1, e2, a, b, d, e]

/-- The sums over the block of a pixel of a part are those of the block in the whole image. -/
theorem crop_block (hv' : Spec.Valid t c') (hk : c'.Encodes) (hc : c'.CropOf c x0 y0)
    (h4 : c.dst_format.pixel_format ≠ .i444) {x y : Nat} (hp : c'.Pixel x y) :
    Spec.sum4 c'.rgbIn.r (x / 2) (y / 2) = Spec.sum4 c.rgbIn.r ((x0 + x) / 2) ((y0 + y) / 2) ∧
    Spec.sum4 c'.rgbIn.g (x / 2) (y / 2) = Spec.sum4 c.rgbIn.g ((x0 + x) / 2) ((y0 + y) / 2) ∧
    Spec.sum4 c'.rgbIn.b (x / 2) (y / 2) = Spec.sum4 c.rgbIn.b ((x0 + x) / 2) ((y0 + y) / 2) := by
  have hsup := hv'.supported
  have hsz := hv'.dst_legal.size
  have hev := hc.even
  have hrgb := hc.rgb (by rw [← hc.src_pf]; exact hk.1)
  rw [← hc.dst_pf] at h4 hev
  have hd : Spec.halfLines c'.dst_format.pixel_format = true ∧ c'.width.toNat % 2 = 0 ∧
      c'.height.toNat % 2 = 0 := by
    have h2 := hk.2
    have h1 := hk.1
    revert hsup h1 h2 h4 hsz
    cases c'.src_format.pixel_format <;> cases c'.dst_format.pixel_format <;>
      simp [Spec.isRgb, Spec.SizeOk, Spec.halfLines, Spec.Supported, Spec.documented]
  obtain ⟨hx, hy⟩ := hev hd.1
  obtain ⟨p1, p2⟩ := hp
  have key : ∀ dx dy, dx < 2 → dy < 2 → c'.Pixel (2 * (x / 2) + dx) (2 * (y / 2) + dy) :=
    fun dx dy _ _ => ⟨by omega, by omega⟩
  exact ⟨sum4_crop hx hy fun dx dy h1 h2 => (hrgb _ _ (key dx dy h1 h2)).1,
    sum4_crop hx hy fun dx dy h1 h2 => (hrgb _ _ (key dx dy h1 h2)).2.1,
    sum4_crop hx hy fun dx dy h1 h2 => (hrgb _ _ (key dx dy h1 h2)).2.2⟩

theorem Call.CropOf.encodes (hc : c'.CropOf c x0 y0) (hk : c.Encodes) : c'.Encodes := by
  unfold Call.Encodes; rw [hc.src_pf, hc.dst_pf]; exact hk

theorem Call.CropOf.decodes (hc : c'.CropOf c x0 y0) (hk : c.Decodes) : c'.Decodes := by
  unfold Call.Decodes; rw [hc.src_pf, hc.dst_pf]; exact hk

theorem Call.CropOf.shuffles (hc : c'.CropOf c x0 y0) (hk : c.Shuffles) : c'.Shuffles := by
  unfold Call.Shuffles; rw [hc.src_pf, hc.dst_pf]; exact hk

/-- C73, conversions between RGB formats. -/
theorem C73_shuffle (hv : Spec.Valid t c) (hv' : Spec.Valid t c') (hc : c'.CropOf c x0 y0)
    (hk : c.Shuffles) (ho : Stores t crate cpu c out) (ho' : Stores t crate cpu c' out') {x y : Nat}
    (hp : c'.Pixel x y) :
    (c'.rgbOut out').r x y = (c.rgbOut out).r (x0 + x) (y0 + y) ∧
    (c'.rgbOut out').g x y = (c.rgbOut out).g (x0 + x) (y0 + y) ∧
    (c'.rgbOut out').b x y = (c.rgbOut out).b (x0 + x) (y0 + y) := by
  have hr := Runs.crate hv (ho.room hv)
  have hr' := Runs.crate hv' (ho'.room hv')
  rw [hr.out_eq ho, hr'.out_eq ho']
  obtain ⟨a1, a2, a3⟩ := hr.shuffle hk (hc.pixel hp)
  obtain ⟨b1, b2, b3⟩ := hr'.shuffle (hc.shuffles hk) hp
  obtain ⟨h1, h2, h3⟩ := hc.rgb hk.1 x y hp
  exact ⟨by rw [a1, b1, h1], by rw [a2, b2, h2], by rw [a3, b3, h3]⟩

/-- C73, decoding: red and green are always the same; so is blue if the part has full width (a band
of lines), on processors without x86 vector kernels, and wherever the vector arithmetic does not
overflow. -/
theorem C73_decode (hv : Spec.Valid t c) (hv' : Spec.Valid t c') (hc : c'.CropOf c x0 y0)
    (hk : c.Decodes) (ho : Stores t crate cpu c out) (ho' : Stores t crate cpu c' out') {x y : Nat}
    (hp : c'.Pixel x y) :
    (c'.rgbOut out').r x y = (c.rgbOut out).r (x0 + x) (y0 + y) ∧
    (c'.rgbOut out').g x y = (c.rgbOut out).g (x0 + x) (y0 + y) ∧
    (c'.width = c.width ∨ cpu.set = .x86 ∨ cpu.set = .neon ∨
      Spec.blueFix (Spec.std c.src_format.color_space) (val (c'.yuvIn.y x y))
        (val (c'.yuvIn.cb x y)) ≤ 32767 →
      (c'.rgbOut out').b x y = (c.rgbOut out).b (x0 + x) (y0 + y)) := by
  have hr := Runs.crate hv (ho.room hv)
  have hr' := Runs.crate hv' (ho'.room hv')
  rw [hr.out_eq ho, hr'.out_eq ho']
  obtain ⟨a1, a2, a3⟩ := hr.decode hk (hc.pixel hp)
  obtain ⟨b1, b2, b3⟩ := hr'.decode (hc.decodes hk) hp
  obtain ⟨h1, h2, h3⟩ := hc.yuv hk.1 x y hp
  refine ⟨?_, ?_, fun hb => ?_⟩
  · rw [a1, b1]; simp only [Sem.dec, h1, h3, hc.src_cs]
  · rw [a2, b2]; simp only [Sem.dec, h1, h2, h3, hc.src_cs]
  · rw [a3, b3]
    simp only [Sem.dec, hc.src_cs, hc.src_pf, hc.dst_pf]
    rcases hb with hb | hb
    · have e : x0 = 0 := by have := hc.right; rw [hb] at this; omega
      subst e
      rw [h1, h2, hb, Nat.zero_add]
    · rw [semOf_blue _ _ _ _ _ _ _ hb, semOf_blue, h1, h2]
      rwa [← h1, ← h2]

/-- C73, encoding: luma is always the same; chroma is the same on processors without NEON and if the
part has full width. -/
theorem C73_encode (hv : Spec.Valid t c) (hv' : Spec.Valid t c') (hc : c'.CropOf c x0 y0)
    (hk : c.Encodes) (ho : Stores t crate cpu c out) (ho' : Stores t crate cpu c' out') {x y : Nat}
    (hp : c'.Pixel x y) :
    (c'.yuvOut out').y x y = (c.yuvOut out).y (x0 + x) (y0 + y) ∧
    (c'.width = c.width ∨ cpu.set ≠ .neon →
      (c'.yuvOut out').cb x y = (c.yuvOut out).cb (x0 + x) (y0 + y) ∧
      (c'.yuvOut out').cr x y = (c.yuvOut out).cr (x0 + x) (y0 + y)) := by
  have hr := Runs.crate hv (ho.room hv)
  have hr' := Runs.crate hv' (ho'.room hv')
  rw [hr.out_eq ho, hr'.out_eq ho']
  obtain ⟨a1, a2, a3⟩ := hr.encode hk (hc.pixel hp)
  obtain ⟨b1, b2, b3⟩ := hr'.encode (hc.encodes hk) hp
  obtain ⟨h1, h2, h3⟩ := hc.rgb hk.1 x y hp
  refine ⟨?_, fun hb => ?_⟩
  · rw [a1, b1]; simp only [Sem.encoded, Spec.lumaPlane, h1, h2, h3, hc.dst_cs]
  · have hcol : SameColumn (semOf cpu.set) c.src_format.pixel_format c.width.toNat c'.width.toNat x0
        x := by
      rcases hb with hb | hb
      · have e : x0 = 0 := by have := hc.right; rw [hb] at this; omega
        subst e
        unfold SameColumn
        rw [hb, Nat.zero_add]
        exact ⟨rfl, rfl, rfl, rfl⟩
      · unfold SameColumn
        obtain ⟨e1, -, -, -⟩ := semOf_chroma hb c.src_format.pixel_format c'.width.toNat x
        obtain ⟨-, e2, -, -⟩ := semOf_chroma hb c.src_format.pixel_format c'.width.toNat x
        obtain ⟨-, -, e3, e4⟩ := semOf_chroma hb c.src_format.pixel_format c'.width.toNat (x / 2)
        obtain ⟨f1, f2, -, -⟩ := semOf_chroma hb c.src_format.pixel_format c.width.toNat (x0 + x)
        obtain ⟨-, -, f3, f4⟩ := semOf_chroma hb c.src_format.pixel_format c.width.toNat ((x0 + x) / 2)
        rw [e1, e2, e3, e4, f1, f2, f3, f4]
        exact ⟨rfl, rfl, rfl, rfl⟩
    obtain ⟨c1, c2, c3, c4⟩ := hcol
    rw [a2, b2, a3, b3, hc.src_pf, hc.dst_pf, hc.dst_cs]
    by_cases h4 : c.dst_format.pixel_format = .i444
    · simp only [Sem.encoded, h4, if_true, Sem.cb444, Sem.cr444, h1, h2, h3, c1, c2, and_self]
    · obtain ⟨s1, s2, s3⟩ := crop_block hv' (hc.encodes hk) hc h4 hp
      simp only [Sem.encoded, h4, if_false, Sem.cb420, Sem.cr420, s1, s2, s3, c3, c4, and_self]

/-- Two ways of rounding chroma differ by at most one. -/
theorem chroma_pair {u v T n : Int} (hn : n = 65536 ∨ n = 262144)
    (hb : IsByte (128 + Spec.roundDown T n))
    (hu : u = 128 + Spec.roundDown T n ∨ u = Spec.clamp (128 + Spec.roundUp T n))
    (hv : v = 128 + Spec.roundDown T n ∨ v = Spec.clamp (128 + Spec.roundUp T n)) :
    |val (byte u) - val (byte v)| ≤ 1 := by
  have e := round_tie (t := T) hn
  have h1 : 128 + Spec.roundDown T n ≤ Spec.clamp (128 + Spec.roundUp T n) ∧
      Spec.clamp (128 + Spec.roundUp T n) ≤ 128 + Spec.roundDown T n + 1 ∧
      IsByte (Spec.clamp (128 + Spec.roundUp T n)) := by
    unfold IsByte Spec.clamp at *
    split at e <;> omega
  rw [abs_le]
  rcases hu with rfl | rfl <;> rcases hv with rfl | rfl <;>
    simp only [val_byte hb, val_byte h1.2.2] <;> omega

/-- C73, encoding on any processor: chroma differs by at most one (and only with NEON, by
`C73_encode`). -/
theorem C73_encode_within_one (hv : Spec.Valid t c) (hv' : Spec.Valid t c') (hc : c'.CropOf c x0 y0)
    (hk : c.Encodes) (ho : Stores t crate cpu c out) (ho' : Stores t crate cpu c' out') {x y : Nat}
    (hp : c'.Pixel x y) :
    |val ((c'.yuvOut out').cb x y) - val ((c.yuvOut out).cb (x0 + x) (y0 + y))| ≤ 1 ∧
    |val ((c'.yuvOut out').cr x y) - val ((c.yuvOut out).cr (x0 + x) (y0 + y))| ≤ 1 := by
  have hr := Runs.crate hv (ho.room hv)
  have hr' := Runs.crate hv' (ho'.room hv')
  rw [hr.out_eq ho, hr'.out_eq ho']
  obtain ⟨-, a2, a3⟩ := hr.encode hk (hc.pixel hp)
  obtain ⟨-, b2, b3⟩ := hr'.encode (hc.encodes hk) hp
  obtain ⟨h1, h2, h3⟩ := hc.rgb hk.1 x y hp
  rw [a2, b2, a3, b3, hc.src_pf, hc.dst_pf, hc.dst_cs]
  by_cases h4 : c.dst_format.pixel_format = .i444
  · simp only [Sem.encoded, h4, if_true, Sem.cb444, Sem.cr444, h1, h2, h3]
    obtain ⟨p1, p2, -, -⟩ := semOf_between (set := cpu.set) c.src_format.pixel_format
      c'.width.toNat x
    obtain ⟨q1, q2, -, -⟩ := semOf_between (set := cpu.set) c.src_format.pixel_format
      c.width.toNat (x0 + x)
    have hB := C35_full (Spec.std c.dst_format.color_space)
      (isByte_val (c.rgbIn.r (x0 + x) (y0 + y))) (isByte_val (c.rgbIn.g (x0 + x) (y0 + y)))
      (isByte_val (c.rgbIn.b (x0 + x) (y0 + y))) (isSum4 c.rgbIn.r 0 0) (isSum4 c.rgbIn.r 0 0)
      (isSum4 c.rgbIn.r 0 0)
    exact ⟨chroma_pair (.inl rfl) hB.2.1 (p1.imp (fun e => by rw [e]; rfl) (fun e => by rw [e]; rfl))
        (q1.imp (fun e => by rw [e]; rfl) (fun e => by rw [e]; rfl)),
      chroma_pair (.inl rfl) hB.2.2.1 (p2.imp (fun e => by rw [e]; rfl) (fun e => by rw [e]; rfl))
        (q2.imp (fun e => by rw [e]; rfl) (fun e => by rw [e]; rfl))⟩
  · obtain ⟨s1, s2, s3⟩ := crop_block hv' (hc.encodes hk) hc h4 hp
    simp only [Sem.encoded, h4, if_false, Sem.cb420, Sem.cr420, s1, s2, s3]
    obtain ⟨-, -, p1, p2⟩ := semOf_between (set := cpu.set) c.src_format.pixel_format
      c'.width.toNat (x / 2)
    obtain ⟨-, -, q1, q2⟩ := semOf_between (set := cpu.set) c.src_format.pixel_format
      c.width.toNat ((x0 + x) / 2)
    have hB := C35_full (Spec.std c.dst_format.color_space)
      (isByte_val 0) (isByte_val 0) (isByte_val 0)
      (isSum4 c.rgbIn.r ((x0 + x) / 2) ((y0 + y) / 2))
      (isSum4 c.rgbIn.g ((x0 + x) / 2) ((y0 + y) / 2))
      (isSum4 c.rgbIn.b ((x0 + x) / 2) ((y0 + y) / 2))
    exact ⟨chroma_pair (.inr rfl) hB.2.2.2.1
        (p1.imp (fun e => by rw [e]; rfl) (fun e => by rw [e]; rfl))
        (q1.imp (fun e => by rw [e]; rfl) (fun e => by rw [e]; rfl)),
      chroma_pair (.inr rfl) hB.2.2.2.2 (p2.imp (fun e => by rw [e]; rfl) (fun e => by rw [e]; rfl))
        (q2.imp (fun e => by rw [e]; rfl) (fun e => by rw [e]; rfl))⟩

/-- A 6x4 Bgra image encoded as I420. -/
def exWhole : Call where
  width := 6
  height := 4
  src_format := ⟨.bgra, .rgb, 1⟩
  src_strides := none
  src_buffers := [noise 96 1]
  dst_format := ⟨.i420, .bt601, 3⟩
  dst_strides := none
  dst_buffers := [noise 24 2, noise 6 3, noise 6 4]

/-- Its lower right 4x2 part: the slice begins at pixel (2, 2). -/
def exTile : Call where
  width := 4
  height := 2
  src_format := ⟨.bgra, .rgb, 1⟩
  src_strides := some [24]
  src_buffers := [⟨40, fun k => (noise 96 1).bytes (56 + k)⟩]
  dst_format := ⟨.i420, .bt601, 3⟩
  dst_strides := none
  dst_buffers := [noise 8 2, noise 2 3, noise 2 4]

theorem exTile_valid : Spec.Valid .x64 exWhole ∧ Spec.Valid .x64 exTile :=
  ⟨valid_of_check (by decide +kernel), valid_of_check (by decide +kernel)⟩

theorem exTile_crop : exTile.CropOf exWhole 2 2 where
  src_pf := rfl
  dst_pf := rfl
  src_cs := rfl
  dst_cs := rfl
  right := by decide
  bottom := by decide
  even := by decide
  rgb := by
    rintro - x y ⟨hx, hy⟩
    change x < 4 at hx
    change y < 2 at hy
    revert y; revert x
    decide +kernel
  yuv := by intro h; cases h

/-- The hypotheses of C73 are met, and the chroma of the part is the chroma of the image. -/
example : ∃ out out', Stores .x64 crate avx2Cpu exWhole out ∧
    Stores .x64 crate avx2Cpu exTile out' ∧
    (exTile.yuvOut out').cb 2 0 = (exWhole.yuvOut out).cb 4 2 := by
  obtain ⟨out, ho⟩ := valid_stores (cpu := avx2Cpu) exTile_valid.1 (.of_ne (by decide))
  obtain ⟨out', ho'⟩ := valid_stores (cpu := avx2Cpu) exTile_valid.2 (.of_ne (by decide))
  exact ⟨out, out', ho, ho', ((C73_encode exTile_valid.1 exTile_valid.2 exTile_crop
    (by unfold Call.Encodes; decide) ho ho' (by unfold Call.Pixel; decide)).2
      (.inr (by decide))).1⟩

/-- A line of `n` I444 pixels, all codes 255, decoded as limited-range BT.709. -/
def exLine (n : UInt32) : Call where
  width := n
  height := 1
  src_format := ⟨.i444, .bt709, 3⟩
  src_strides := none
  src_buffers := [⟨n.toNat, fun _ => 255⟩, ⟨n.toNat, fun _ => 255⟩, ⟨n.toNat, fun _ => 255⟩]
  dst_format := ⟨.bgra, .rgb, 1⟩
  dst_strides := none
  dst_buffers := [noise (4 * n.toNat) 2]

theorem exLine_valid : Spec.Valid .x64 (exLine 9) ∧ Spec.Valid .x64 (exLine 8) :=
  ⟨valid_of_check (by decide +kernel), valid_of_check (by decide +kernel)⟩

theorem exLine_crop : (exLine 8).CropOf (exLine 9) 1 0 where
  src_pf := rfl
  dst_pf := rfl
  src_cs := rfl
  dst_cs := rfl
  right := by decide
  bottom := by decide
  even := by decide
  rgb := by intro h; cases h
  yuv := fun _ _ _ _ => ⟨rfl, rfl, rfl⟩

/-- The exception for blue is needed: on SSE2 the last pixel of a line of nine limited-range
pixels is decoded by scalar code, but by vector code as the last pixel of the eight pixels from the
second on; the blue of the brightest codes then wraps to zero. -/
theorem C73_exception {out out' : List Buf} (ho : Stores .x64 crate sse2Cpu (exLine 9) out)
    (ho' : Stores .x64 crate sse2Cpu (exLine 8) out') :
    ((exLine 9).rgbOut out).b 8 0 = 255 ∧ ((exLine 8).rgbOut out').b 7 0 = 0 := by
  have hk : (exLine 9).Decodes := by unfold Call.Decodes; decide
  have hk' : (exLine 8).Decodes := by unfold Call.Decodes; decide
  refine ⟨?_, ?_⟩
  · rw [(C46_exact exLine_valid.1 hk ho (by unfold Call.Pixel; decide)).2.2]
    decide
  · rw [(C46_exact exLine_valid.2 hk' ho' (by unfold Call.Pixel; decide)).2.2]
    decide

end Verif
