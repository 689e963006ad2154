import Verif.Lemmas.Runs
/-! # Relations between the results of two calls -/

namespace Verif

open Spec (bytesAt strideOf dims painted)

/-- The chroma arithmetic does not depend on the source format. -/
def Sem.SrcIndep (S : Sem) : Prop :=
  ∀ p p', Spec.isRgb p = true → Spec.isRgb p' = true → ∀ w x s r g b,
    S.cb p w x s r g b = S.cb p' w x s r g b ∧ S.cr p w x s r g b = S.cr p' w x s r g b ∧
    S.cbAvg p w x s r g b = S.cbAvg p' w x s r g b ∧ S.crAvg p w x s r g b = S.crAvg p' w x s r g b

theorem Sem.srcIndep_scalar : Sem.scalar.SrcIndep :=
  fun _ _ _ _ _ _ _ _ _ _ => ⟨rfl, rfl, rfl, rfl⟩

variable {t : Target} {impls : InstructionSet → Impl} {cpu : Cpu} {S : Sem} {c c' : Call}

theorem encoded_local (hS : S.SrcIndep) {p p' d d' : PixelFormat} {w : Nat} {s : Spec.Std}
    (hp : Spec.isRgb p = true) (hp' : Spec.isRgb p' = true) (hd : d = .i444 ↔ d' = .i444)
    {im im' : Spec.RgbImage} {x y : Nat}
    (h : Spec.RgbAt im im' x y) :
    (S.encoded p w d s im).y x y = (S.encoded p' w d' s im').y x y ∧
    (d = .i444 ∨ Spec.BlockAt im im' x y →
      (S.encoded p w d s im).cb x y = (S.encoded p' w d' s im').cb x y ∧
      (S.encoded p w d s im).cr x y = (S.encoded p' w d' s im').cr x y) := by
  obtain ⟨h1, h2, h3⟩ := h
  refine ⟨by simp only [Sem.encoded, Spec.lumaPlane, h1, h2, h3], fun hb => ?_⟩
  by_cases h4 : d = .i444
  · have h4' := hd.1 h4
    simp only [Sem.encoded, h4, h4', if_true, Sem.cb444, Sem.cr444, h1, h2, h3,
      (hS p p' hp hp' w x s _ _ _).1, (hS p p' hp hp' w x s _ _ _).2.1, and_self]
  · have hb : Spec.BlockAt im im' x y := hb.resolve_left h4
    have h4' : ¬ d' = .i444 := fun e => h4 (hd.2 e)
    obtain ⟨a1, a2, a3⟩ := hb (2 * (x / 2)) (2 * (y / 2)) (by omega) (by omega)
    obtain ⟨b1, b2, b3⟩ := hb (2 * (x / 2) + 1) (2 * (y / 2)) (by omega) (by omega)
    obtain ⟨c1, c2, c3⟩ := hb (2 * (x / 2)) (2 * (y / 2) + 1) (by omega) (by omega)
    obtain ⟨d1, d2, d3⟩ := hb (2 * (x / 2) + 1) (2 * (y / 2) + 1) (by omega) (by omega)
    simp only [Sem.encoded, h4, h4', if_false, Sem.cb420, Sem.cr420, Spec.sum4, a1, a2, a3, b1, b2,
      b3, c1, c2, c3, d1, d2, d3, (hS p p' hp hp' w _ s _ _ _).2.2.1,
      (hS p p' hp hp' w _ s _ _ _).2.2.2, and_self]

/-- The destination of an encoding agrees wherever the sources agree. -/
theorem encode_local (hS : S.SrcIndep) (hr : Runs t impls cpu S c) (hr' : Runs t impls cpu S c')
    (hk : c.Encodes) (hk' : c'.Encodes) (hw : c.width = c'.width)
    (hd : c.dst_format.pixel_format = .i444 ↔ c'.dst_format.pixel_format = .i444)
    (hcs : c.dst_format.color_space = c'.dst_format.color_space)
    {x y : Nat} (hp : c.Pixel x y) (hp' : c'.Pixel x y)
    (h : Spec.RgbAt c.rgbIn c'.rgbIn x y) :
    (c.yuvOut (S.out c)).y x y = (c'.yuvOut (S.out c')).y x y ∧
    (c.dst_format.pixel_format = .i444 ∨ Spec.BlockAt c.rgbIn c'.rgbIn x y →
      (c.yuvOut (S.out c)).cb x y = (c'.yuvOut (S.out c')).cb x y ∧
      (c.yuvOut (S.out c)).cr x y = (c'.yuvOut (S.out c')).cr x y) := by
  obtain ⟨a1, a2, a3⟩ := hr.encode hk hp
  obtain ⟨b1, b2, b3⟩ := hr'.encode hk' hp'
  have := encoded_local hS (w := c.width.toNat) (s := Spec.std c.dst_format.color_space) hk.1 hk'.1
    hd h
  rw [a1, a2, a3, b1, b2, b3, ← hw, ← hcs]
  exact this

/-- The destination of a decoding agrees wherever the sources agree. -/
theorem decode_local (hr : Runs t impls cpu S c) (hr' : Runs t impls cpu S c')
    (hk : c.Decodes) (hk' : c'.Decodes) (hw : c.width = c'.width) {x y : Nat}
    (hB : S.blue c.src_format.pixel_format c.dst_format.pixel_format c.width.toNat x
        (Spec.std c.src_format.color_space) (Spec.val (c.yuvIn.y x y)) (Spec.val (c.yuvIn.cb x y))
      = S.blue c'.src_format.pixel_format c'.dst_format.pixel_format c.width.toNat x
        (Spec.std c.src_format.color_space) (Spec.val (c.yuvIn.y x y)) (Spec.val (c.yuvIn.cb x y)))
    (hcs : c.src_format.color_space = c'.src_format.color_space)
    (hp : c.Pixel x y) (hp' : c'.Pixel x y)
    (h : Spec.YuvAt c.yuvIn c'.yuvIn x y) :
    Spec.RgbAt (c.rgbOut (S.out c)) (c'.rgbOut (S.out c')) x y := by
  obtain ⟨a1, a2, a3⟩ := hr.decode hk hp
  obtain ⟨b1, b2, b3⟩ := hr'.decode hk' hp'
  obtain ⟨h1, h2, h3⟩ := h
  unfold Spec.RgbAt
  rw [a1, a2, a3, b1, b2, b3, ← hw, ← hcs]
  simp only [Sem.dec, hB, ← h1, ← h2, ← h3, and_self]

/-- The destination of a conversion between RGB formats agrees wherever the sources agree. -/
theorem shuffle_local (hr : Runs t impls cpu S c) (hr' : Runs t impls cpu S c')
    (hk : c.Shuffles) (hk' : c'.Shuffles)
    {x y : Nat} (hp : c.Pixel x y) (hp' : c'.Pixel x y) (h : Spec.RgbAt c.rgbIn c'.rgbIn x y) :
    Spec.RgbAt (c.rgbOut (S.out c)) (c'.rgbOut (S.out c')) x y := by
  obtain ⟨a1, a2, a3⟩ := hr.shuffle hk hp
  obtain ⟨b1, b2, b3⟩ := hr'.shuffle hk' hp'
  obtain ⟨h1, h2, h3⟩ := h
  exact ⟨by rw [a1, b1, h1], by rw [a2, b2, h2], by rw [a3, b3, h3]⟩

/-- Every byte of a line of a three-byte format is one of the colours of a pixel. -/
theorem byte_of_rgb3 {f f' : ImageFormat} {w w' : UInt32} {ss ss' : Option (List Nat)}
    {bs bs' : List Buf} (hf : f.pixel_format = .rgb ∨ f.pixel_format = .bgr)
    (hf' : f'.pixel_format = f.pixel_format)
    {j y : Nat} (h : Spec.RgbAt (Spec.readRgb f w ss bs) (Spec.readRgb f' w' ss' bs') (j / 3) y) :
    bytesAt bs 0 (strideOf ss 0 (3 * w.toNat) * y + j) =
      bytesAt bs' 0 (strideOf ss' 0 (3 * w'.toNat) * y + j) := by
  unfold Spec.RgbAt Spec.readRgb Spec.rgbImage at h
  rw [hf'] at h
  simp only at h
  have hj := Nat.div_add_mod j 3
  rcases hf with e | e <;> rw [e] at h <;> simp only [Spec.bpp, Spec.rgbPos, Nat.add_zero] at h <;>
  obtain ⟨h1, h2, h3⟩ := h <;>
  rcases (by omega : j % 3 = 0 ∨ j % 3 = 1 ∨ j % 3 = 2) with hm | hm | hm <;>
  rw [hm] at hj <;> rw [← hj] <;> simp only [Nat.add_assoc, Nat.add_zero] at h1 h2 h3 ⊢ <;>
  assumption

end Verif
