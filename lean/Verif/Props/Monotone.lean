import Verif.Props.Sampling
import Verif.Props.Smooth
import Verif.Props.Nominal
/-!
# C42 of stored images

`Props/Numeric.lean` proves that the formulas are monotone. Stored chroma and stored colours are monotone
too, with two exceptions, both shown here: on NEON a colour whose chroma is exactly between two codes is
stored one larger in the vector columns than elsewhere, and blue above the 16-bit range is stored as 0 in
the vector columns of SSE2 and AVX2.
-/

namespace Verif
open Spec

variable {t t' : Target} {cpu cpu' : Cpu} {c c' : Call} {out out' : List Buf} {x y x' y' : Nat}

theorem tieRound_mono {u u' : Prop} [Decidable u] [Decidable u'] {m k k' : ℤ} {p q : UInt8}
    (hm : m = 1 ∨ m = 4) (h : val p = tieRound u k m) (h' : val q = tieRound u' k' m) (hk : k ≤ k')
    (hu : u' ∨ ¬ u ∨ k < k') : val p ≤ val q := by
  have bp := isByte_val p
  have bq := isByte_val q
  generalize val p = n at *
  generalize val q = n' at *
  unfold tieRound roundUp roundDown clamp IsByte at *
  rcases hm with rfl | rfl <;> split at h <;> split at h' <;> simp only [*, not_true_eq_false,
    not_false_eq_true, true_or, false_or] at hu <;> omega

/-- More blue and less red and green means more Cb before rounding, and so on; strictly so if anything
changes. -/
theorem dot_mono (s : Std) {r g b r' g' b' : ℤ} :
    (r' ≤ r → g' ≤ g → b ≤ b' → dot (cbCoef s) r g b ≤ dot (cbCoef s) r' g' b' ∧
      (¬ (r' = r ∧ g' = g ∧ b' = b) → dot (cbCoef s) r g b < dot (cbCoef s) r' g' b')) ∧
    (r ≤ r' → g' ≤ g → b' ≤ b → dot (crCoef s) r g b ≤ dot (crCoef s) r' g' b' ∧
      (¬ (r' = r ∧ g' = g ∧ b' = b) → dot (crCoef s) r g b < dot (crCoef s) r' g' b')) := by
  refine ⟨fun h1 h2 h3 => ⟨?_, fun n => ?_⟩, fun h1 h2 h3 => ⟨?_, fun n => ?_⟩⟩ <;>
  cases s <;> simp only [dot, cbCoef, crCoef] <;> omega

/-- **C42** of stored 4:4:4 chroma, for two pixels of any two images: a pixel with at least as much blue,
and no more red and green, gets at least the Cb; a pixel with at least as much red, and no more green and
blue, at least the Cr. Missing: two pixels of the same colour, the first in a column where ties are
rounded up and the second in one where they are not; see the counterexample. -/
theorem C42_chroma_444_stored_partial (hv : Valid t c) (hv' : Valid t' c') (hk : c.Encodes)
    (hk' : c'.Encodes) (h4 : c.dst_format.pixel_format = .i444)
    (h4' : c'.dst_format.pixel_format = .i444)
    (hs : c'.dst_format.color_space = c.dst_format.color_space)
    (ho : Stores t crate cpu c out) (ho' : Stores t' crate cpu' c' out')
    (hp : c.Pixel x y) (hp' : c'.Pixel x' y') :
    let r := val (c.rgbIn.r x y)
    let g := val (c.rgbIn.g x y)
    let b := val (c.rgbIn.b x y)
    let r' := val (c'.rgbIn.r x' y')
    let g' := val (c'.rgbIn.g x' y')
    let b' := val (c'.rgbIn.b x' y')
    (TiesUp cpu' c' x' ∨ ¬ TiesUp cpu c x ∨ ¬ (r' = r ∧ g' = g ∧ b' = b)) →
    (r' ≤ r → g' ≤ g → b ≤ b' → val ((c.yuvOut out).cb x y) ≤ val ((c'.yuvOut out').cb x' y')) ∧
    (r ≤ r' → g' ≤ g → b' ≤ b → val ((c.yuvOut out).cr x y) ≤ val ((c'.yuvOut out').cr x' y')) := by
  intro r g b r' g' b' hu
  obtain ⟨a1, a2⟩ := chroma444 hv hk h4 ho hp
  obtain ⟨b1, b2⟩ := chroma444 hv' hk' h4' ho' hp'
  rw [hs] at b1 b2
  obtain ⟨m1, m2⟩ := dot_mono (std c.dst_format.color_space) (r := r) (g := g) (b := b) (r' := r')
    (g' := g') (b' := b')
  refine ⟨fun h1 h2 h3 => ?_, fun h1 h2 h3 => ?_⟩
  · obtain ⟨l, l'⟩ := m1 h1 h2 h3
    exact tieRound_mono (.inl rfl) a1 b1 l (hu.imp_right (Or.imp_right l'))
  · obtain ⟨l, l'⟩ := m2 h1 h2 h3
    exact tieRound_mono (.inl rfl) a2 b2 l (hu.imp_right (Or.imp_right l'))

/-- **C42** of stored 4:2:0 chroma: the same of the sums over the 2x2 blocks of the two pixels. -/
theorem C42_chroma_420_stored_partial (hv : Valid t c) (hv' : Valid t' c') (hk : c.Encodes)
    (hk' : c'.Encodes)
    (h4 : c.dst_format.pixel_format = .i420 ∨ c.dst_format.pixel_format = .nv12)
    (h4' : c'.dst_format.pixel_format = .i420 ∨ c'.dst_format.pixel_format = .nv12)
    (hs : c'.dst_format.color_space = c.dst_format.color_space)
    (ho : Stores t crate cpu c out) (ho' : Stores t' crate cpu' c' out')
    (hp : c.Pixel x y) (hp' : c'.Pixel x' y') :
    let r := sum4 c.rgbIn.r (x / 2) (y / 2)
    let g := sum4 c.rgbIn.g (x / 2) (y / 2)
    let b := sum4 c.rgbIn.b (x / 2) (y / 2)
    let r' := sum4 c'.rgbIn.r (x' / 2) (y' / 2)
    let g' := sum4 c'.rgbIn.g (x' / 2) (y' / 2)
    let b' := sum4 c'.rgbIn.b (x' / 2) (y' / 2)
    (TiesUp cpu' c' x' ∨ ¬ TiesUp cpu c x ∨ ¬ (r' = r ∧ g' = g ∧ b' = b)) →
    (r' ≤ r → g' ≤ g → b ≤ b' → val ((c.yuvOut out).cb x y) ≤ val ((c'.yuvOut out').cb x' y')) ∧
    (r ≤ r' → g' ≤ g → b' ≤ b → val ((c.yuvOut out).cr x y) ≤ val ((c'.yuvOut out').cr x' y')) := by
  intro r g b r' g' b' hu
  obtain ⟨a1, a2⟩ := chroma420 hv hk h4 ho hp
  obtain ⟨b1, b2⟩ := chroma420 hv' hk' h4' ho' hp'
  rw [hs] at b1 b2
  obtain ⟨m1, m2⟩ := dot_mono (std c.dst_format.color_space) (r := r) (g := g) (b := b) (r' := r')
    (g' := g') (b' := b')
  refine ⟨fun h1 h2 h3 => ?_, fun h1 h2 h3 => ?_⟩
  · obtain ⟨l, l'⟩ := m1 h1 h2 h3
    exact tieRound_mono (.inr rfl) a1 b1 l (hu.imp_right (Or.imp_right l'))
  · obtain ⟨l, l'⟩ := m2 h1 h2 h3
    exact tieRound_mono (.inr rfl) a2 b2 l (hu.imp_right (Or.imp_right l'))

/-- **C42** of stored colours, for two pixels of any two images. Missing: blue of the second pixel above
the 16-bit range in a vector column of SSE2 or AVX2; see the counterexample. -/
theorem C42_decode_stored_partial (hv : Valid t c) (hv' : Valid t' c') (hk : c.Decodes)
    (hk' : c'.Decodes) (hs : c'.src_format.color_space = c.src_format.color_space)
    (ho : Stores t crate cpu c out) (ho' : Stores t' crate cpu' c' out')
    (hp : c.Pixel x y) (hp' : c'.Pixel x' y') :
    let l := val (c.yuvIn.y x y)
    let cb := val (c.yuvIn.cb x y)
    let cr := val (c.yuvIn.cr x y)
    let l' := val (c'.yuvIn.y x' y')
    let cb' := val (c'.yuvIn.cb x' y')
    let cr' := val (c'.yuvIn.cr x' y')
    let V' := vectorColumns cpu'.set c'.src_format.pixel_format c'.dst_format.pixel_format
      c'.width.toNat
    l ≤ l' →
    (cr ≤ cr' → val ((c.rgbOut out).r x y) ≤ val ((c'.rgbOut out').r x' y')) ∧
    (cb' ≤ cb → cr' ≤ cr → val ((c.rgbOut out).g x y) ≤ val ((c'.rgbOut out').g x' y')) ∧
    (¬ (x' < V' ∧ blueFix (std c.src_format.color_space) l' cb' > 32767) →
      cb ≤ cb' → val ((c.rgbOut out).b x y) ≤ val ((c'.rgbOut out').b x' y')) := by
  intro l cb cr l' cb' cr' V' hl
  obtain ⟨a1, a2, a3⟩ := C46_exact hv hk ho hp
  obtain ⟨b1, b2, b3⟩ := C46_exact hv' hk' ho' hp'
  rw [hs] at b1 b2 b3
  have e : ∀ v, val (byte (clamp v)) = clamp v := fun v => val_byte (isByte_clamp v)
  obtain ⟨m1, m2, m3⟩ := C42_decode (std c.src_format.color_space) (y := l) (cb := cb) (cr := cr)
    (cb' := cb') (cr' := cr') hl
  refine ⟨fun h => ?_, fun h h' => ?_, fun n h => ?_⟩
  · rw [a1, b1, red, red, e, e]
    exact m1 h
  · rw [a2, b2, green, green, e, e]
    exact m3 h h'
  · rw [a3, b3, if_neg n, blue, blue]
    have := m2 h
    rw [blue, blue] at this
    split
    · rw [e]
      exact (isByte_clamp _).1
    · rw [e, e]
      exact this

/-- **C42 is false** of stored blue: on SSE2 more luma and more Cb turn blue 255 into 0. -/
theorem C42_counterexample_decode {out out' : List Buf}
    (ho : Stores .x64 crate sse2Cpu (exPlain 235 248 128) out)
    (ho' : Stores .x64 crate sse2Cpu (exPlain 236 249 128) out') :
    ((exPlain 235 248 128).rgbOut out).b 0 0 = 255 ∧ ((exPlain 236 249 128).rgbOut out').b 0 0 = 0 :=
  C98_counterexample ho ho'

/-- Both calls succeed. -/
example : ∃ out out', Stores .x64 crate sse2Cpu (exPlain 235 248 128) out ∧
    Stores .x64 crate sse2Cpu (exPlain 236 249 128) out' ∧
    val (((exPlain 235 248 128).rgbOut out).r 0 0) ≤ val (((exPlain 236 249 128).rgbOut out').r 0 0) := by
  obtain ⟨out, ho⟩ := valid_stores (cpu := sse2Cpu) (exPlain_valid 235 248 128) (.of_ne (by decide))
  obtain ⟨out', ho'⟩ := valid_stores (cpu := sse2Cpu) (exPlain_valid 236 249 128) (.of_ne (by decide))
  exact ⟨out, out', ho, ho', (C42_decode_stored_partial (x := 0) (y := 0) (x' := 0) (y' := 0)
    (exPlain_valid 235 248 128) (exPlain_valid 236 249 128) ⟨rfl, rfl⟩ ⟨rfl, rfl⟩ rfl ho ho'
    ⟨by decide, by decide⟩ ⟨by decide, by decide⟩ (by decide)).1 (by decide)⟩

/-- A line of 9 pixels of one colour, whose Cb is exactly between two codes. -/
def exTie : Call where
  width := 9
  height := 1
  src_format := ⟨.bgra, .rgb, 1⟩
  src_strides := none
  src_buffers := [⟨36, fun i => if i % 4 = 0 then 0 else if i % 4 = 1 then 64 else 16⟩]
  dst_format := ⟨.i444, .bt709FR, 3⟩
  dst_strides := none
  dst_buffers := [noise 9 2, noise 9 3, noise 9 4]

theorem exTie_valid : Valid .x64 exTie := valid_of_check (by decide +kernel)

/-- **C42 is false** of stored Cb in one picture converted with NEON: the first and the last pixel of the
line have the same colour, but the Cb of the first is larger. -/
theorem C42_counterexample_chroma {out : List Buf} (ho : Stores .x64 crate neonCpu exTie out) :
    (∀ x < 9, exTie.rgbIn.r x 0 = 16 ∧ exTie.rgbIn.g x 0 = 64 ∧ exTie.rgbIn.b x 0 = 0) ∧
    (exTie.yuvOut out).cb 0 0 = 102 ∧ (exTie.yuvOut out).cb 8 0 = 101 := by
  refine ⟨by decide +kernel, ?_, ?_⟩
  · rw [(C22_chroma_444_neon exTie_valid (by decide) rfl rfl ho (x := 0) (y := 0)
      ⟨by decide, by decide⟩).1]
    decide +kernel
  · rw [(C22_chroma_444_neon exTie_valid (by decide) rfl rfl ho (x := 8) (y := 0)
      ⟨by decide, by decide⟩).1]
    decide +kernel

/-- The call succeeds, and the Cb of the last pixel is at most that of the first. -/
example : ∃ out, Stores .x64 crate neonCpu exTie out ∧
    val ((exTie.yuvOut out).cb 8 0) ≤ val ((exTie.yuvOut out).cb 0 0) := by
  obtain ⟨out, ho⟩ := valid_stores (cpu := neonCpu) exTie_valid (.of_ne (by decide))
  exact ⟨out, ho, (C42_chroma_444_stored_partial exTie_valid exTie_valid (by decide) (by decide) rfl rfl
    rfl ho ho ⟨by decide, by decide⟩ ⟨by decide, by decide⟩ (.inl ⟨rfl, by decide⟩)).1
    (by decide +kernel) (by decide +kernel) (by decide +kernel)⟩

/-- Two blocks of the image `exEncode`, on different processors. -/
example {out out' : List Buf} (ho : Stores .x64 crate neonCpu exEncode out)
    (ho' : Stores .x64 crate avx2Cpu exEncode out') :
    val ((exEncode.yuvOut out).cb 3 1) ≤ val ((exEncode.yuvOut out').cb 3 1) :=
  (C42_chroma_420_stored_partial exEncode_valid exEncode_valid (by decide) (by decide) (.inl rfl)
    (.inl rfl) rfl ho ho' ⟨by decide, by decide⟩ ⟨by decide, by decide⟩
    (.inr (.inl fun h => absurd h.2 (by decide)))).1 le_rfl le_rfl le_rfl

end Verif
