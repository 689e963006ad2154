import Verif.Props.Transcode
/-!
# C71: further generations

Encoding, decoding and encoding again: how much the second encoding differs from the first.
-/

namespace Verif

open Spec

/-- Largest change of a sample from one generation to the next. -/
def genBound (s : Std) : ℤ := if s.fullRange then 2 else 1

/-- How far the exact colour of an accurate code can be from the colour that was encoded. -/
def spread : Std → ℚ × ℚ × ℚ
  | .bt601 | .bt709 => (1.51, 1.21, 1.67)
  | .bt601FR | .bt709FR => (1.31, 1.05, 1.46)

theorem clamp_between {v : ℤ} {p r d : ℚ} {e : ℚ × ℚ} (he : e.1 ≤ (v : ℚ) - p ∧ (v : ℚ) - p ≤ e.2)
    (hr : 0 ≤ r ∧ r ≤ 255) (hd : -d ≤ p - r ∧ p - r ≤ d) :
    (e.1 ≤ (clamp v : ℚ) - p ∨ -d ≤ (clamp v : ℚ) - p) ∧
    ((clamp v : ℚ) - p ≤ e.2 ∨ (clamp v : ℚ) - p ≤ d) := by
  rw [cast_clamp, clampQ]
  rcases le_total (255 : ℚ) v with h | h
  · rw [min_eq_left h, max_eq_right (by norm_num)]
    exact ⟨.inr (by linarith), .inl (by linarith)⟩
  · rw [min_eq_right h]
    rcases le_total (0 : ℚ) v with h' | h'
    · rw [max_eq_right h']
      exact ⟨.inl he.1, .inl he.2⟩
    · rw [max_eq_left h']
      exact ⟨.inl (by linarith), .inr (by linarith)⟩

/-- The exact colour of an accurate code is near the encoded colour. -/
theorem spread_ok (s : Std) {Y U V Y' U' V' R G B : ℚ} (a1 : -0.504 ≤ Y - Y' ∧ Y - Y' ≤ 0.504)
    (a2 : -0.51 ≤ U - U' ∧ U - U' ≤ 0.51) (a3 : -0.51 ≤ V - V' ∧ V - V' ≤ 0.51)
    (i1 : idealR s Y' V' = R) (i2 : idealG s Y' U' V' = G) (i3 : idealB s Y' U' = B) :
    (-(spread s).1 ≤ idealR s Y V - R ∧ idealR s Y V - R ≤ (spread s).1) ∧
    (-(spread s).2.1 ≤ idealG s Y U V - G ∧ idealG s Y U V - G ≤ (spread s).2.1) ∧
    (-(spread s).2.2 ≤ idealB s Y U - B ∧ idealB s Y U - B ≤ (spread s).2.2) := by
  obtain ⟨a11, a12⟩ := a1
  obtain ⟨a21, a22⟩ := a2
  obtain ⟨a31, a32⟩ := a3
  subst i1 i2 i3
  cases s <;> simp only [idealG, idealR, idealB, signalY, spread, yScale, cScale, lumaOffset,
    Kr, Kb, Kg, Std.fullRange] at * <;> norm_num at * <;>
    refine ⟨⟨?_, ?_⟩, ⟨?_, ?_⟩, ?_, ?_⟩ <;> linarith

/-- A colour near the exact colour of a code has a code near it. -/
theorem gen_close (s : Std) {R G B P Q S : ℚ}
    (hr : ((errR s).1 ≤ R - P ∨ -(spread s).1 ≤ R - P) ∧ (R - P ≤ (errR s).2 ∨ R - P ≤ (spread s).1))
    (hg : ((errG s).1 ≤ G - Q ∨ -(spread s).2.1 ≤ G - Q) ∧
      (G - Q ≤ (errG s).2 ∨ G - Q ≤ (spread s).2.1))
    (hb : ((errR s).1 ≤ B - S ∨ -(spread s).2.2 ≤ B - S) ∧
      (B - S ≤ (errR s).2 ∨ B - S ≤ (spread s).2.2)) :
    |idealY s R G B - idealY s P Q S| < genBound s + 1 - 0.51 ∧
    |idealCb s R G B - idealCb s P Q S| < genBound s + 1 - 0.51 ∧
    |idealCr s R G B - idealCr s P Q S| < genBound s + 1 - 0.51 := by
  have key : ∀ (e d m z : ℚ), (e ≤ z ∨ -d ≤ z) → -m ≤ e → d ≤ m → -m ≤ z := by
    rintro e d m z (h | h) h1 h2 <;> linarith
  have key' : ∀ (e d m z : ℚ), (z ≤ e ∨ z ≤ d) → e ≤ m → d ≤ m → z ≤ m := by
    rintro e d m z (h | h) h1 h2 <;> linarith
  cases s
  case bt601 | bt709 =>
    have r1 := key _ _ 1.51 _ hr.1 (by norm_num [errR]) (by norm_num [spread])
    have r2 := key' _ _ 1.51 _ hr.2 (by norm_num [errR]) (by norm_num [spread])
    have g1 := key _ _ 1.21 _ hg.1 (by norm_num [errG]) (by norm_num [spread])
    have g2 := key' _ _ 1.21 _ hg.2 (by norm_num [errG]) (by norm_num [spread])
    have b1 := key _ _ 1.67 _ hb.1 (by norm_num [errR]) (by norm_num [spread])
    have b2 := key' _ _ 1.67 _ hb.2 (by norm_num [errR]) (by norm_num [spread])
    clear hr hg hb key key'
    simp only [abs_lt, idealY, idealCb, idealCr, lumaSignal, yScale, cScale, lumaOffset, Kr, Kb, Kg,
      Std.fullRange, genBound]
    norm_num at *
    refine ⟨⟨?_, ?_⟩, ⟨?_, ?_⟩, ?_, ?_⟩ <;> linarith
  case bt601FR | bt709FR =>
    have r1 := key _ _ 1.31 _ hr.1 (by norm_num [errR]) (by norm_num [spread])
    have r2 := key' _ _ 2.4 _ hr.2 (by norm_num [errR]) (by norm_num [spread])
    have g1 := key _ _ 1.6 _ hg.1 (by norm_num [errG]) (by norm_num [spread])
    have g2 := key' _ _ 1.05 _ hg.2 (by norm_num [errG]) (by norm_num [spread])
    have b1 := key _ _ 1.46 _ hb.1 (by norm_num [errR]) (by norm_num [spread])
    have b2 := key' _ _ 2.4 _ hb.2 (by norm_num [errR]) (by norm_num [spread])
    clear hr hg hb key key'
    simp only [abs_lt, idealY, idealCb, idealCr, lumaSignal, yScale, cScale, lumaOffset, Kr, Kb, Kg,
      Std.fullRange, genBound]
    norm_num at *
    refine ⟨⟨?_, ?_⟩, ⟨?_, ?_⟩, ?_, ?_⟩ <;> linarith

/-- Accurate codes `y`, `u`, `v` of a colour and accurate codes `y'`, `u'`, `v'` of what they decode
to. -/
theorem gen_pixel (s : Std) {r g b : ℤ} (hr : IsByte r) (hg : IsByte g) (hb : IsByte b)
    {y u v y' u' v' : ℤ} (hy : IsByte y) (hu : IsByte u) (hv : IsByte v)
    (a1 : |(y : ℚ) - idealY s r g b| ≤ 0.504) (a2 : |(u : ℚ) - idealCb s r g b| ≤ 0.51)
    (a3 : |(v : ℚ) - idealCr s r g b| ≤ 0.51)
    (b1 : |(y' : ℚ) - idealY s (red s y v) (green s y u v) (blue s y u)| ≤ 0.504)
    (b2 : |(u' : ℚ) - idealCb s (red s y v) (green s y u v) (blue s y u)| ≤ 0.51)
    (b3 : |(v' : ℚ) - idealCr s (red s y v) (green s y u v) (blue s y u)| ≤ 0.51) :
    |y' - y| ≤ genBound s ∧ |u' - u| ≤ genBound s ∧ |v' - v| ≤ genBound s := by
  rw [abs_le] at a1 a2 a3 b1 b2 b3
  obtain ⟨i1, i2, i3⟩ := ideal_inverse s r g b
  obtain ⟨s1, s2, s3⟩ := spread_ok s a1 a2 a3 i1 i2 i3
  obtain ⟨k1, k2, k3⟩ := gen_close s (clamp_between (red_err s hy hv) (cast_byte hr) s1)
    (clamp_between (green_err s hy hu hv) (cast_byte hg) s2)
    (clamp_between (blue_err s hy hu) (cast_byte hb) s3)
  obtain ⟨j1, j2, j3⟩ := ideal_forward s y u v
  rw [j1, abs_lt] at k1
  rw [j2, abs_lt] at k2
  rw [j3, abs_lt] at k3
  rw [red, green, blue] at b1 b2 b3
  exact ⟨int_close (by linarith [b1.1, k1.1]) (by linarith [b1.2, k1.2]),
    int_close (by linarith [b2.1, k2.1]) (by linarith [b2.2, k2.2]),
    int_close (by linarith [b3.1, k3.1]) (by linarith [b3.2, k3.2])⟩

/-- C71: encode an RGB image to I444, decode it and encode the result to I444, on any processors: no
sample changes by more than one in limited range, two in full range. No condition on the colours. -/
theorem C71_generation {t : Target} {cpu cpu' cpu'' : Cpu} {c c' c'' : Call}
    {out out' out'' : List Buf} (hv : Valid t c) (hv' : Valid t c') (hv'' : Valid t c'')
    (hk : c.Encodes) (hk' : c'.Decodes) (hk'' : c''.Encodes)
    (hd : c.dst_format.pixel_format = .i444) (hd'' : c''.dst_format.pixel_format = .i444)
    (ho : Stores t crate cpu c out) (ho' : Stores t crate cpu' c' out')
    (ho'' : Stores t crate cpu'' c'' out'')
    (hc : Decodes_of c c' out) (hc' : Encodes_of c' c'' out') {x y : Nat} (hp : c.Pixel x y) :
    let s := std c.dst_format.color_space
    |val ((c''.yuvOut out'').y x y) - val ((c.yuvOut out).y x y)| ≤ genBound s ∧
    |val ((c''.yuvOut out'').cb x y) - val ((c.yuvOut out).cb x y)| ≤ genBound s ∧
    |val ((c''.yuvOut out'').cr x y) - val ((c.yuvOut out).cr x y)| ≤ genBound s := by
  intro s
  have hp' : c'.Pixel x y := by unfold Call.Pixel at *; rw [hc.width, hc.height]; exact hp
  have e : ∀ v, val (byte (clamp v)) = clamp v := fun v => val_byte (by unfold IsByte clamp; omega)
  obtain ⟨d1, d2, d3⟩ := C23_decode_partial hv' hk' ho' hp' (stored_blue hv hk ho hc hp)
  obtain ⟨a1, a2, a3⟩ := C36_forward_accuracy_444 hv hk hd ho hp
  obtain ⟨b1, b2, b3⟩ := C36_forward_accuracy_444 hv'' hk'' hd'' ho'' (hc'.pixel hp')
  obtain ⟨p1, p2, p3⟩ := hc'.pixels x y hp'
  rw [hc'.color_space, ← p1, ← p2, ← p3, d1, d2, d3, hc.format, hc.image, red, green, blue, e, e, e]
    at b1 b2 b3
  exact gen_pixel s (isByte_val _) (isByte_val _) (isByte_val _) (isByte_val _) (isByte_val _)
    (isByte_val _) a1 a2 a3 b1 b2 b3

/-- The hypotheses of C71 are met: encode on NEON, decode on AVX2, encode on SSE2. -/
example : ∃ out out' out'', Stores .x64 crate neonCpu exEncode444 out ∧
    Stores .x64 crate avx2Cpu (exDecode444 out) out' ∧
    Stores .x64 crate sse2Cpu { exEncode444 with src_format := ⟨.bgra, .rgb, 1⟩, src_buffers := out' } out'' ∧
    Decodes_of exEncode444 (exDecode444 out) out ∧
    Encodes_of (exDecode444 out)
      { exEncode444 with src_format := ⟨.bgra, .rgb, 1⟩, src_buffers := out' } out' := by
  have hr : VectorRoom neonCpu.set exEncode444 := fun _ _ _ _ => trivial
  have hv : Valid .x64 (exDecode444 ((semOf .neon).out exEncode444)) :=
    valid_of_check (by decide +kernel)
  have hv' : Valid .x64 { exEncode444 with
      src_format := ⟨.bgra, .rgb, 1⟩
      src_buffers := (semOf .avx2).out (exDecode444 ((semOf .neon).out exEncode444)) } :=
    valid_of_check (by decide +kernel)
  exact ⟨_, _, _, (Runs.crate exEncode444_valid hr).stores,
    (Runs.crate hv (.of_rgb (by decide))).stores, (Runs.crate hv' (.of_ne (by decide))).stores,
    ⟨rfl, rfl, rfl, rfl, rfl⟩, ⟨rfl, rfl, rfl, fun _ _ _ => ⟨rfl, rfl, rfl⟩⟩⟩

/-- The bounds are attained: a blue in limited range, a red in full range. -/
example : (let y := luma .bt601 0 15 255
     let u := cb .bt601 0 15 255
     let v := cr .bt601 0 15 255
     |cb .bt601 (red .bt601 y v) (green .bt601 y u v) (blue .bt601 y u) - u| = 1) ∧
    (let y := luma .bt601FR 254 16 19
     let u := cb .bt601FR 254 16 19
     let v := cr .bt601FR 254 16 19
     |cb .bt601FR (red .bt601FR y v) (green .bt601FR y u v) (blue .bt601FR y u) - u| = 2) := by
  decide +kernel

end Verif
