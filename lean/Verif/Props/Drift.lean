import Verif.Props.Transcode
/-!
# C70: decoding and encoding again, in full range

Encoding centres chroma at 128, decoding at 127: every generation shifts chroma.
-/

namespace Verif

open Spec

/-- Full range, no clamping: decoded red minus luma. -/
def deltaR (s : Std) (v : ℤ) : ℤ := (v * (dec s).kr / 256 + (dec s).offR) / 64
/-- Full range, no clamping: decoded green minus luma. -/
def deltaG (s : Std) (u v : ℤ) : ℤ :=
  (-(u * (dec s).kgb / 256) - v * (dec s).kgr / 256 + (dec s).offG) / 64
/-- Full range, no clamping: decoded blue minus luma. -/
def deltaB (s : Std) (u : ℤ) : ℤ := (u * (dec s).kb / 256 + (dec s).offB) / 64

/-- In full range the colour is luma plus a function of chroma. -/
theorem unclamped_rgb {s : Std} (hs : s.fullRange = true) {y u v : ℤ} (h : Unclamped s y u v) :
    red s y v = y + deltaR s v ∧ green s y u v = y + deltaG s u v ∧ blue s y u = y + deltaB s u := by
  obtain ⟨h1, h2, h3⟩ := h
  cases s <;> simp [Std.fullRange] at hs <;>
  simp only [red, green, blue, redFix, greenFix, blueFix, deltaR, deltaG, deltaB, dec, clamp] at * <;>
  omega

/-- `f` holds below `n`, as a computation. -/
def allBelow (f : Nat → Bool) : Nat → Bool
  | 0 => true
  | n + 1 => f n && allBelow f n

theorem allBelow_spec {f : Nat → Bool} : ∀ {n : Nat}, allBelow f n = true → ∀ k, k < n → f k = true
  | n + 1, h, k, hk => by
    rw [allBelow, Bool.and_eq_true] at h
    rcases Nat.lt_succ_iff_lt_or_eq.1 hk with hk | rfl
    · exact allBelow_spec h.2 k hk
    · exact h.1

/-- `x` and `y` are less than `n` and `m` apart. -/
def near (x y n m : Nat) : Bool := Nat.blt x (Nat.add y n) && Nat.blt y (Nat.add x m)

/-- Sums of the forward transform of a decoded Bt601FR colour, shifted to be positive. -/
def check601 (u v : Nat) : Bool :=
  (fun a b d =>
    near (Nat.add (Nat.add (Nat.mul 19595 a) (Nat.mul 38470 b)) (Nat.mul 7471 d)) 26625536 32768 32769 &&
    (near (Nat.add (Nat.mul 32767 d) 13880576)
      (Nat.add (Nat.add (Nat.mul 65536 u) (Nat.mul 11058 a)) (Nat.mul 21709 b)) 32768 32768 &&
    near (Nat.add (Nat.mul 32767 a) 15347456)
      (Nat.add (Nat.add (Nat.mul 65536 v) (Nat.mul 5328 d)) (Nat.mul 27439 b)) 32768 32768))
   (Nat.div (Nat.add (Nat.div (Nat.mul v 22970) 256) 5021) 64)
   (Nat.div (Nat.sub (Nat.sub 41401 (Nat.div (Nat.mul u 5638) 256)) (Nat.div (Nat.mul v 11700) 256)) 64)
   (Nat.div (Nat.add (Nat.div (Nat.mul u 29032) 256) 2014) 64)

/-- The same for Bt709FR. -/
def check709 (u v : Nat) : Bool :=
  (fun a b d =>
    near (Nat.add (Nat.add (Nat.mul 13933 a) (Nat.mul 46871 b)) (Nat.mul 4732 d)) 28776192 98304 32769 &&
    (near (Nat.add (Nat.mul 32767 d) 14789376)
      (Nat.add (Nat.add (Nat.mul 65536 u) (Nat.mul 7508 a)) (Nat.mul 25259 b)) 32768 32768 &&
    near (Nat.add (Nat.mul 32767 a) 15942400)
      (Nat.add (Nat.add (Nat.mul 65536 v) (Nat.mul 3004 d)) (Nat.mul 29763 b)) 32768 98304))
   (Nat.div (Nat.add (Nat.div (Nat.mul v 25802) 256) 3616) 64)
   (Nat.div (Nat.sub (Nat.sub 38127 (Nat.div (Nat.mul u 3069) 256)) (Nat.div (Nat.mul v 7670) 256)) 64)
   (Nat.div (Nat.add (Nat.div (Nat.mul u 30402) 256) 1334) 64)

set_option maxRecDepth 100000 in
theorem check601_all : allBelow (fun u => allBelow (check601 u) 256) 256 = true := by decide +kernel

set_option maxRecDepth 100000 in
theorem check709_all : allBelow (fun u => allBelow (check709 u) 256) 256 = true := by decide +kernel

theorem delta_nat {m n N : Nat} {o : ℤ} (h : m + n ≤ N) (ho : (N : ℤ) = 32768 + o) :
    (-(m : ℤ) - n + o) / 64 = ((N - m - n) / 64 : ℕ) - (512 : ℤ) := by
  omega

theorem nat_div (a b : Nat) : Nat.div a b = a / b := rfl

/-- The forward transform of the decoded colour, up to luma. -/
theorem delta_sums {s : Std} (hs : s.fullRange = true) {u v : ℤ} (hu : IsByte u) (hv : IsByte v) :
    let l := dot (lumaCoef s) (deltaR s v) (deltaG s u v) (deltaB s u)
    let p := dot (cbCoef s) (deltaR s v) (deltaG s u v) (deltaB s u)
    let q := dot (crCoef s) (deltaR s v) (deltaG s u v) (deltaB s u)
    (-32768 ≤ l ∧ l < if s = .bt709FR then 98304 else 32768) ∧
    ((u - 127) * 65536 - 32768 < p ∧ p < (u - 127) * 65536 + 32768) ∧
    ((v - 127) * 65536 - (if s = .bt709FR then 98304 else 32768) < q ∧
      q < (v - 127) * 65536 + 32768) := by
  obtain ⟨hu0, hu1⟩ := hu
  obtain ⟨hv0, hv1⟩ := hv
  obtain ⟨u, rfl⟩ := Int.eq_ofNat_of_zero_le hu0
  obtain ⟨v, rfl⟩ := Int.eq_ofNat_of_zero_le hv0
  have hu' : u < 256 := by omega
  have hv' : v < 256 := by omega
  cases s <;> simp [Std.fullRange] at hs
  · have h := allBelow_spec (allBelow_spec check601_all u hu') v hv'
    simp only [check601, near, Bool.and_eq_true, Nat.blt_eq, Nat.add_eq, Nat.mul_eq, Nat.sub_eq,
      nat_div] at h
    have ea : deltaR .bt601FR v = ((v * 22970 / 256 + 5021) / 64 : ℕ) - (256 : ℤ) := by
      simp only [deltaR, dec]; omega
    have eb : deltaG .bt601FR u v = ((41401 - u * 5638 / 256 - v * 11700 / 256) / 64 : ℕ) - (512 : ℤ) := by
      clear h
      have h1 : (u : ℤ) * 5638 / 256 = (u * 5638 / 256 : ℕ) := by omega
      have h2 : (v : ℤ) * 11700 / 256 = (v * 11700 / 256 : ℕ) := by omega
      simp only [deltaG, dec]
      rw [h1, h2]
      exact delta_nat (by omega) rfl
    have ed : deltaB .bt601FR u = ((u * 29032 / 256 + 2014) / 64 : ℕ) - (256 : ℤ) := by
      simp only [deltaB, dec]; omega
    rw [ea, eb, ed]
    generalize (v * 22970 / 256 + 5021) / 64 = a at *
    generalize (41401 - u * 5638 / 256 - v * 11700 / 256) / 64 = b at *
    generalize (u * 29032 / 256 + 2014) / 64 = d at *
    simp only [dot, lumaCoef, cbCoef, crCoef, reduceCtorEq, if_false]
    omega
  · have h := allBelow_spec (allBelow_spec check709_all u hu') v hv'
    simp only [check709, near, Bool.and_eq_true, Nat.blt_eq, Nat.add_eq, Nat.mul_eq, Nat.sub_eq,
      nat_div] at h
    have ea : deltaR .bt709FR v = ((v * 25802 / 256 + 3616) / 64 : ℕ) - (256 : ℤ) := by
      simp only [deltaR, dec]; omega
    have eb : deltaG .bt709FR u v = ((38127 - u * 3069 / 256 - v * 7670 / 256) / 64 : ℕ) - (512 : ℤ) := by
      clear h
      have h1 : (u : ℤ) * 3069 / 256 = (u * 3069 / 256 : ℕ) := by omega
      have h2 : (v : ℤ) * 7670 / 256 = (v * 7670 / 256 : ℕ) := by omega
      simp only [deltaG, dec]
      rw [h1, h2]
      exact delta_nat (by omega) rfl
    have ed : deltaB .bt709FR u = ((u * 30402 / 256 + 1334) / 64 : ℕ) - (256 : ℤ) := by
      simp only [deltaB, dec]; omega
    rw [ea, eb, ed]
    generalize (v * 25802 / 256 + 3616) / 64 = a at *
    generalize (38127 - u * 3069 / 256 - v * 7670 / 256) / 64 = b at *
    generalize (u * 30402 / 256 + 1334) / 64 = d at *
    simp only [dot, lumaCoef, cbCoef, crCoef, if_true]
    omega

/-- C70 for one pixel: in full range the code of an unclamped colour comes back with Cb one larger; in
Bt601FR Cr is one larger, too, and luma is the same, in Bt709FR each is the same or one larger.
`cb'`, `cr'` with ties rounded up (NEON) are no different. -/
theorem C70_drift_pixel {s : Std} (hs : s.fullRange = true) {y u v : ℤ}
    (hu : IsByte u) (hv : IsByte v) (h : Unclamped s y u v) :
    let r := red s y v
    let g := green s y u v
    let b := blue s y u
    (luma s r g b = y ∨ s = .bt709FR ∧ luma s r g b = y + 1) ∧
    (cb s r g b = u + 1 ∧ cbUp s r g b = u + 1) ∧
    (cr s r g b = v + 1 ∨ s = .bt709FR ∧ cr s r g b = v) ∧
    (crUp s r g b = v + 1 ∨ s = .bt709FR ∧ crUp s r g b = v) := by
  intro r g b
  have hr : IsByte r := by unfold r red IsByte clamp; omega
  have hg : IsByte g := by unfold g green IsByte clamp; omega
  have hb : IsByte b := by unfold b blue IsByte clamp; omega
  have h0 : IsSum4 0 := by unfold IsSum4; omega
  obtain ⟨-, k2, k3, -, -⟩ := C35_full s hr hg hb h0 h0 h0
  obtain ⟨e1, e2, e3⟩ := unclamped_rgb hs h
  obtain ⟨d1, d2, d3⟩ := delta_sums hs hu hv
  have hd : ∀ k : ℤ × ℤ × ℤ, dot k r g b = (k.1 + k.2.1 + k.2.2) * y +
      dot k (deltaR s v) (deltaG s u v) (deltaB s u) := by
    intro k; unfold r g b dot; rw [e1, e2, e3]; ring
  unfold IsByte at *
  simp only [luma, cb, cr, cbUp, crUp, hd, clamp, roundUp, roundDown] at *
  generalize dot (lumaCoef s) (deltaR s v) (deltaG s u v) (deltaB s u) = l at *
  generalize dot (cbCoef s) (deltaR s v) (deltaG s u v) (deltaB s u) = p at *
  generalize dot (crCoef s) (deltaR s v) (deltaG s u v) (deltaB s u) = q at *
  cases s <;> simp [Std.fullRange] at hs <;>
  simp [lumaCoef, cbCoef, crCoef, lumaOffset, Std.fullRange] at * <;> omega

/-- C70 for a 2x2 block of codes with common chroma. -/
theorem C70_drift_block {s : Std} (hs : s.fullRange = true) {y₀ y₁ y₂ y₃ u v : ℤ}
    (hu : IsByte u) (hv : IsByte v) (h₀ : Unclamped s y₀ u v) (h₁ : Unclamped s y₁ u v)
    (h₂ : Unclamped s y₂ u v) (h₃ : Unclamped s y₃ u v) :
    let r := red s y₀ v + red s y₁ v + red s y₂ v + red s y₃ v
    let g := green s y₀ u v + green s y₁ u v + green s y₂ u v + green s y₃ u v
    let b := blue s y₀ u + blue s y₁ u + blue s y₂ u + blue s y₃ u
    (cbAvg s r g b = u + 1 ∧ cbAvgUp s r g b = u + 1) ∧
    (crAvg s r g b = v + 1 ∨ s = .bt709FR ∧ crAvg s r g b = v) ∧
    (crAvgUp s r g b = v + 1 ∨ s = .bt709FR ∧ crAvgUp s r g b = v) := by
  intro r g b
  have hc : ∀ v, 0 ≤ clamp v ∧ clamp v ≤ 255 := fun v => by unfold clamp; omega
  have hr : IsSum4 r := by
    have := hc (redFix s y₀ v / 64); have := hc (redFix s y₁ v / 64)
    have := hc (redFix s y₂ v / 64); have := hc (redFix s y₃ v / 64)
    unfold r red IsSum4; omega
  have hg : IsSum4 g := by
    have := hc (greenFix s y₀ u v / 64); have := hc (greenFix s y₁ u v / 64)
    have := hc (greenFix s y₂ u v / 64); have := hc (greenFix s y₃ u v / 64)
    unfold g green IsSum4; omega
  have hb : IsSum4 b := by
    have := hc (blueFix s y₀ u / 64); have := hc (blueFix s y₁ u / 64)
    have := hc (blueFix s y₂ u / 64); have := hc (blueFix s y₃ u / 64)
    unfold b blue IsSum4; omega
  have h0 : IsByte 0 := by unfold IsByte; omega
  obtain ⟨-, -, -, k2, k3⟩ := C35_full s h0 h0 h0 hr hg hb
  obtain ⟨a1, a2, a3⟩ := unclamped_rgb hs h₀
  obtain ⟨b1, b2, b3⟩ := unclamped_rgb hs h₁
  obtain ⟨c1, c2, c3⟩ := unclamped_rgb hs h₂
  obtain ⟨d1, d2, d3⟩ := unclamped_rgb hs h₃
  obtain ⟨-, q2, q3⟩ := delta_sums hs hu hv
  have hd : ∀ k : ℤ × ℤ × ℤ, dot k r g b = (k.1 + k.2.1 + k.2.2) * (y₀ + y₁ + y₂ + y₃) +
      4 * dot k (deltaR s v) (deltaG s u v) (deltaB s u) := by
    intro k; unfold r g b dot; rw [a1, a2, a3, b1, b2, b3, c1, c2, c3, d1, d2, d3]; ring
  clear hr hg hb hc h₀ h₁ h₂ h₃ a1 a2 a3 b1 b2 b3 c1 c2 c3 d1 d2 d3 h0
  unfold IsByte at *
  simp only [cbAvg, crAvg, cbAvgUp, crAvgUp, hd, clamp, roundUp, roundDown] at *
  clear hd
  generalize dot (cbCoef s) (deltaR s v) (deltaG s u v) (deltaB s u) = p at *
  generalize dot (crCoef s) (deltaR s v) (deltaG s u v) (deltaB s u) = q at *
  cases s <;> simp [Std.fullRange] at hs <;>
  simp [cbCoef, crCoef] at * <;> omega

variable {t : Target} {cpu cpu' : Cpu} {c c' : Call} {out out' : List Buf}

/-- No component of pixel `(x, y)` of the source image is clamped. -/
def UnclampedAt (c : Call) (x y : Nat) : Prop :=
  Unclamped (std c.src_format.color_space) (val (c.yuvIn.y x y)) (val (c.yuvIn.cb x y))
    (val (c.yuvIn.cr x y))

/-- The stored colour of an unclamped pixel. -/
theorem unclamped_stored (hv : Valid t c) (hk : c.Decodes) (ho : Stores t crate cpu c out)
    (hc : Encodes_of c c' out) {x y : Nat} (hp : c.Pixel x y) (hu : UnclampedAt c x y) :
    let s := std c.src_format.color_space
    val (c'.rgbIn.r x y) = red s (val (c.yuvIn.y x y)) (val (c.yuvIn.cr x y)) ∧
    val (c'.rgbIn.g x y) = green s (val (c.yuvIn.y x y)) (val (c.yuvIn.cb x y))
      (val (c.yuvIn.cr x y)) ∧
    val (c'.rgbIn.b x y) = blue s (val (c.yuvIn.y x y)) (val (c.yuvIn.cb x y)) := by
  have e : ∀ v, val (byte (clamp v)) = clamp v := fun v => val_byte (by unfold IsByte clamp; omega)
  obtain ⟨p1, p2, p3⟩ := hc.pixels x y hp
  obtain ⟨d1, d2, d3⟩ := C23_decode_partial hv hk ho hp (.inr (.inr (by
    have := hu.2.2.2; omega)))
  rw [← p1, ← p2, ← p3, d1, d2, d3, red, green, blue, e, e, e]
  exact ⟨rfl, rfl, rfl⟩

/-- The value of a byte is stored as it is. -/
theorem val_of_eq_byte {b : UInt8} {x : ℤ} (h : b = byte x) (hx : IsByte x) : val b = x := by
  rw [h, val_byte hx]

/-- C70: in full range, decoding a YCbCr image to RGB and encoding the result, on any two processors,
never reproduces an image. Every pixel (for 4:2:0: every pixel of a 2x2 block) that is not clamped
comes back with Cb larger by one; in Bt601FR with Cr larger by one and the same luma, in Bt709FR with
Cr and luma that are the same or larger by one. -/
theorem C70_full_range_drift (hv : Valid t c) (hv' : Valid t c') (hk : c.Decodes) (hk' : c'.Encodes)
    (hf : c'.dst_format.pixel_format = .i444 ∨ c.src_format.pixel_format ≠ .i444)
    (hs : (std c.src_format.color_space).fullRange = true)
    (ho : Stores t crate cpu c out) (ho' : Stores t crate cpu' c' out') (hc : Encodes_of c c' out)
    {x y : Nat} (hp : c.Pixel x y)
    (hg : ∀ x' y', x' / 2 = x / 2 → y' / 2 = y / 2 → c.Pixel x' y' → UnclampedAt c x' y') :
    val ((c'.yuvOut out').cb x y) = val (c.yuvIn.cb x y) + 1 ∧
    (val ((c'.yuvOut out').cr x y) = val (c.yuvIn.cr x y) + 1 ∨
      c.src_format.color_space = .bt709FR ∧ (c'.yuvOut out').cr x y = c.yuvIn.cr x y) ∧
    ((c'.yuvOut out').y x y = c.yuvIn.y x y ∨ c.src_format.color_space = .bt709FR ∧
      val ((c'.yuvOut out').y x y) = val (c.yuvIn.y x y) + 1) := by
  have h709 : std c.src_format.color_space = .bt709FR → c.src_format.color_space = .bt709FR := by
    cases c.src_format.color_space <;> simp [std]
  obtain ⟨e1, e2, e3⟩ := unclamped_stored hv hk ho hc hp (hg x y rfl rfl hp)
  have hr := isByte_val (c'.rgbIn.r x y)
  have hgr := isByte_val (c'.rgbIn.g x y)
  have hb := isByte_val (c'.rgbIn.b x y)
  have hr4 := isSum4 c'.rgbIn.r (x / 2) (y / 2)
  have hg4 := isSum4 c'.rgbIn.g (x / 2) (y / 2)
  have hb4 := isSum4 c'.rgbIn.b (x / 2) (y / 2)
  obtain ⟨n1, n2, n3, n4, n5⟩ := C35_full (std c.src_format.color_space) hr hgr hb hr4 hg4 hb4
  obtain ⟨⟨m2, m3, m4, m5⟩, -⟩ := C35_ties (std c.src_format.color_space) hr hgr hb hr4 hg4 hb4
  obtain ⟨d1, d2, d3, d4⟩ := C70_drift_pixel hs (isByte_val (c.yuvIn.cb x y))
    (isByte_val (c.yuvIn.cr x y)) (hg x y rfl rfl hp)
  have hl := C20_luma hv' hk' ho' (hc.pixel hp)
  rw [hc.color_space] at hl
  have hl' := val_of_eq_byte hl n1
  rw [e1, e2, e3] at hl'
  have hfin : ((c'.yuvOut out').y x y = c.yuvIn.y x y ∨ c.src_format.color_space = .bt709FR ∧
      val ((c'.yuvOut out').y x y) = val (c.yuvIn.y x y) + 1) := by
    rcases d1 with d1 | ⟨d0, d1⟩
    · exact .inl (val_inj (hl'.trans d1))
    · exact .inr ⟨h709 d0, hl'.trans d1⟩
  by_cases hd : c'.dst_format.pixel_format = .i444
  · obtain ⟨a2, a3⟩ := C22_chroma_444_ties hv' hk' hd ho' (hc.pixel hp)
    rw [hc.color_space] at a2 a3
    refine ⟨?_, ?_, hfin⟩
    · rcases a2 with a | a
      · rw [val_of_eq_byte a n2, e1, e2, e3]; exact d2.1
      · rw [val_of_eq_byte a m2, e1, e2, e3]; exact d2.2
    · rcases a3 with a | a
      · have := val_of_eq_byte a n3
        rw [e1, e2, e3] at this
        exact d3.imp (fun d => this.trans d) (fun d => ⟨h709 d.1, val_inj (this.trans d.2)⟩)
      · have := val_of_eq_byte a m3
        rw [e1, e2, e3] at this
        exact d4.imp (fun d => this.trans d) (fun d => ⟨h709 d.1, val_inj (this.trans d.2)⟩)
  · have hs4 := hf.resolve_left hd
    have hd' := dst_420 hv' hk' hd
    have heven : c.width.toNat % 2 = 0 ∧ c.height.toNat % 2 = 0 := by
      have := hv'.dst_legal.size
      rw [hc.width, hc.height] at this
      rcases hd' with e | e <;> rw [e] at this <;> exact this
    have hpx : ∀ x' y', x' / 2 = x / 2 → y' / 2 = y / 2 → c.Pixel x' y' := by
      intro x' y' h1 h2
      have h3 := hp.1
      have h4 := hp.2
      exact ⟨by omega, by omega⟩
    have key : ∀ x' y', x' / 2 = x / 2 → y' / 2 = y / 2 →
        let s := std c.src_format.color_space
        let u := val (c.yuvIn.cb x y)
        let v := val (c.yuvIn.cr x y)
        Unclamped s (val (c.yuvIn.y x' y')) u v ∧
        val (c'.rgbIn.r x' y') = red s (val (c.yuvIn.y x' y')) v ∧
        val (c'.rgbIn.g x' y') = green s (val (c.yuvIn.y x' y')) u v ∧
        val (c'.rgbIn.b x' y') = blue s (val (c.yuvIn.y x' y')) u := by
      intro x' y' h1 h2
      have h := hg x' y' h1 h2 (hpx x' y' h1 h2)
      have h' := unclamped_stored hv hk ho hc (hpx x' y' h1 h2) h
      have hcb : c.yuvIn.cb x' y' = c.yuvIn.cb x y ∧ c.yuvIn.cr x' y' = c.yuvIn.cr x y :=
        chroma_block hs4 h1 h2
      unfold UnclampedAt at h
      rw [hcb.1, hcb.2] at h h'
      exact ⟨h, h'⟩
    obtain ⟨k0, r0, g0, b0⟩ := key (2 * (x / 2)) (2 * (y / 2)) (by omega) (by omega)
    obtain ⟨k1, r1, g1, b1⟩ := key (2 * (x / 2) + 1) (2 * (y / 2)) (by omega) (by omega)
    obtain ⟨k2, r2, g2, b2⟩ := key (2 * (x / 2)) (2 * (y / 2) + 1) (by omega) (by omega)
    obtain ⟨k3, r3, g3, b3⟩ := key (2 * (x / 2) + 1) (2 * (y / 2) + 1) (by omega) (by omega)
    obtain ⟨f2, f3, f4⟩ := C70_drift_block hs (isByte_val (c.yuvIn.cb x y))
      (isByte_val (c.yuvIn.cr x y)) k0 k1 k2 k3
    rw [← r0, ← r1, ← r2, ← r3, ← g0, ← g1, ← g2, ← g3, ← b0, ← b1, ← b2, ← b3] at f2 f3 f4
    obtain ⟨a2, a3⟩ := C21_chroma_420_ties hv' hk' hd' ho' (hc.pixel hp)
    rw [hc.color_space] at a2 a3
    refine ⟨?_, ?_, hfin⟩
    · rcases a2 with a | a
      · rw [val_of_eq_byte a n4]; exact f2.1
      · rw [val_of_eq_byte a m4]; exact f2.2
    · rcases a3 with a | a
      · have := val_of_eq_byte a n5
        exact f3.imp (fun d => this.trans d) (fun d => ⟨h709 d.1, val_inj (this.trans d.2)⟩)
      · have := val_of_eq_byte a m5
        exact f4.imp (fun d => this.trans d) (fun d => ⟨h709 d.1, val_inj (this.trans d.2)⟩)

/-- The hypotheses of C70 are met by `exYuv`: decode on NEON, encode to I420 on AVX2; no pixel is
clamped. -/
example : ∃ out out', Stores .x64 crate neonCpu (exYuv .bt709FR) out ∧
    Stores .x64 crate avx2Cpu (exAgain .bt709FR .i420 out) out' ∧
    Encodes_of (exYuv .bt709FR) (exAgain .bt709FR .i420 out) out ∧
    Valid .x64 (exYuv .bt709FR) ∧ Valid .x64 (exAgain .bt709FR .i420 out) ∧
    (exYuv .bt709FR).Decodes ∧ (exAgain .bt709FR .i420 out).Encodes ∧ (exYuv .bt709FR).Pixel 1 1 ∧
    ∀ x y, x / 2 = 0 → y / 2 = 0 → UnclampedAt (exYuv .bt709FR) x y := by
  have hv : Valid .x64 (exYuv .bt709FR) := valid_of_check (by decide +kernel)
  have hv' : Valid .x64 (exAgain .bt709FR .i420 ((semOf .neon).out (exYuv .bt709FR))) :=
    valid_of_check (by decide +kernel)
  refine ⟨_, _, (Runs.crate hv (.of_ne (by decide))).stores,
    (Runs.crate hv' (.of_ne (by decide))).stores, ⟨rfl, rfl, rfl, fun _ _ _ => ⟨rfl, rfl, rfl⟩⟩,
    hv, hv', ⟨rfl, rfl⟩, by decide, by unfold Call.Pixel; decide, ?_⟩
  intro x y hx hy
  have e : ∀ x < 2, ∀ y < 2, UnclampedAt (exYuv .bt709FR) x y := by
    unfold UnclampedAt Unclamped; decide
  exact e x (by omega) y (by omega)

/-- One generation of the code (100, 80, 150), and ten. -/
example : (cb .bt601FR (red .bt601FR 100 150) (green .bt601FR 100 80 150) (blue .bt601FR 100 80) = 81 ∧
    cr .bt601FR (red .bt601FR 100 150) (green .bt601FR 100 80 150) (blue .bt601FR 100 80) = 151) ∧
    (fun p : ℤ × ℤ × ℤ =>
      let r := red .bt601FR p.1 p.2.2
      let g := green .bt601FR p.1 p.2.1 p.2.2
      let b := blue .bt601FR p.1 p.2.1
      (luma .bt601FR r g b, cb .bt601FR r g b, cr .bt601FR r g b))^[10] (100, 80, 150) =
      (100, 90, 160) := by
  decide +kernel

end Verif
