import Verif.Lemmas.SimdDec
import Verif.Lemmas.Tail
/-! # Storing decoded pixels (shared by SSE2 and AVX2) -/

namespace Verif.Simd

open Spec (byte val)

/-- The decoded image with the arithmetic of the vector kernels. -/
def vdec (s : Spec.Std) (im : Spec.YuvImage) : Spec.RgbImage where
  r x y := byte (Spec.red s (val (im.y x y)) (val (im.cr x y)))
  g x y := byte (Spec.green s (val (im.y x y)) (val (im.cb x y)) (val (im.cr x y)))
  b x y := byte (vblue s (val (im.y x y)) (val (im.cb x y)))

/-- Byte `j` of decoded pixels given as functions. -/
def decRow (pf : PixelFormat) (s : Spec.Std) (Y U V : Nat → UInt8) (j : Nat) : UInt8 :=
  (Spec.pixelBytes pf (byte (Spec.red s (val (Y (j / Spec.bpp pf))) (val (V (j / Spec.bpp pf)))))
    (byte (Spec.green s (val (Y (j / Spec.bpp pf))) (val (U (j / Spec.bpp pf)))
      (val (V (j / Spec.bpp pf)))))
    (byte (vblue s (val (Y (j / Spec.bpp pf))) (val (U (j / Spec.bpp pf)))))).getD
    (j % Spec.bpp pf) 0

theorem decRow_eq {pf : PixelFormat} {s : Spec.Std} {im : Spec.YuvImage} {n x y : Nat}
    {Y U V : Nat → UInt8} (hp : 0 < Spec.bpp pf)
    (hY : ∀ k, k < n → Y k = im.y (x + k) y) (hU : ∀ k, k < n → U k = im.cb (x + k) y)
    (hV : ∀ k, k < n → V k = im.cr (x + k) y) {j : Nat} (hj : j < Spec.bpp pf * n) :
    decRow pf s Y U V j = Spec.rgbRow pf (vdec s im) (Spec.bpp pf * x + j) y := by
  have hk : j / Spec.bpp pf < n := Nat.div_lt_of_lt_mul hj
  unfold decRow Spec.rgbRow
  rw [hY _ hk, hU _ hk, hV _ hk, Nat.mul_add_div hp, Nat.mul_add_mod]
  rfl

theorem hi_lane {a : Reg} {k : Nat} {v : UInt8} (h0 : a (2 * k) = 0) (h1 : a (2 * k + 1) = v) :
    w16 a k = 256 * v.toNat := by
  unfold w16
  rw [h0, h1, UInt8.toNat_zero, Nat.zero_add]

/-- Interleaving with zeros: the bytes of the low half of each half register. -/
theorem unpacklo_hi {n : Nat} (a : Reg) (hn : n ≤ 16) :
    Hi n (unpacklo_epi8 setzero a) (fun k => a (16 * (k / 8) + k % 8)) := by
  intro k hk
  have hk' : k < 16 := by omega
  apply hi_lane <;> interval_cases k <;> rfl

/-- Interleaving with zeros: the bytes of the high half of each half register. -/
theorem unpackhi_hi {n : Nat} (a : Reg) (hn : n ≤ 16) :
    Hi n (unpackhi_epi8 setzero a) (fun k => a (16 * (k / 8) + 8 + k % 8)) := by
  intro k hk
  have hk' : k < 16 := by omega
  apply hi_lane <;> interval_cases k <;> rfl

theorem Hi.congr {n : Nat} {a : Reg} {u v : Nat → UInt8} (h : Hi n a u)
    (e : ∀ k, k < n → u k = v k) : Hi n a v := by
  intro k hk
  rw [← e k hk]
  exact h k hk

/-- Even and odd bytes moved to the high half of their 16-bit lane. -/
theorem slli_hi (n : Nat) (a : Reg) : Hi n (slli_epi16 a 8) (fun k => a (2 * k)) :=
  fun k _ => hi_lane (shift16 a k).2.1 (shift16 a k).2.2

theorem srli_slli_hi (n : Nat) (a : Reg) :
    Hi n (slli_epi16 (srli_epi16 a 8) 8) (fun k => a (2 * k + 1)) :=
  fun k _ => hi_lane (shift16 _ k).2.1 ((shift16 _ k).2.2.trans (shift16 a k).1.1)

/-- Bytes of the two unpacking rounds. -/
theorem interleave_lo (x y : Reg) {i : Nat} (hi : i < 32) :
    unpacklo_epi16 (unpacklo_epi8 x y) (unpackhi_epi8 x y) i =
      if i % 4 = 0 then x (16 * (i / 16) + i % 16 / 4)
      else if i % 4 = 1 then y (16 * (i / 16) + i % 16 / 4)
      else if i % 4 = 2 then x (16 * (i / 16) + 8 + i % 16 / 4)
      else y (16 * (i / 16) + 8 + i % 16 / 4) := by
  interval_cases i <;> rfl

theorem interleave_hi (x y : Reg) {i : Nat} (hi : i < 32) :
    unpackhi_epi16 (unpacklo_epi8 x y) (unpackhi_epi8 x y) i =
      if i % 4 = 0 then x (16 * (i / 16) + (4 + i % 16 / 4))
      else if i % 4 = 1 then y (16 * (i / 16) + (4 + i % 16 / 4))
      else if i % 4 = 2 then x (16 * (i / 16) + 8 + (4 + i % 16 / 4))
      else y (16 * (i / 16) + 8 + (4 + i % 16 / 4)) := by
  interval_cases i <;> rfl

theorem packus_lo {n : Nat} {a b : Reg} {A : Nat → UInt8} (h : Px n a A) {q m : Nat} (hm : m < 8)
    (hn : 8 * q + m < n) : packus_epi16 a b (16 * q + m) = A (8 * q + m) := by
  simp only [packus_epi16]
  rw [if_pos (by omega), show 8 * ((16 * q + m) / 16) + (16 * q + m) % 16 = 8 * q + m by omega]
  exact h _ hn

theorem packus_hi {n : Nat} {a b : Reg} {B : Nat → UInt8} (h : Px n b B) {q m : Nat} (hm : m < 8)
    (hn : 8 * q + m < n) : packus_epi16 a b (16 * q + 8 + m) = B (8 * q + m) := by
  simp only [packus_epi16]
  rw [if_neg (by omega),
    show 8 * ((16 * q + 8 + m) / 16) + ((16 * q + 8 + m) % 16 - 8) = 8 * q + m by omega]
  exact h _ hn

/-- The alpha lanes. -/
theorem alpha_px (n : Nat) : Px n (srli_epi16 (cmpeq_epi32 setzero setzero) 8) (fun _ => 255) := by
  intro k _
  have h1 : ∀ i, cmpeq_epi32 setzero setzero i = 255 := by
    intro i
    simp only [cmpeq_epi32, ofW32, setzero, w32, if_true]
    rcases (by omega : i % 4 = 0 ∨ i % 4 = 1 ∨ i % 4 = 2 ∨ i % 4 = 3) with e | e | e | e <;>
      rw [e] <;> rfl
  have h2 : w16 (srli_epi16 (cmpeq_epi32 setzero setzero) 8) k = 255 := by
    simp only [srli_epi16, w16_ofW16]
    simp only [w16, h1]
    rfl
  rw [h2]
  rfl

/-- First register of packed opaque pixels: within each half, the first four pixels. -/
def packLo (reversed : Bool) (red green blue : Reg) : Reg :=
  let x := if reversed then packus_epi16 red blue else packus_epi16 blue red
  let y := packus_epi16 green (srli_epi16 (cmpeq_epi32 setzero setzero) 8)
  unpacklo_epi16 (unpacklo_epi8 x y) (unpackhi_epi8 x y)

/-- Second register of packed opaque pixels: within each half, the last four pixels. -/
def packHi (reversed : Bool) (red green blue : Reg) : Reg :=
  let x := if reversed then packus_epi16 red blue else packus_epi16 blue red
  let y := packus_epi16 green (srli_epi16 (cmpeq_epi32 setzero setzero) 8)
  unpackhi_epi16 (unpacklo_epi8 x y) (unpackhi_epi8 x y)

/-- Byte `j` of opaque pixels. -/
def pxBytes (pf : PixelFormat) (R G B : Nat → UInt8) (j : Nat) : UInt8 :=
  (Spec.pixelBytes pf (R (j / Spec.bpp pf)) (G (j / Spec.bpp pf)) (B (j / Spec.bpp pf))).getD
    (j % Spec.bpp pf) 0

theorem pack_px {n : Nat} (rev : Bool) {red green blue : Reg} {R G B : Nat → UInt8}
    (hr : Px n red R) (hg : Px n green G) (hb : Px n blue B) {q m : Nat} (hm : m < 8)
    (hn : 8 * q + m < n) (b : Nat) (hb4 : b < 4) :
    (let x := if rev then packus_epi16 red blue else packus_epi16 blue red
     let y := packus_epi16 green (srli_epi16 (cmpeq_epi32 setzero setzero) 8)
     if b = 0 then x (16 * q + m) else if b = 1 then y (16 * q + m)
     else if b = 2 then x (16 * q + 8 + m) else y (16 * q + 8 + m)) =
      (Spec.pixelBytes (outPf rev) (R (8 * q + m)) (G (8 * q + m)) (B (8 * q + m))).getD b 0 := by
  cases rev
  · simp only [Bool.false_eq_true, if_false, packus_lo hb hm hn, packus_lo hg hm hn,
      packus_hi hr hm hn, packus_hi (alpha_px n) hm hn, outPf, Spec.pixelBytes]
    interval_cases b <;> rfl
  · simp only [if_true, packus_lo hr hm hn, packus_lo hg hm hn,
      packus_hi hb hm hn, packus_hi (alpha_px n) hm hn, outPf, Spec.pixelBytes]
    interval_cases b <;> rfl

theorem packLo_byte {n : Nat} (rev : Bool) {red green blue : Reg} {R G B : Nat → UInt8}
    (hr : Px n red R) (hg : Px n green G) (hb : Px n blue B) {i : Nat} (hi : i < 32)
    (hn : 8 * (i / 16) + i % 16 / 4 < n) :
    packLo rev red green blue i = pxBytes (outPf rev) R G B (32 * (i / 16) + i % 16) := by
  have h4 := X86.outPf_bpp rev
  unfold packLo pxBytes
  simp only [interleave_lo _ _ hi, h4]
  rw [show (32 * (i / 16) + i % 16) / 4 = 8 * (i / 16) + i % 16 / 4 by omega,
    show (32 * (i / 16) + i % 16) % 4 = i % 4 by omega]
  exact pack_px rev hr hg hb (by omega) hn (i % 4) (by omega)

theorem packHi_byte {n : Nat} (rev : Bool) {red green blue : Reg} {R G B : Nat → UInt8}
    (hr : Px n red R) (hg : Px n green G) (hb : Px n blue B) {i : Nat} (hi : i < 32)
    (hn : 8 * (i / 16) + (4 + i % 16 / 4) < n) :
    packHi rev red green blue i = pxBytes (outPf rev) R G B (32 * (i / 16) + 16 + i % 16) := by
  have h4 := X86.outPf_bpp rev
  unfold packHi pxBytes
  simp only [interleave_hi _ _ hi, h4]
  rw [show (32 * (i / 16) + 16 + i % 16) / 4 = 8 * (i / 16) + (4 + i % 16 / 4) by omega,
    show (32 * (i / 16) + 16 + i % 16) % 4 = i % 4 by omega]
  exact pack_px rev hr hg hb (by omega) hn (i % 4) (by omega)

theorem Lanes16.congr {n : Nat} {a : Reg} {u v : Nat → Int} (h : Lanes16 n a u)
    (e : ∀ k, k < n → u k = v k) : Lanes16 n a v := by
  intro k hk
  rw [← e k hk]
  exact h k hk

end Verif.Simd
