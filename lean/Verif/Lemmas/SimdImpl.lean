import Verif.Lemmas.SimdOut
import Verif.Lemmas.Tail
/-! # Splitting a line into a vector part and a portable remainder (SSE2 and AVX2) -/

namespace Verif.Simd

open Spec (byte val PlaneFits)

theorem lower_multiple {w k : Nat} (hw : w < 2 ^ 32) (hk : k ≤ 32) :
    lower_multiple_of_pot w (2 ^ k) = 2 ^ k * (w / 2 ^ k) :=
  X86.and_mask (by omega) (by omega)

/-- Arithmetic of an instruction set that deviates from the specification only in the blue channel
of the pixels to the left of column `v src dst w`. -/
def vsem (v : PixelFormat → PixelFormat → Nat → Nat) (room : PixelFormat → (w h stride len : Nat) → Prop) :
    Sem where
  cb _ _ _ := Spec.cb
  cr _ _ _ := Spec.cr
  cbAvg _ _ _ := Spec.cbAvg
  crAvg _ _ _ := Spec.crAvg
  blue src dst w x := if x < v src dst w then vblue else Spec.blue
  room := room

theorem vsem_lo {v : PixelFormat → PixelFormat → Nat → Nat}
    {room : PixelFormat → (w h stride len : Nat) → Prop} {src dst : PixelFormat} {w j y : Nat}
    (s : Spec.Std) (im : Spec.YuvImage) (h : j < v src dst w * Spec.bpp dst) :
    Spec.rgbRow dst (vdec s im) j y = Spec.rgbRow dst ((vsem v room).dec src dst w s im) j y := by
  have : j / Spec.bpp dst < v src dst w := Nat.div_lt_of_lt_mul (by rwa [Nat.mul_comm] at h)
  unfold Spec.rgbRow
  simp only [Sem.dec, vsem, vdec, if_pos this]

theorem vsem_hi {v : PixelFormat → PixelFormat → Nat → Nat}
    {room : PixelFormat → (w h stride len : Nat) → Prop} {src dst : PixelFormat} {w j y : Nat}
    (s : Spec.Std) (im : Spec.YuvImage) (hp : 0 < Spec.bpp dst) (h : v src dst w * Spec.bpp dst ≤ j) :
    Spec.rgbRow dst ((vsem v room).dec src dst w s im) j y =
      Spec.rgbRow dst (Spec.decoded s im) j y := by
  have : ¬ j / Spec.bpp dst < v src dst w := by
    rw [Nat.not_lt]
    exact (Nat.le_div_iff_mul_le hp).2 h
  unfold Spec.rgbRow
  simp only [Sem.dec, vsem, Spec.decoded, if_neg this]

theorem bpp_out (o : RgbOut) : 0 < Spec.bpp o.pf := by cases o <;> decide

/-- Rows of a plane that is at most `w` wide, given those of the plane. -/
theorem part_line {len stride row rows v : Nat} (hf : PlaneFits len stride row rows) (hv : v ≤ row) :
    ∀ y, y < rows → stride * y + v ≤ len := by
  intro y hy
  have := fits_line hf hy
  omega

end Verif.Simd
