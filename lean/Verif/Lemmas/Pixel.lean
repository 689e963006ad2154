import Verif.Lemmas.K
import Verif.Model.X86
import Verif.Spec.Color
/-! # Pixel-level arithmetic of the scalar kernels equals the specification -/

namespace Verif

open Spec (byte val)

/-- The standard a colorimetry stands for. -/
def Colorimetry.std : Colorimetry → Spec.Std
  | .bt601 => .bt601 | .bt709 => .bt709 | .bt601FR => .bt601FR | .bt709FR => .bt709FR

theorem I32.chk_ok {x : Int} (h : -2147483648 ≤ x) (h' : x ≤ 2147483647) : I32.chk x = .ok x := by
  simp [I32.chk, h, h']

theorem val_range (b : UInt8) : 0 ≤ val b ∧ val b ≤ 255 := by
  have := b.toNat_lt
  simp [val]; omega

namespace X86

theorem R_bind_ok {α β : Type} (a : α) (f : α → R β) : ((Except.ok a : R α) >>= f) = f a := rfl

theorem affine_ok {x y z ax ay az bw : Int}
    (h1 : -2147483648 ≤ ax * x ∧ ax * x ≤ 2147483647)
    (h2 : -2147483648 ≤ ay * y ∧ ay * y ≤ 2147483647)
    (h3 : -2147483648 ≤ ax * x + ay * y ∧ ax * x + ay * y ≤ 2147483647)
    (h4 : -2147483648 ≤ az * z ∧ az * z ≤ 2147483647)
    (h5 : -2147483648 ≤ ax * x + ay * y + az * z ∧ ax * x + ay * y + az * z ≤ 2147483647)
    (h6 : -2147483648 ≤ ax * x + ay * y + az * z + bw ∧
      ax * x + ay * y + az * z + bw ≤ 2147483647) :
    affine_transform x y z ax ay az bw = .ok (ax * x + ay * y + az * z + bw) := by
  unfold affine_transform I32.mul I32.add
  rw [I32.chk_ok h1.1 h1.2, R_bind_ok, I32.chk_ok h2.1 h2.2, R_bind_ok, I32.chk_ok h3.1 h3.2,
    R_bind_ok, I32.chk_ok h4.1 h4.2, R_bind_ok, I32.chk_ok h5.1 h5.2, R_bind_ok,
    I32.chk_ok h6.1 h6.2]

/-- Weights derived at run time, as a pure value. -/
def yb (w : Fwd) : Int := -(w.yr + w.yg)
/-- Weights derived at run time, as a pure value. -/
def zb (w : Fwd) : Int := -(yb w + w.zg)

theorem derived_ok (c : Colorimetry) :
    derived (FORWARD_WEIGHTS c) = .ok (yb (FORWARD_WEIGHTS c), zb (FORWARD_WEIGHTS c)) := by
  cases c <;> rfl

theorem asU8_eq {x : Int} (h : 0 ≤ x) (h' : x ≤ 255) : I32.asU8 x = byte x := by
  have : x % 256 = x := Int.emod_eq_of_lt h (by omega)
  rw [I32.asU8, this, byte]

/-- Rounding constant of the 4:2:0 chroma. -/
def co18 : Int := FIX18_C_HALF + (FIX18_HALF - 1)
/-- Rounding constant of the 4:4:4 chroma. -/
def co16 : Int := FIX16_C_HALF + (FIX16_HALF - 1)

theorem luma_ok (c : Colorimetry) {r g b : Int} (hr : 0 ≤ r ∧ r ≤ 255) (hg : 0 ≤ g ∧ g ≤ 255)
    (hb : 0 ≤ b ∧ b ≤ 255) :
    ∃ v, affine_transform r g b (FORWARD_WEIGHTS c).xr (FORWARD_WEIGHTS c).xg
        (FORWARD_WEIGHTS c).xb (FORWARD_WEIGHTS c).yo = .ok v ∧
      fix_to_i32 v FIX16 = Spec.luma c.std r g b ∧
      0 ≤ Spec.luma c.std r g b ∧ Spec.luma c.std r g b ≤ 255 := by
  cases c <;>
  refine ⟨_, affine_ok ?_ ?_ ?_ ?_ ?_ ?_, ?_, ?_, ?_⟩ <;>
  simp [FORWARD_WEIGHTS, Y_OFFSET, Y_MIN, FIX16, FIX16_HALF, fix_to_i32, I32.shr, Spec.luma,
    Spec.lumaOffset, Spec.Std.fullRange, Spec.roundUp, Spec.dot, Spec.lumaCoef, Colorimetry.std] <;>
  omega

theorem cb444_ok (c : Colorimetry) {r g b : Int} (hr : 0 ≤ r ∧ r ≤ 255) (hg : 0 ≤ g ∧ g ≤ 255)
    (hb : 0 ≤ b ∧ b ≤ 255) :
    ∃ v, affine_transform r g b (FORWARD_WEIGHTS c).yr (FORWARD_WEIGHTS c).yg
        (yb (FORWARD_WEIGHTS c)) co16 = .ok v ∧
      fix_to_i32 v FIX16 = Spec.cb c.std r g b ∧
      0 ≤ Spec.cb c.std r g b ∧ Spec.cb c.std r g b ≤ 255 := by
  cases c <;>
  refine ⟨_, affine_ok ?_ ?_ ?_ ?_ ?_ ?_, ?_, ?_, ?_⟩ <;>
  simp [FORWARD_WEIGHTS, yb, co16, FIX16_C_HALF, C_HALF, FIX16, FIX16_HALF, fix_to_i32, I32.shr,
    Spec.cb, Spec.roundDown, Spec.dot, Spec.cbCoef, Colorimetry.std] <;>
  omega

theorem cr444_ok (c : Colorimetry) {r g b : Int} (hr : 0 ≤ r ∧ r ≤ 255) (hg : 0 ≤ g ∧ g ≤ 255)
    (hb : 0 ≤ b ∧ b ≤ 255) :
    ∃ v, affine_transform r g b (yb (FORWARD_WEIGHTS c)) (FORWARD_WEIGHTS c).zg
        (zb (FORWARD_WEIGHTS c)) co16 = .ok v ∧
      fix_to_i32 v FIX16 = Spec.cr c.std r g b ∧
      0 ≤ Spec.cr c.std r g b ∧ Spec.cr c.std r g b ≤ 255 := by
  cases c <;>
  refine ⟨_, affine_ok ?_ ?_ ?_ ?_ ?_ ?_, ?_, ?_, ?_⟩ <;>
  simp [FORWARD_WEIGHTS, yb, zb, co16, FIX16_C_HALF, C_HALF, FIX16, FIX16_HALF, fix_to_i32,
    I32.shr, Spec.cr, Spec.roundDown, Spec.dot, Spec.crCoef, Colorimetry.std] <;>
  omega

theorem cb420_ok (c : Colorimetry) {r g b : Int} (hr : 0 ≤ r ∧ r ≤ 1020) (hg : 0 ≤ g ∧ g ≤ 1020)
    (hb : 0 ≤ b ∧ b ≤ 1020) :
    ∃ v, affine_transform r g b (FORWARD_WEIGHTS c).yr (FORWARD_WEIGHTS c).yg
        (yb (FORWARD_WEIGHTS c)) co18 = .ok v ∧
      fix_to_i32 v FIX18 = Spec.cbAvg c.std r g b ∧
      0 ≤ Spec.cbAvg c.std r g b ∧ Spec.cbAvg c.std r g b ≤ 255 := by
  cases c <;>
  refine ⟨_, affine_ok ?_ ?_ ?_ ?_ ?_ ?_, ?_, ?_, ?_⟩ <;>
  simp [FORWARD_WEIGHTS, yb, co18, FIX18_C_HALF, C_HALF, FIX16, FIX18, FIX18_HALF, fix_to_i32,
    I32.shr, Spec.cbAvg, Spec.roundDown, Spec.dot, Spec.cbCoef, Colorimetry.std] <;>
  omega

theorem cr420_ok (c : Colorimetry) {r g b : Int} (hr : 0 ≤ r ∧ r ≤ 1020) (hg : 0 ≤ g ∧ g ≤ 1020)
    (hb : 0 ≤ b ∧ b ≤ 1020) :
    ∃ v, affine_transform r g b (yb (FORWARD_WEIGHTS c)) (FORWARD_WEIGHTS c).zg
        (zb (FORWARD_WEIGHTS c)) co18 = .ok v ∧
      fix_to_i32 v FIX18 = Spec.crAvg c.std r g b ∧
      0 ≤ Spec.crAvg c.std r g b ∧ Spec.crAvg c.std r g b ≤ 255 := by
  cases c <;>
  refine ⟨_, affine_ok ?_ ?_ ?_ ?_ ?_ ?_, ?_, ?_, ?_⟩ <;>
  simp [FORWARD_WEIGHTS, yb, zb, co18, FIX18_C_HALF, C_HALF, FIX16, FIX18, FIX18_HALF, fix_to_i32,
    I32.shr, Spec.crAvg, Spec.roundDown, Spec.dot, Spec.crCoef, Colorimetry.std] <;>
  omega

theorem sat_mask (f : BitVec 32) :
    f &&& ~~~((256#32 <<< 6) - 1#32) = 0#32 ↔ f.toNat < 16384 := by
  have e : ~~~((256#32 <<< 6) - 1#32) = 0xFFFFC000#32 := by decide
  rw [e]
  constructor
  · intro h
    refine Nat.lt_pow_two_of_testBit (n := 14) _ fun i hi => ?_
    by_cases h32 : i < 32
    · have h1 : (f &&& 0xFFFFC000#32).getLsbD i = false := by rw [h]; simp
      have h2 : (0xFFFFC000#32).getLsbD i = true := by
        have : ∀ j : Fin 32, 14 ≤ j.val → (0xFFFFC000#32).getLsbD j.val = true := by decide
        exact this ⟨i, h32⟩ hi
      rw [BitVec.getLsbD_and, h2] at h1
      simpa [BitVec.getLsbD] using h1
    · have := f.isLt
      exact Nat.testBit_lt_two_pow (Nat.lt_of_lt_of_le this (Nat.pow_le_pow_right (by omega) (by omega)))
  · intro h
    apply BitVec.eq_of_getLsbD_eq
    intro i hi
    rw [BitVec.getLsbD_and]
    by_cases h14 : i < 14
    · have : ∀ j : Fin 14, (0xFFFFC000#32).getLsbD j.val = false := by decide
      rw [this ⟨i, h14⟩]; simp
    · have : f.getLsbD i = false := by
        simp only [BitVec.getLsbD]
        exact Nat.testBit_lt_two_pow (Nat.lt_of_lt_of_le h
          (Nat.pow_le_pow_right (n := 2) (i := 14) (by omega) (by omega)))
      rw [this]; simp

theorem fix_to_u8_sat_eq {v : Int} (h : -2147483648 ≤ v) (h' : v ≤ 2147483647) :
    fix_to_u8_sat v FIX6 = byte (Spec.clamp (v / 64)) := by
  unfold fix_to_u8_sat FIX6
  simp only [sat_mask]
  have hn : (BitVec.ofInt 32 v).toNat = (v % 4294967296).toNat := by
    simp [BitVec.toNat_ofInt]
  by_cases hv : 0 ≤ v ∧ v < 16384
  · have e : v % 4294967296 = v := by omega
    rw [if_pos (by rw [hn, e]; omega), BitVec.toNat_ushiftRight, hn, e, byte, Spec.clamp]
    congr 1
    rw [Nat.shiftRight_eq_div_pow]
    omega
  · rw [if_neg (by rw [hn]; omega)]
    have e31 : (BitVec.ofInt 32 v >>> 31) = if v < 0 then 1#32 else 0#32 := by
      apply BitVec.eq_of_toNat_eq
      rw [BitVec.toNat_ushiftRight, hn, Nat.shiftRight_eq_div_pow]
      split <;> simp <;> omega
    rw [e31, byte, Spec.clamp]
    split
    · have : max 0 (min 255 (v / 64)) = 0 := by omega
      rw [this]; decide
    · have : max 0 (min 255 (v / 64)) = 255 := by omega
      rw [this]; decide

theorem mulhi_ok {a b : Int} (h : -2147483648 ≤ a * b ∧ a * b ≤ 2147483647) :
    mulhi_i32 a b = .ok (a * b / 256) := by
  unfold mulhi_i32 I32.mul
  rw [I32.chk_ok h.1 h.2, R_bind_ok]
  rfl

/-- Chroma contribution to red. -/
def tr (w : Bwd) (cr : Int) : Int := cr * w.rcrm / 256 - w.rn
/-- Chroma contribution to green. -/
def tg (w : Bwd) (cb cr : Int) : Int := -(cb * w.gcbm / 256) - cr * w.gcrm / 256 + w.gp
/-- Chroma contribution to blue. -/
def tb (w : Bwd) (cb : Int) : Int := cb * w.bcbm / 256 - w.bn

theorem chroma_terms_ok (c : Colorimetry) {cb cr : Int} (hb : 0 ≤ cb ∧ cb ≤ 255)
    (hr : 0 ≤ cr ∧ cr ≤ 255) :
    chroma_terms (BACKWARD_WEIGHTS c) cb cr = .ok (tr (BACKWARD_WEIGHTS c) cr,
      tg (BACKWARD_WEIGHTS c) cb cr, tb (BACKWARD_WEIGHTS c) cb) := by
  unfold chroma_terms
  cases c <;> simp only [BACKWARD_WEIGHTS, tr, tg, tb] <;>
  (rw [mulhi_ok (by omega)]; simp only [R_bind_ok]
   rw [I32.sub, I32.chk_ok (by omega) (by omega)]; simp only [R_bind_ok]
   rw [mulhi_ok (by omega)]; simp only [R_bind_ok]
   rw [I32.neg, I32.chk_ok (by omega) (by omega)]; simp only [R_bind_ok]
   rw [mulhi_ok (by omega)]; simp only [R_bind_ok]
   rw [I32.sub, I32.chk_ok (by omega) (by omega)]; simp only [R_bind_ok]
   rw [I32.add, I32.chk_ok (by omega) (by omega)]; simp only [R_bind_ok]
   rw [mulhi_ok (by omega)]; simp only [R_bind_ok]
   rw [I32.sub, I32.chk_ok (by omega) (by omega)]; simp only [R_bind_ok]
   rfl)

theorem decode_px_ok (c : Colorimetry) {l cb cr : Int} (hl : 0 ≤ l ∧ l ≤ 255)
    (hb : 0 ≤ cb ∧ cb ≤ 255) (hr : 0 ≤ cr ∧ cr ≤ 255) :
    decode_px (BACKWARD_WEIGHTS c) l (tr (BACKWARD_WEIGHTS c) cr)
      (tg (BACKWARD_WEIGHTS c) cb cr) (tb (BACKWARD_WEIGHTS c) cb) =
    .ok (byte (Spec.red c.std l cr), byte (Spec.green c.std l cb cr),
      byte (Spec.blue c.std l cb)) := by
  have e1 : l * (BACKWARD_WEIGHTS c).xxym / 256 + tr (BACKWARD_WEIGHTS c) cr =
      Spec.redFix c.std l cr := by
    cases c <;> simp only [BACKWARD_WEIGHTS, tr, Spec.redFix, Spec.dec, Colorimetry.std] <;> omega
  have e2 : l * (BACKWARD_WEIGHTS c).xxym / 256 + tg (BACKWARD_WEIGHTS c) cb cr =
      Spec.greenFix c.std l cb cr := by
    cases c <;> simp only [BACKWARD_WEIGHTS, tg, Spec.greenFix, Spec.dec, Colorimetry.std] <;> omega
  have e3 : l * (BACKWARD_WEIGHTS c).xxym / 256 + tb (BACKWARD_WEIGHTS c) cb =
      Spec.blueFix c.std l cb := by
    cases c <;> simp only [BACKWARD_WEIGHTS, tb, Spec.blueFix, Spec.dec, Colorimetry.std] <;> omega
  have b1 : -2147483648 ≤ Spec.redFix c.std l cr ∧ Spec.redFix c.std l cr ≤ 2147483647 := by
    cases c <;> simp only [Spec.redFix, Spec.dec, Colorimetry.std] <;> omega
  have b2 : -2147483648 ≤ Spec.greenFix c.std l cb cr ∧
      Spec.greenFix c.std l cb cr ≤ 2147483647 := by
    cases c <;> simp only [Spec.greenFix, Spec.dec, Colorimetry.std] <;> omega
  have b3 : -2147483648 ≤ Spec.blueFix c.std l cb ∧ Spec.blueFix c.std l cb ≤ 2147483647 := by
    cases c <;> simp only [Spec.blueFix, Spec.dec, Colorimetry.std] <;> omega
  have b0 : -2147483648 ≤ l * (BACKWARD_WEIGHTS c).xxym ∧
      l * (BACKWARD_WEIGHTS c).xxym ≤ 2147483647 := by
    cases c <;> simp only [BACKWARD_WEIGHTS] <;> omega
  unfold decode_px I32.add
  rw [mulhi_ok b0, R_bind_ok, e1, e2, e3, I32.chk_ok b3.1 b3.2, R_bind_ok, I32.chk_ok b2.1 b2.2,
    R_bind_ok, I32.chk_ok b1.1 b1.2, R_bind_ok, fix_to_u8_sat_eq b1.1 b1.2,
    fix_to_u8_sat_eq b2.1 b2.2, fix_to_u8_sat_eq b3.1 b3.2]
  rfl

end X86
end Verif
