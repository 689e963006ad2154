import Verif.Model.Simd
import Verif.Lemmas.ImplOk
/-! # Lanes of vector registers -/

namespace Verif.Simd

open Spec (byte val)

theorem ofNat_toNat (n : Nat) : (UInt8.ofNat n).toNat = n % 256 := UInt8.toNat_ofNat'

theorem w16_ofW16 (f : Nat → Nat) (k : Nat) : w16 (ofW16 f) k = f k % 65536 := by
  simp only [w16, ofW16, ofNat_toNat]
  rw [show 2 * k / 2 = k by omega, show 2 * k % 2 = 0 by omega, show (2 * k + 1) / 2 = k by omega,
    show (2 * k + 1) % 2 = 1 by omega]
  omega

theorem w32_ofW32 (f : Nat → Nat) (k : Nat) : w32 (ofW32 f) k = f k % 4294967296 := by
  simp only [w32, ofW32, ofNat_toNat]
  rw [show 4 * k / 4 = k by omega, show 4 * k % 4 = 0 by omega, show (4 * k + 1) / 4 = k by omega,
    show (4 * k + 1) % 4 = 1 by omega, show (4 * k + 2) / 4 = k by omega,
    show (4 * k + 2) % 4 = 2 by omega, show (4 * k + 3) / 4 = k by omega,
    show (4 * k + 3) % 4 = 3 by omega]
  omega

theorem w16_ofW32_even (f : Nat → Nat) (k : Nat) : w16 (ofW32 f) (2 * k) = f k % 65536 := by
  simp only [w16, ofW32, ofNat_toNat]
  rw [show 2 * (2 * k) / 4 = k by omega, show 2 * (2 * k) % 4 = 0 by omega,
    show (2 * (2 * k) + 1) / 4 = k by omega, show (2 * (2 * k) + 1) % 4 = 1 by omega]
  omega

theorem w16_ofW32_odd (f : Nat → Nat) (k : Nat) :
    w16 (ofW32 f) (2 * k + 1) = f k / 65536 % 65536 := by
  simp only [w16, ofW32, ofNat_toNat]
  rw [show 2 * (2 * k + 1) / 4 = k by omega, show 2 * (2 * k + 1) % 4 = 2 by omega,
    show (2 * (2 * k + 1) + 1) / 4 = k by omega, show (2 * (2 * k + 1) + 1) % 4 = 3 by omega]
  omega

theorem enc16_lt (x : Int) : enc16 x < 65536 := by unfold enc16; omega
theorem enc32_lt (x : Int) : enc32 x < 4294967296 := by unfold enc32; omega

theorem s16_enc16 {x : Int} (h : -32768 ≤ x) (h' : x ≤ 32767) : s16 (enc16 x) = x := by
  unfold s16 enc16
  split <;> omega

theorem s32_enc32 {x : Int} (h : -2147483648 ≤ x) (h' : x ≤ 2147483647) : s32 (enc32 x) = x := by
  unfold s32 enc32
  split <;> omega

theorem s16_small {n : Nat} (h : n < 32768) : s16 n = n := if_pos h

theorem enc32_add (a b : Int) : (enc32 a + enc32 b) % 4294967296 = enc32 (a + b) := by
  unfold enc32; omega

theorem enc16_add (a b : Int) : (enc16 a + enc16 b) % 65536 = enc16 (a + b) := by
  unfold enc16; omega

theorem enc16_sub (a b : Int) : (enc16 a + 65536 - enc16 b) % 65536 = enc16 (a - b) := by
  unfold enc16; omega

theorem enc16_nat {n : Nat} (h : n < 65536) : enc16 (n : Int) = n := by unfold enc16; omega

theorem w16_lt (r : Reg) (k : Nat) : w16 r k < 65536 := by
  unfold w16
  have h1 := (r (2 * k)).toNat_lt
  have h2 := (r (2 * k + 1)).toNat_lt
  omega

theorem w32_lt (r : Reg) (k : Nat) : w32 r k < 4294967296 := by
  unfold w32
  have h1 := (r (4 * k)).toNat_lt
  have h2 := (r (4 * k + 1)).toNat_lt
  have h3 := (r (4 * k + 2)).toNat_lt
  have h4 := (r (4 * k + 3)).toNat_lt
  omega

/-! ## Shifts by whole bytes -/

theorem ofW32_0 (f : Nat → Nat) (k : Nat) : ofW32 f (4 * k) = UInt8.ofNat (f k) := by
  simp only [ofW32]
  rw [show 4 * k / 4 = k by omega, show 4 * k % 4 = 0 by omega, Nat.pow_zero, Nat.div_one]
theorem ofW32_1 (f : Nat → Nat) (k : Nat) : ofW32 f (4 * k + 1) = UInt8.ofNat (f k / 256) := by
  simp only [ofW32]
  rw [show (4 * k + 1) / 4 = k by omega, show (4 * k + 1) % 4 = 1 by omega, Nat.pow_one]
theorem ofW32_2 (f : Nat → Nat) (k : Nat) : ofW32 f (4 * k + 2) = UInt8.ofNat (f k / 65536) := by
  simp only [ofW32]
  rw [show (4 * k + 2) / 4 = k by omega, show (4 * k + 2) % 4 = 2 by omega]
theorem ofW32_3 (f : Nat → Nat) (k : Nat) :
    ofW32 f (4 * k + 3) = UInt8.ofNat (f k / 16777216) := by
  simp only [ofW32]
  rw [show (4 * k + 3) / 4 = k by omega, show (4 * k + 3) % 4 = 3 by omega]
theorem ofW16_0 (f : Nat → Nat) (k : Nat) : ofW16 f (2 * k) = UInt8.ofNat (f k) := by
  simp only [ofW16]
  rw [show 2 * k / 2 = k by omega, show 2 * k % 2 = 0 by omega, Nat.pow_zero, Nat.div_one]
theorem ofW16_1 (f : Nat → Nat) (k : Nat) : ofW16 f (2 * k + 1) = UInt8.ofNat (f k / 256) := by
  simp only [ofW16]
  rw [show (2 * k + 1) / 2 = k by omega, show (2 * k + 1) % 2 = 1 by omega, Nat.pow_one]

theorem u8_of_mod {n : Nat} {b : UInt8} (h : n % 256 = b.toNat) : UInt8.ofNat n = b := by
  apply UInt8.toNat_inj.1
  rw [ofNat_toNat, h]

/-- Right shift of 32-bit lanes by one, two, three bytes. -/
theorem srli32 (a : Reg) (k : Nat) :
    (srli_epi32 a 8 (4 * k) = a (4 * k + 1) ∧ srli_epi32 a 8 (4 * k + 1) = a (4 * k + 2) ∧
      srli_epi32 a 8 (4 * k + 2) = a (4 * k + 3) ∧ srli_epi32 a 8 (4 * k + 3) = 0) ∧
    (srli_epi32 a 16 (4 * k) = a (4 * k + 2) ∧ srli_epi32 a 16 (4 * k + 1) = a (4 * k + 3) ∧
      srli_epi32 a 16 (4 * k + 2) = 0 ∧ srli_epi32 a 16 (4 * k + 3) = 0) ∧
    (srli_epi32 a 24 (4 * k) = a (4 * k + 3) ∧ srli_epi32 a 24 (4 * k + 1) = 0 ∧
      srli_epi32 a 24 (4 * k + 2) = 0 ∧ srli_epi32 a 24 (4 * k + 3) = 0) := by
  have h1 := (a (4 * k)).toNat_lt
  have h2 := (a (4 * k + 1)).toNat_lt
  have h3 := (a (4 * k + 2)).toNat_lt
  have h4 := (a (4 * k + 3)).toNat_lt
  refine ⟨⟨?_, ?_, ?_, ?_⟩, ⟨?_, ?_, ?_, ?_⟩, ?_, ?_, ?_, ?_⟩ <;>
  simp only [srli_epi32, ofW32_0, ofW32_1, ofW32_2, ofW32_3] <;>
  apply u8_of_mod <;> simp only [w32, UInt8.toNat_zero] <;> omega

/-- Left shift of 32-bit lanes by one, two, three bytes. -/
theorem slli32 (a : Reg) (k : Nat) :
    (slli_epi32 a 8 (4 * k) = 0 ∧ slli_epi32 a 8 (4 * k + 1) = a (4 * k) ∧
      slli_epi32 a 8 (4 * k + 2) = a (4 * k + 1) ∧ slli_epi32 a 8 (4 * k + 3) = a (4 * k + 2)) ∧
    (slli_epi32 a 16 (4 * k) = 0 ∧ slli_epi32 a 16 (4 * k + 1) = 0 ∧
      slli_epi32 a 16 (4 * k + 2) = a (4 * k) ∧ slli_epi32 a 16 (4 * k + 3) = a (4 * k + 1)) ∧
    (slli_epi32 a 24 (4 * k) = 0 ∧ slli_epi32 a 24 (4 * k + 1) = 0 ∧
      slli_epi32 a 24 (4 * k + 2) = 0 ∧ slli_epi32 a 24 (4 * k + 3) = a (4 * k)) := by
  have h1 := (a (4 * k)).toNat_lt
  have h2 := (a (4 * k + 1)).toNat_lt
  have h3 := (a (4 * k + 2)).toNat_lt
  have h4 := (a (4 * k + 3)).toNat_lt
  refine ⟨⟨?_, ?_, ?_, ?_⟩, ⟨?_, ?_, ?_, ?_⟩, ?_, ?_, ?_, ?_⟩ <;>
  simp only [slli_epi32, ofW32_0, ofW32_1, ofW32_2, ofW32_3] <;>
  apply u8_of_mod <;> simp only [w32, UInt8.toNat_zero] <;> omega

/-- Shifts of 16-bit lanes by one byte. -/
theorem shift16 (a : Reg) (k : Nat) :
    (srli_epi16 a 8 (2 * k) = a (2 * k + 1) ∧ srli_epi16 a 8 (2 * k + 1) = 0) ∧
    (slli_epi16 a 8 (2 * k) = 0 ∧ slli_epi16 a 8 (2 * k + 1) = a (2 * k)) := by
  have h1 := (a (2 * k)).toNat_lt
  have h2 := (a (2 * k + 1)).toNat_lt
  refine ⟨⟨?_, ?_⟩, ?_, ?_⟩ <;>
  simp only [srli_epi16, slli_epi16, ofW16_0, ofW16_1] <;>
  apply u8_of_mod <;> simp only [w16, UInt8.toNat_zero] <;> omega

/-! ## Memory -/

theorem load_eq {s : Buf} {i n : Nat} (h : i + n ≤ s.len) :
    load s i n = pure (fun j => if j < n then s.bytes (i + j) else 0) := if_pos h

theorem store_emits {d : Dst} {i n : Nat} {r : Reg} (h : i + n ≤ d.len) :
    Emits (store d i r n) () (Row d i n r) :=
  (Emits.forK fun j hj => Emits.wr (by omega)).congr fun _ => Iff.rfl

/-- A store whose bytes are known. -/
theorem store_row {d : Dst} {i n : Nat} {r : Reg} {F : Nat → UInt8} (h : i + n ≤ d.len)
    (hr : ∀ j, j < n → r j = F j) : Emits (store d i r n) () (Row d i n F) :=
  (store_emits h).congr (Row.congr hr)

/-! ## The affine transform -/

/-- The four products and the offset, for one lane. -/
theorem affine_lane {xy zy w0 w1 w2 : Reg} {k : Nat} {x y z a0 a1 b0 b1 off : Int}
    (hx : s16 (w16 xy (2 * k)) = x) (hy : s16 (w16 xy (2 * k + 1)) = y)
    (hz : s16 (w16 zy (2 * k)) = z) (hy' : s16 (w16 zy (2 * k + 1)) = y)
    (h0 : s16 (w16 w0 (2 * k)) = a0) (h1 : s16 (w16 w0 (2 * k + 1)) = a1)
    (h2 : s16 (w16 w1 (2 * k)) = b0) (h3 : s16 (w16 w1 (2 * k + 1)) = b1)
    (h4 : w32 w2 k = enc32 off) :
    w32 (add_epi32 (add_epi32 (madd_epi16 xy w0) (madd_epi16 zy w1)) w2) k =
      enc32 (x * a0 + y * a1 + (z * b0 + y * b1) + off) := by
  simp only [add_epi32, madd_epi16, w32_ofW32, hx, hy, hz, hy', h0, h1, h2, h3, h4]
  rw [Nat.mod_eq_of_lt (enc32_lt _), Nat.mod_eq_of_lt (enc32_lt _), enc32_add, enc32_add]

theorem w32_srai {a : Reg} {k n : Nat} {v : Int} (h : w32 a k = enc32 v)
    (hv : -2147483648 ≤ v) (hv' : v ≤ 2147483647) :
    w32 (srai_epi32 a n) k = enc32 (v / 2 ^ n) := by
  simp only [srai_epi32, w32_ofW32, h, s32_enc32 hv hv']
  exact Nat.mod_eq_of_lt (enc32_lt _)

/-- Packing of 32-bit lanes in the byte range. -/
theorem pack_lane {a b : Reg} {k i : Nat} {v : Int} (hi : i < 4)
    (h : w32 a (4 * k + i) = enc32 v) (hv : 0 ≤ v) (hv' : v ≤ 255) :
    w16 (packs_epi32 a b) (8 * k + i) = v.toNat := by
  simp only [packs_epi32, w16_ofW16]
  rw [if_pos (by omega), show 4 * ((8 * k + i) / 8) + (8 * k + i) % 8 = 4 * k + i by omega, h,
    s32_enc32 (by omega) (by omega)]
  unfold satS16 enc16
  omega

theorem pack_byte {v : Int} (hv : 0 ≤ v) (hv' : v ≤ 255) :
    UInt8.ofNat (satU8 (s16 v.toNat)) = byte v := by
  rw [s16_small (by omega)]
  unfold satU8 byte
  congr 1
  omega

/-! ## Weights -/

theorem weight_lanes {hi lo : Int} (k : Nat) (h1 : -32768 ≤ hi) (h2 : hi ≤ 32767)
    (h3 : -32768 ≤ lo) (h4 : lo ≤ 32767) :
    s16 (w16 (set1_epi32 (i32x2_to_i32 hi lo)) (2 * k)) = lo ∧
    s16 (w16 (set1_epi32 (i32x2_to_i32 hi lo)) (2 * k + 1)) = hi := by
  simp only [set1_epi32, w16_ofW32_even, w16_ofW32_odd]
  unfold enc32 i32x2_to_i32 s16
  constructor <;> split <;> omega

/-- A lane of `set_epi32`. -/
theorem weight_lanes' {l : List Int} {hi lo : Int} {k : Nat}
    (hl : l.reverse.getD k 0 = i32x2_to_i32 hi lo) (h1 : -32768 ≤ hi) (h2 : hi ≤ 32767)
    (h3 : -32768 ≤ lo) (h4 : lo ≤ 32767) :
    s16 (w16 (set_epi32 l) (2 * k)) = lo ∧ s16 (w16 (set_epi32 l) (2 * k + 1)) = hi := by
  simp only [set_epi32, w16_ofW32_even, w16_ofW32_odd, hl]
  unfold enc32 i32x2_to_i32 s16
  constructor <;> split <;> omega

theorem w32_set1 (x : Int) (k : Nat) : w32 (set1_epi32 x) k = enc32 x := by
  simp only [set1_epi32, w32_ofW32]
  exact Nat.mod_eq_of_lt (enc32_lt _)

/-- The luma form of the vector kernels. -/
theorem luma_form (c : Colorimetry) {r g b : Int} (hr : 0 ≤ r ∧ r ≤ 255) (hg : 0 ≤ g ∧ g ≤ 255)
    (hb : 0 ≤ b ∧ b ≤ 255) :
    let w := Verif.FORWARD_WEIGHTS c
    let v := r * w.xr + g * (w.xg - SHORT_HALF) + (b * w.xb + g * SHORT_HALF) + w.yo;
    -2147483648 ≤ v ∧ v ≤ 2147483647 ∧ v / 2 ^ FIX16 = Spec.luma c.std r g b ∧
      0 ≤ Spec.luma c.std r g b ∧ Spec.luma c.std r g b ≤ 255 := by
  cases c <;>
  simp [Verif.FORWARD_WEIGHTS, SHORT_HALF, Y_OFFSET, Y_MIN, FIX16, FIX16_HALF, Spec.luma,
    Spec.lumaOffset, Spec.Std.fullRange, Spec.roundUp, Spec.dot, Spec.lumaCoef, Colorimetry.std] <;>
  omega

theorem cb444_form (c : Colorimetry) {r g b : Int} (hr : 0 ≤ r ∧ r ≤ 255) (hg : 0 ≤ g ∧ g ≤ 255)
    (hb : 0 ≤ b ∧ b ≤ 255) :
    let w := Verif.FORWARD_WEIGHTS c
    let v := r * w.yr + g * w.yg + (b * -(w.yr + w.yg) + g * 0) + (FIX16_C_HALF + (FIX16_HALF - 1));
    -2147483648 ≤ v ∧ v ≤ 2147483647 ∧ v / 2 ^ FIX16 = Spec.cb c.std r g b ∧
      0 ≤ Spec.cb c.std r g b ∧ Spec.cb c.std r g b ≤ 255 := by
  cases c <;>
  simp [Verif.FORWARD_WEIGHTS, FIX16_C_HALF, C_HALF, FIX16, FIX16_HALF, Spec.cb, Spec.roundDown,
    Spec.dot, Spec.cbCoef, Colorimetry.std] <;>
  omega

theorem cr444_form (c : Colorimetry) {r g b : Int} (hr : 0 ≤ r ∧ r ≤ 255) (hg : 0 ≤ g ∧ g ≤ 255)
    (hb : 0 ≤ b ∧ b ≤ 255) :
    let w := Verif.FORWARD_WEIGHTS c
    let v := r * -(w.yr + w.yg) + g * w.zg + (b * -(-(w.yr + w.yg) + w.zg) + g * 0) +
      (FIX16_C_HALF + (FIX16_HALF - 1));
    -2147483648 ≤ v ∧ v ≤ 2147483647 ∧ v / 2 ^ FIX16 = Spec.cr c.std r g b ∧
      0 ≤ Spec.cr c.std r g b ∧ Spec.cr c.std r g b ≤ 255 := by
  cases c <;>
  simp [Verif.FORWARD_WEIGHTS, FIX16_C_HALF, C_HALF, FIX16, FIX16_HALF, Spec.cr, Spec.roundDown,
    Spec.dot, Spec.crCoef, Colorimetry.std] <;>
  omega

theorem cb420_form (c : Colorimetry) {r g b : Int} (hr : 0 ≤ r ∧ r ≤ 1020) (hg : 0 ≤ g ∧ g ≤ 1020)
    (hb : 0 ≤ b ∧ b ≤ 1020) :
    let w := Verif.FORWARD_WEIGHTS c
    let v := r * w.yr + g * w.yg + (b * -(w.yr + w.yg) + g * 0) + (FIX18_C_HALF + (FIX18_HALF - 1));
    -2147483648 ≤ v ∧ v ≤ 2147483647 ∧ v / 2 ^ FIX18 = Spec.cbAvg c.std r g b ∧
      0 ≤ Spec.cbAvg c.std r g b ∧ Spec.cbAvg c.std r g b ≤ 255 := by
  cases c <;>
  simp [Verif.FORWARD_WEIGHTS, FIX18_C_HALF, FIX16, C_HALF, FIX18, FIX18_HALF, Spec.cbAvg, Spec.roundDown,
    Spec.dot, Spec.cbCoef, Colorimetry.std] <;>
  omega

theorem cr420_form (c : Colorimetry) {r g b : Int} (hr : 0 ≤ r ∧ r ≤ 1020) (hg : 0 ≤ g ∧ g ≤ 1020)
    (hb : 0 ≤ b ∧ b ≤ 1020) :
    let w := Verif.FORWARD_WEIGHTS c
    let v := r * -(w.yr + w.yg) + g * w.zg + (b * -(-(w.yr + w.yg) + w.zg) + g * 0) +
      (FIX18_C_HALF + (FIX18_HALF - 1));
    -2147483648 ≤ v ∧ v ≤ 2147483647 ∧ v / 2 ^ FIX18 = Spec.crAvg c.std r g b ∧
      0 ≤ Spec.crAvg c.std r g b ∧ Spec.crAvg c.std r g b ≤ 255 := by
  cases c <;>
  simp [Verif.FORWARD_WEIGHTS, FIX18_C_HALF, FIX16, C_HALF, FIX18, FIX18_HALF, Spec.crAvg, Spec.roundDown,
    Spec.dot, Spec.crCoef, Colorimetry.std] <;>
  omega

/-- The weights fit 16 bits. -/
theorem weights_small (c : Colorimetry) :
    let w := Verif.FORWARD_WEIGHTS c
    (-32768 ≤ w.xr ∧ w.xr ≤ 32767) ∧ (-32768 ≤ w.xg - SHORT_HALF ∧ w.xg - SHORT_HALF ≤ 32767) ∧
    (-32768 ≤ w.xb ∧ w.xb ≤ 32767) ∧ (-32768 ≤ w.yr ∧ w.yr ≤ 32767) ∧
    (-32768 ≤ w.yg ∧ w.yg ≤ 32767) ∧ (-32768 ≤ w.zg ∧ w.zg ≤ 32767) ∧
    (-32768 ≤ -(w.yr + w.yg) ∧ -(w.yr + w.yg) ≤ 32767) ∧
    (-32768 ≤ -(-(w.yr + w.yg) + w.zg) ∧ -(-(w.yr + w.yg) + w.zg) ≤ 32767) ∧
    (-32768 ≤ SHORT_HALF ∧ SHORT_HALF ≤ 32767) := by
  cases c <;> decide

end Verif.Simd
