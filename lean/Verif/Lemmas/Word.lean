import Verif.Lemmas.Rect
import Verif.Model.X86Rgb
/-! # Bytes of machine words -/

namespace Verif.X86

theorem byte64_ext {a : BitVec 64} {b : UInt8} {k : Nat}
    (h : ∀ i, i < 8 → a.getLsbD (8 * k + i) = b.toBitVec.getLsbD i) : byte64 a k = b := by
  apply UInt8.toBitVec_inj.1
  apply BitVec.eq_of_getLsbD_eq
  intro i hi
  simp [byte64, h i hi, hi]

theorem byte64_bit (a : BitVec 64) (k i : Nat) :
    (byte64 a k).toBitVec.getLsbD i = (decide (i < 8) && a.getLsbD (8 * k + i)) := by
  simp [byte64, BitVec.getLsbD_extractLsb']

theorem byte64_or (a b : BitVec 64) (k : Nat) :
    byte64 (a ||| b) k = byte64 a k ||| byte64 b k := by
  apply byte64_ext
  intro i hi
  simp only [UInt8.toBitVec_or, BitVec.getLsbD_or, byte64_bit, hi, decide_true, Bool.true_and]

theorem byte64_and (a b : BitVec 64) (k : Nat) :
    byte64 (a &&& b) k = byte64 a k &&& byte64 b k := by
  apply byte64_ext
  intro i hi
  simp only [UInt8.toBitVec_and, BitVec.getLsbD_and, byte64_bit, hi, decide_true, Bool.true_and]

theorem byte64_shr (a : BitVec 64) (n k : Nat) : byte64 (a >>> (8 * n)) k = byte64 a (k + n) := by
  apply byte64_ext
  intro i hi
  rw [byte64_bit, BitVec.getLsbD_ushiftRight, show 8 * n + (8 * k + i) = 8 * (k + n) + i by omega]
  simp [hi]

theorem byte64_shl (a : BitVec 64) (n k : Nat) (hk : k < 8) :
    byte64 (a <<< (8 * n)) k = if k < n then 0 else byte64 a (k - n) := by
  apply byte64_ext
  intro i hi
  rw [BitVec.getLsbD_shiftLeft]
  split
  · have : 8 * k + i < 8 * n := by omega
    simp [this]
  · have h1 : ¬ (8 * k + i < 8 * n) := by omega
    have h2 : 8 * k + i < 64 := by omega
    rw [byte64_bit, show 8 * k + i - 8 * n = 8 * (k - n) + i by omega]
    simp [h1, h2, hi]

theorem byte64_big (a : BitVec 64) (k : Nat) (hk : 8 ≤ k) : byte64 a k = 0 := by
  apply byte64_ext
  intro i hi
  rw [BitVec.getLsbD_of_ge _ _ (by omega)]
  simp

theorem byte64_word64 (f : Nat → UInt8) (k : Nat) (hk : k < 8) : byte64 (word64 f) k = f k := by
  apply byte64_ext
  intro i hi
  unfold word64
  simp only [BitVec.getLsbD_append]
  rcases (by omega : k = 0 ∨ k = 1 ∨ k = 2 ∨ k = 3 ∨ k = 4 ∨ k = 5 ∨ k = 6 ∨ k = 7) with
    rfl | rfl | rfl | rfl | rfl | rfl | rfl | rfl
  · rw [if_pos (by omega)]; simp
  · rw [if_neg (by omega), if_pos (by omega)]; congr 1; omega
  · rw [if_neg (by omega), if_neg (by omega), if_pos (by omega)]; congr 1; omega
  · rw [if_neg (by omega), if_neg (by omega), if_neg (by omega), if_pos (by omega)]; congr 1; omega
  · rw [if_neg (by omega), if_neg (by omega), if_neg (by omega), if_neg (by omega),
      if_pos (by omega)]; congr 1; omega
  · rw [if_neg (by omega), if_neg (by omega), if_neg (by omega), if_neg (by omega),
      if_neg (by omega), if_pos (by omega)]; congr 1; omega
  · rw [if_neg (by omega), if_neg (by omega), if_neg (by omega), if_neg (by omega),
      if_neg (by omega), if_neg (by omega), if_pos (by omega)]; congr 1; omega
  · rw [if_neg (by omega), if_neg (by omega), if_neg (by omega), if_neg (by omega),
      if_neg (by omega), if_neg (by omega), if_neg (by omega)]; congr 1; omega

theorem byte64_swap (v : BitVec 64) (k : Nat) (hk : k < 8) :
    byte64 (swap_bytes64 v) k = byte64 v (7 - k) := by
  rw [swap_bytes64, byte64_word64 _ _ hk]

theorem byte32_ext {a : BitVec 32} {b : UInt8} {k : Nat}
    (h : ∀ i, i < 8 → a.getLsbD (8 * k + i) = b.toBitVec.getLsbD i) : byte32 a k = b := by
  apply UInt8.toBitVec_inj.1
  apply BitVec.eq_of_getLsbD_eq
  intro i hi
  simp [byte32, h i hi, hi]

theorem byte32_bit (a : BitVec 32) (k i : Nat) :
    (byte32 a k).toBitVec.getLsbD i = (decide (i < 8) && a.getLsbD (8 * k + i)) := by
  simp [byte32, BitVec.getLsbD_extractLsb']

theorem byte32_or (a b : BitVec 32) (k : Nat) :
    byte32 (a ||| b) k = byte32 a k ||| byte32 b k := by
  apply byte32_ext
  intro i hi
  simp only [UInt8.toBitVec_or, BitVec.getLsbD_or, byte32_bit, hi, decide_true, Bool.true_and]

theorem byte32_shl (a : BitVec 32) (n k : Nat) (hk : k < 4) :
    byte32 (a <<< (8 * n)) k = if k < n then 0 else byte32 a (k - n) := by
  apply byte32_ext
  intro i hi
  rw [BitVec.getLsbD_shiftLeft]
  split
  · have : 8 * k + i < 8 * n := by omega
    simp [this]
  · have h1 : ¬ (8 * k + i < 8 * n) := by omega
    have h2 : 8 * k + i < 32 := by omega
    rw [byte32_bit, show 8 * k + i - 8 * n = 8 * (k - n) + i by omega]
    simp [h1, h2, hi]

theorem byte32_word32 (f : Nat → UInt8) (k : Nat) (hk : k < 4) : byte32 (word32 f) k = f k := by
  apply byte32_ext
  intro i hi
  unfold word32
  simp only [BitVec.getLsbD_append]
  rcases (by omega : k = 0 ∨ k = 1 ∨ k = 2 ∨ k = 3) with rfl | rfl | rfl | rfl
  · rw [if_pos (by omega)]; simp
  · rw [if_neg (by omega), if_pos (by omega)]; congr 1; omega
  · rw [if_neg (by omega), if_neg (by omega), if_pos (by omega)]; congr 1; omega
  · rw [if_neg (by omega), if_neg (by omega), if_neg (by omega)]; congr 1; omega

theorem byte32_swap (v : BitVec 32) (k : Nat) (hk : k < 4) :
    byte32 (swap_bytes32 v) k = byte32 v (3 - k) := by
  rw [swap_bytes32, byte32_word32 _ _ hk]

theorem byte64_lit (n k : Nat) : byte64 (BitVec.ofNat 64 n) k =
    UInt8.ofNat ((n % 18446744073709551616) >>> (8 * k) % 256) := by
  apply UInt8.toNat_inj.1
  show (BitVec.extractLsb' (8 * k) 8 _).toNat = _
  rw [BitVec.extractLsb'_toNat, BitVec.toNat_ofNat, UInt8.toNat_ofNat']
  simp only [Nat.reducePow]
  omega

theorem byte32_lit (n k : Nat) : byte32 (BitVec.ofNat 32 n) k =
    UInt8.ofNat ((n % 4294967296) >>> (8 * k) % 256) := by
  apply UInt8.toNat_inj.1
  show (BitVec.extractLsb' (8 * k) 8 _).toNat = _
  rw [BitVec.extractLsb'_toNat, BitVec.toNat_ofNat, UInt8.toNat_ofNat']
  simp only [Nat.reducePow]
  omega

theorem u8_and_ff (x : UInt8) : x &&& UInt8.ofNat 255 = x := by
  apply UInt8.toNat_inj.1
  have : x.toNat &&& 255 = x.toNat % 256 := Nat.and_two_pow_sub_one_eq_mod x.toNat 8
  rw [UInt8.toNat_and, show (UInt8.ofNat 255).toNat = 255 from rfl, this]
  have := x.toNat_lt
  omega

theorem u8_and_00 (x : UInt8) : x &&& UInt8.ofNat 0 = 0 := by
  apply UInt8.toNat_inj.1
  rw [UInt8.toNat_and]; simp

theorem u8_or_00 (x : UInt8) : x ||| UInt8.ofNat 0 = x := by
  apply UInt8.toNat_inj.1
  rw [UInt8.toNat_or]; simp

theorem u8_or_ff (x : UInt8) : x ||| UInt8.ofNat 255 = 255 := by
  have : ∀ n : Fin 256, n.val ||| 255 = 255 := by decide +kernel
  apply UInt8.toNat_inj.1
  rw [UInt8.toNat_or]
  exact this ⟨x.toNat, x.toNat_lt⟩

theorem u8_or_0 (x : UInt8) : x ||| 0 = x := u8_or_00 x
theorem u8_0_or (x : UInt8) : 0 ||| x = x := by
  apply UInt8.toNat_inj.1
  rw [UInt8.toNat_or]; simp
theorem u8_0_and (x : UInt8) : 0 &&& x = 0 := by
  apply UInt8.toNat_inj.1
  rw [UInt8.toNat_and]; simp

/-- Expansion of one RGB word into two BGRA pixels. -/
theorem rgb2_to_bgra2_bytes (f : Nat → UInt8) :
    (List.range 8).map (byte64 (rgb2_to_bgra2 (word64 f))) =
      [f 2, f 1, f 0, 255, f 5, f 4, f 3, 255] := by
  have r : List.range 8 = [0, 1, 2, 3, 4, 5, 6, 7] := rfl
  have sr16 : ∀ (v : BitVec 64) k, byte64 (v >>> 16) k = byte64 v (k + 2) :=
    fun v k => byte64_shr v 2 k
  have sl40 : ∀ (v : BitVec 64) k, k < 8 →
      byte64 (v <<< 40) k = if k < 5 then 0 else byte64 v (k - 5) := fun v k hk => byte64_shl v 5 k hk
  rw [r]
  unfold rgb2_to_bgra2
  simp (discharger := decide) only [List.map, byte64_swap, byte64_or, byte64_and, sr16, sl40,
    byte64_lit, byte64_word64, byte64_big, Nat.reduceSub, Nat.reduceAdd, Nat.reduceMul,
    Nat.reduceMod, Nat.reduceShiftRight, u8_and_ff, u8_and_00, u8_or_00, u8_or_ff, u8_or_0, u8_0_or,
    Nat.reduceLT, if_pos, if_neg]

/-- One RGB pixel to one BGRA pixel. -/
theorem rgb1_to_bgra1_bytes (f : Nat → UInt8) :
    (List.range 4).map (byte32 (rgb1_to_bgra1 (word32 f))) = [f 2, f 1, f 0, 255] := by
  have r : List.range 4 = [0, 1, 2, 3] := rfl
  have sl8 : ∀ (v : BitVec 32) k, k < 4 →
      byte32 (v <<< 8) k = if k < 1 then 0 else byte32 v (k - 1) := fun v k hk => byte32_shl v 1 k hk
  rw [r]
  unfold rgb1_to_bgra1
  simp (discharger := decide) only [List.map, byte32_swap, byte32_or, sl8,
    byte32_lit, byte32_word32, Nat.reduceSub, Nat.reduceMul,
    Nat.reduceMod, Nat.reduceShiftRight, u8_or_00, u8_or_ff, Nat.reduceLT, if_neg]

/-- The eight-pixel BGR to RGB exchange. -/
theorem bgr8_to_rgb8_bytes (f g h : Nat → UInt8) :
    let r := bgr8_to_rgb8 (word64 f) (word64 g) (word64 h)
    (List.range 8).map (byte64 r.1) = [f 2, f 1, f 0, f 5, f 4, f 3, g 0, f 7] ∧
    (List.range 8).map (byte64 r.2.1) = [f 6, g 3, g 2, g 1, g 6, g 5, g 4, h 1] ∧
    (List.range 8).map (byte64 r.2.2) = [h 0, g 7, h 4, h 3, h 2, h 7, h 6, h 5] := by
  have r : List.range 8 = [0, 1, 2, 3, 4, 5, 6, 7] := rfl
  have sr8 : ∀ (v : BitVec 64) k, byte64 (v >>> 8) k = byte64 v (k + 1) :=
    fun v k => byte64_shr v 1 k
  have sr24 : ∀ (v : BitVec 64) k, byte64 (v >>> 24) k = byte64 v (k + 3) :=
    fun v k => byte64_shr v 3 k
  have sr40 : ∀ (v : BitVec 64) k, byte64 (v >>> 40) k = byte64 v (k + 5) :=
    fun v k => byte64_shr v 5 k
  have sr56 : ∀ (v : BitVec 64) k, byte64 (v >>> 56) k = byte64 v (k + 7) :=
    fun v k => byte64_shr v 7 k
  have sl8 : ∀ (v : BitVec 64) k, k < 8 →
      byte64 (v <<< 8) k = if k < 1 then 0 else byte64 v (k - 1) := fun v k hk => byte64_shl v 1 k hk
  have sl24 : ∀ (v : BitVec 64) k, k < 8 →
      byte64 (v <<< 24) k = if k < 3 then 0 else byte64 v (k - 3) := fun v k hk => byte64_shl v 3 k hk
  have sl40 : ∀ (v : BitVec 64) k, k < 8 →
      byte64 (v <<< 40) k = if k < 5 then 0 else byte64 v (k - 5) := fun v k hk => byte64_shl v 5 k hk
  have sl56 : ∀ (v : BitVec 64) k, k < 8 →
      byte64 (v <<< 56) k = if k < 7 then 0 else byte64 v (k - 7) := fun v k hk => byte64_shl v 7 k hk
  rw [r]
  unfold bgr8_to_rgb8
  refine ⟨?_, ?_, ?_⟩ <;>
  simp (discharger := decide) only [List.map, byte64_swap, byte64_or, byte64_and, sr8, sr24, sr40,
    sr56, sl8, sl24, sl40, sl56,
    byte64_lit, byte64_word64, byte64_big, Nat.reduceSub, Nat.reduceAdd, Nat.reduceMul,
    Nat.reduceMod, Nat.reduceShiftRight, u8_and_ff, u8_and_00, u8_or_0, u8_0_or,
    Nat.reduceLT, if_pos, if_neg]

/-- Two BGRA pixels to six bytes. -/
theorem bgra_pack_bytes (f g h e : Nat → UInt8) :
    let a := bgra2_to_rgb2 (word64 f)
    let b := bgra2_to_rgb2 (word64 g)
    let c := bgra2_to_rgb2 (word64 h)
    let d := bgra2_to_rgb2 (word64 e)
    (List.range 8).map (byte64 ((b <<< 48) ||| a)) = [f 2, f 1, f 0, f 6, f 5, f 4, g 2, g 1] ∧
    (List.range 8).map (byte64 ((b >>> 16) ||| (c <<< 32))) =
      [g 0, g 6, g 5, g 4, h 2, h 1, h 0, h 6] ∧
    (List.range 8).map (byte64 ((c >>> 32) ||| (d <<< 16))) =
      [h 5, h 4, e 2, e 1, e 0, e 6, e 5, e 4] := by
  have r : List.range 8 = [0, 1, 2, 3, 4, 5, 6, 7] := rfl
  have sr16 : ∀ (v : BitVec 64) k, byte64 (v >>> 16) k = byte64 v (k + 2) :=
    fun v k => byte64_shr v 2 k
  have sr32 : ∀ (v : BitVec 64) k, byte64 (v >>> 32) k = byte64 v (k + 4) :=
    fun v k => byte64_shr v 4 k
  have sl16 : ∀ (v : BitVec 64) k, k < 8 →
      byte64 (v <<< 16) k = if k < 2 then 0 else byte64 v (k - 2) := fun v k hk => byte64_shl v 2 k hk
  have sl32 : ∀ (v : BitVec 64) k, k < 8 →
      byte64 (v <<< 32) k = if k < 4 then 0 else byte64 v (k - 4) := fun v k hk => byte64_shl v 4 k hk
  have sl40 : ∀ (v : BitVec 64) k, k < 8 →
      byte64 (v <<< 40) k = if k < 5 then 0 else byte64 v (k - 5) := fun v k hk => byte64_shl v 5 k hk
  have sl48 : ∀ (v : BitVec 64) k, k < 8 →
      byte64 (v <<< 48) k = if k < 6 then 0 else byte64 v (k - 6) := fun v k hk => byte64_shl v 6 k hk
  rw [r]
  unfold bgra2_to_rgb2
  refine ⟨?_, ?_, ?_⟩ <;>
  simp (discharger := decide) only [List.map, byte64_swap, byte64_or, byte64_and, sr16, sr32,
    sl16, sl32, sl40, sl48,
    byte64_lit, byte64_word64, byte64_big, Nat.reduceSub, Nat.reduceAdd, Nat.reduceMul,
    Nat.reduceMod, Nat.reduceShiftRight, u8_and_ff, u8_and_00, u8_or_0, u8_0_or,
    Nat.reduceLT, if_pos, if_neg]

end Verif.X86
