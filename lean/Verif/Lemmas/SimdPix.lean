import Verif.Lemmas.Simd
/-! # Pixels in vector registers (shared by SSE2 and AVX2) -/

namespace Verif.Simd

open Spec (byte val)

/-- The first `n` pixels of a pair of registers as produced by the unpacking routines: 16-bit pairs
(red, green) and (blue, green). -/
def Pix (n : Nat) (rg bg : Reg) (r g b : Nat → Int) : Prop :=
  ∀ k, k < n → s16 (w16 rg (2 * k)) = r k ∧ s16 (w16 rg (2 * k + 1)) = g k ∧
    s16 (w16 bg (2 * k)) = b k ∧ s16 (w16 bg (2 * k + 1)) = g k

theorem w16_pair (r : Reg) (k : Nat) :
    w16 r (2 * k) = (r (4 * k)).toNat + 256 * (r (4 * k + 1)).toNat ∧
    w16 r (2 * k + 1) = (r (4 * k + 2)).toNat + 256 * (r (4 * k + 3)).toNat := by
  unfold w16
  rw [show 2 * (2 * k) = 4 * k by omega, show 2 * (2 * k + 1) = 4 * k + 2 by omega]
  exact ⟨rfl, rfl⟩

theorem s16_byte (b : UInt8) : s16 (b.toNat + 256 * (0 : UInt8).toNat) = val b := by
  have := b.toNat_lt
  rw [UInt8.toNat_zero, s16_small (by omega)]
  unfold Spec.val
  omega

theorem split_bgrx_pix (n : Nat) (line : Reg) :
    Pix n (split_bgrx line).1 (split_bgrx line).2 (fun k => val (line (4 * k + 2)))
      (fun k => val (line (4 * k + 1))) (fun k => val (line (4 * k))) := by
  intro k _
  obtain ⟨e1, e2⟩ := w16_pair (split_bgrx line).1 k
  obtain ⟨e3, e4⟩ := w16_pair (split_bgrx line).2 k
  rw [e1, e2, e3, e4]
  simp only [split_bgrx, or_si, srli32, slli32, X86.u8_or_0, X86.u8_0_or]
  exact ⟨s16_byte _, s16_byte _, s16_byte _, s16_byte _⟩

theorem split_xrgb_pix (n : Nat) (line : Reg) :
    Pix n (split_xrgb line).1 (split_xrgb line).2 (fun k => val (line (4 * k + 1)))
      (fun k => val (line (4 * k + 2))) (fun k => val (line (4 * k + 3))) := by
  intro k _
  obtain ⟨e1, e2⟩ := w16_pair (split_xrgb line).1 k
  obtain ⟨e3, e4⟩ := w16_pair (split_xrgb line).2 k
  rw [e1, e2, e3, e4]
  simp only [split_xrgb, or_si, srli32, slli32, X86.u8_or_0, X86.u8_0_or]
  exact ⟨s16_byte _, s16_byte _, s16_byte _, s16_byte _⟩

theorem Pix.congr {n : Nat} {rg bg : Reg} {r g b r' g' b' : Nat → Int} (h : Pix n rg bg r g b)
    (hr : ∀ k, k < n → r k = r' k) (hg : ∀ k, k < n → g k = g' k) (hb : ∀ k, k < n → b k = b' k) :
    Pix n rg bg r' g' b' := by
  intro k hk
  rw [← hr k hk, ← hg k hk, ← hb k hk]
  exact h k hk

/-- Lanes holding given values in the byte range. -/
def Lanes (n : Nat) (a : Reg) (v : Nat → Int) : Prop :=
  ∀ k, k < n → w32 a k = enc32 (v k) ∧ 0 ≤ v k ∧ v k ≤ 255

/-- Range of the components. -/
def Rng (n : Nat) (m : Int) (v : Nat → Int) : Prop := ∀ k, k < n → 0 ≤ v k ∧ v k ≤ m

theorem luma_lanes (c : Colorimetry) {n : Nat} {rg bg : Reg} {r g b : Nat → Int}
    (h : Pix n rg bg r g b) (hr : Rng n 255 r) (hg : Rng n 255 g) (hb : Rng n 255 b) :
    Lanes n (srai_epi32 (affine_transform rg bg (y_weights c)) FIX16)
      (fun k => Spec.luma c.std (r k) (g k) (b k)) := by
  intro k hk
  obtain ⟨h1, h2, h3, h4⟩ := h k hk
  obtain ⟨v1, v2, v3, v4, v5⟩ := luma_form c (hr k hk) (hg k hk) (hb k hk)
  obtain ⟨⟨a1, a2⟩, ⟨a3, a4⟩, ⟨a5, a6⟩, -, -, -, -, -, a7, a8⟩ := weights_small c
  obtain ⟨p1, p2⟩ := weight_lanes k a3 a4 a1 a2
  obtain ⟨q1, q2⟩ := weight_lanes k a7 a8 a5 a6
  refine ⟨?_, v4, v5⟩
  exact (w32_srai (affine_lane h1 h2 h3 h4 p1 p2 q1 q2 (w32_set1 _ _)) v1 v2).trans (congrArg enc32 v3)

theorem cb_lanes (c : Colorimetry) {n : Nat} {rg bg : Reg} {r g b : Nat → Int}
    (h : Pix n rg bg r g b) (hr : Rng n 255 r) (hg : Rng n 255 g) (hb : Rng n 255 b) :
    Lanes n (srai_epi32 (affine_transform rg bg (u_weights c)) FIX16)
      (fun k => Spec.cb c.std (r k) (g k) (b k)) := by
  intro k hk
  obtain ⟨h1, h2, h3, h4⟩ := h k hk
  obtain ⟨v1, v2, v3, v4, v5⟩ := cb444_form c (hr k hk) (hg k hk) (hb k hk)
  obtain ⟨-, -, -, ⟨a1, a2⟩, ⟨a3, a4⟩, -, ⟨a5, a6⟩, -⟩ := weights_small c
  obtain ⟨p1, p2⟩ := weight_lanes k a3 a4 a1 a2
  obtain ⟨q1, q2⟩ := weight_lanes (hi := 0) k (by omega) (by omega) a5 a6
  refine ⟨?_, v4, v5⟩
  exact (w32_srai (affine_lane h1 h2 h3 h4 p1 p2 q1 q2 (w32_set1 _ _)) v1 v2).trans (congrArg enc32 v3)

theorem cr_lanes (c : Colorimetry) {n : Nat} {rg bg : Reg} {r g b : Nat → Int}
    (h : Pix n rg bg r g b) (hr : Rng n 255 r) (hg : Rng n 255 g) (hb : Rng n 255 b) :
    Lanes n (srai_epi32 (affine_transform rg bg (v_weights c)) FIX16)
      (fun k => Spec.cr c.std (r k) (g k) (b k)) := by
  intro k hk
  obtain ⟨h1, h2, h3, h4⟩ := h k hk
  obtain ⟨v1, v2, v3, v4, v5⟩ := cr444_form c (hr k hk) (hg k hk) (hb k hk)
  obtain ⟨-, -, -, -, -, ⟨a1, a2⟩, ⟨a3, a4⟩, ⟨a5, a6⟩, -⟩ := weights_small c
  obtain ⟨p1, p2⟩ := weight_lanes k a1 a2 a3 a4
  obtain ⟨q1, q2⟩ := weight_lanes (hi := 0) k (by omega) (by omega) a5 a6
  refine ⟨?_, v4, v5⟩
  exact (w32_srai (affine_lane h1 h2 h3 h4 p1 p2 q1 q2 (w32_set1 _ _)) v1 v2).trans (congrArg enc32 v3)

/-- Sum of a 2x2 neighbourhood, given the lane swap of the instruction set. -/
theorem pix_sum {n : Nat} {rg0 bg0 rg1 bg1 rg0' bg0' rg1' bg1' : Reg}
    {r0 g0 b0 r1 g1 b1 : Nat → Int}
    (h0 : Pix n rg0 bg0 r0 g0 b0) (h1 : Pix n rg1 bg1 r1 g1 b1)
    (hr0 : Rng n 255 r0) (hg0 : Rng n 255 g0) (hb0 : Rng n 255 b0)
    (hr1 : Rng n 255 r1) (hg1 : Rng n 255 g1) (hb1 : Rng n 255 b1)
    (s0 : Pix n rg0' bg0' (fun k => r0 (k ^^^ 1)) (fun k => g0 (k ^^^ 1)) (fun k => b0 (k ^^^ 1)))
    (s1 : Pix n rg1' bg1' (fun k => r1 (k ^^^ 1)) (fun k => g1 (k ^^^ 1)) (fun k => b1 (k ^^^ 1)))
    (hn : ∀ k, k < n → k ^^^ 1 < n) :
    Pix n (add_epi16 (add_epi16 rg0 rg0') (add_epi16 rg1 rg1'))
      (add_epi16 (add_epi16 bg0 bg0') (add_epi16 bg1 bg1'))
      (fun k => r0 k + r0 (k ^^^ 1) + r1 k + r1 (k ^^^ 1))
      (fun k => g0 k + g0 (k ^^^ 1) + g1 k + g1 (k ^^^ 1))
      (fun k => b0 k + b0 (k ^^^ 1) + b1 k + b1 (k ^^^ 1)) := by
  have key : ∀ (a b c d : Nat) (x y z w : Int), a < 65536 → b < 65536 → c < 65536 → d < 65536 →
      s16 a = x → s16 b = y → s16 c = z → s16 d = w → (0 ≤ x ∧ x ≤ 255) → (0 ≤ y ∧ y ≤ 255) →
      (0 ≤ z ∧ z ≤ 255) → (0 ≤ w ∧ w ≤ 255) →
      s16 (((a + b) % 65536 + (c + d) % 65536) % 65536) = x + y + z + w := by
    intro a b c d x y z w ha hb hc hd h1 h2 h3 h4 _ _ _ _
    unfold s16 at *
    split at h1 <;> split at h2 <;> split at h3 <;> split at h4 <;> split <;> omega
  intro k hk
  obtain ⟨a1, a2, a3, a4⟩ := h0 k hk
  obtain ⟨b1', b2, b3, b4⟩ := h1 k hk
  obtain ⟨c1, c2, c3, c4⟩ := s0 k hk
  obtain ⟨d1, d2, d3, d4⟩ := s1 k hk
  have hk' := hn k hk
  simp only [add_epi16, w16_ofW16]
  refine ⟨key _ _ _ _ _ _ _ _ (w16_lt _ _) (w16_lt _ _) (w16_lt _ _) (w16_lt _ _) a1 c1 b1' d1
      (hr0 _ hk) (hr0 _ hk') (hr1 _ hk) (hr1 _ hk'),
    key _ _ _ _ _ _ _ _ (w16_lt _ _) (w16_lt _ _) (w16_lt _ _) (w16_lt _ _) a2 c2 b2 d2
      (hg0 _ hk) (hg0 _ hk') (hg1 _ hk) (hg1 _ hk'),
    key _ _ _ _ _ _ _ _ (w16_lt _ _) (w16_lt _ _) (w16_lt _ _) (w16_lt _ _) a3 c3 b3 d3
      (hb0 _ hk) (hb0 _ hk') (hb1 _ hk) (hb1 _ hk'),
    key _ _ _ _ _ _ _ _ (w16_lt _ _) (w16_lt _ _) (w16_lt _ _) (w16_lt _ _) a4 c4 b4 d4
      (hg0 _ hk) (hg0 _ hk') (hg1 _ hk) (hg1 _ hk')⟩

/-- The alternating chroma weights: red-difference in odd lanes, blue-difference in even lanes. -/
structure UvWeights (n : Nat) (c : Colorimetry) (w : Weights) : Prop where
  even0 : ∀ j, 2 * j < n → s16 (w16 w.w0 (2 * (2 * j))) = (Verif.FORWARD_WEIGHTS c).yr ∧
    s16 (w16 w.w0 (2 * (2 * j) + 1)) = (Verif.FORWARD_WEIGHTS c).yg
  even1 : ∀ j, 2 * j < n → s16 (w16 w.w1 (2 * (2 * j))) =
      -((Verif.FORWARD_WEIGHTS c).yr + (Verif.FORWARD_WEIGHTS c).yg) ∧
    s16 (w16 w.w1 (2 * (2 * j) + 1)) = 0
  odd0 : ∀ j, 2 * j + 1 < n → s16 (w16 w.w0 (2 * (2 * j + 1))) =
      -((Verif.FORWARD_WEIGHTS c).yr + (Verif.FORWARD_WEIGHTS c).yg) ∧
    s16 (w16 w.w0 (2 * (2 * j + 1) + 1)) = (Verif.FORWARD_WEIGHTS c).zg
  odd1 : ∀ j, 2 * j + 1 < n → s16 (w16 w.w1 (2 * (2 * j + 1))) =
      -(-((Verif.FORWARD_WEIGHTS c).yr + (Verif.FORWARD_WEIGHTS c).yg) +
        (Verif.FORWARD_WEIGHTS c).zg) ∧
    s16 (w16 w.w1 (2 * (2 * j + 1) + 1)) = 0
  off : ∀ k, k < n → w32 w.w2 k = enc32 (FIX18_C_HALF + (FIX18_HALF - 1))

theorem uv_lanes (c : Colorimetry) {n : Nat} {w : Weights} {rg bg : Reg} {r g b : Nat → Int}
    (hw : UvWeights n c w)
    (h : Pix n rg bg r g b) (hr : Rng n 1020 r) (hg : Rng n 1020 g) (hb : Rng n 1020 b) :
    Lanes n (srai_epi32 (affine_transform rg bg w) FIX18)
      (fun k => if k % 2 = 0 then Spec.cbAvg c.std (r k) (g k) (b k)
        else Spec.crAvg c.std (r k) (g k) (b k)) := by
  intro k hk
  obtain ⟨h1, h2, h3, h4⟩ := h k hk
  rcases Nat.mod_two_eq_zero_or_one k with e | e
  · simp only [e, if_true]
    obtain ⟨v1, v2, v3, v4, v5⟩ := cb420_form c (hr k hk) (hg k hk) (hb k hk)
    obtain ⟨j, rfl⟩ : ∃ j, k = 2 * j := ⟨k / 2, by omega⟩
    obtain ⟨p1, p2⟩ := hw.even0 j hk
    obtain ⟨q1, q2⟩ := hw.even1 j hk
    refine ⟨?_, v4, v5⟩
    exact (w32_srai (affine_lane h1 h2 h3 h4 p1 p2 q1 q2 (hw.off _ hk)) v1 v2).trans (congrArg enc32 v3)
  · simp only [e, Nat.one_ne_zero, if_false]
    obtain ⟨v1, v2, v3, v4, v5⟩ := cr420_form c (hr k hk) (hg k hk) (hb k hk)
    obtain ⟨j, rfl⟩ : ∃ j, k = 2 * j + 1 := ⟨k / 2, by omega⟩
    obtain ⟨p1, p2⟩ := hw.odd0 j hk
    obtain ⟨q1, q2⟩ := hw.odd1 j hk
    refine ⟨?_, v4, v5⟩
    exact (w32_srai (affine_lane h1 h2 h3 h4 p1 p2 q1 q2 (hw.off _ hk)) v1 v2).trans (congrArg enc32 v3)

/-- The saturating packs of a register with itself keep lanes in the byte range. -/
theorem pack_twice {n : Nat} {a : Reg} {v : Nat → Int} (h : Lanes n a v) {i : Nat}
    (hi : 4 * (i / 16) + i % 4 < n) :
    packus_epi16 (packs_epi32 a a) (packs_epi32 a a) i = byte (v (4 * (i / 16) + i % 4)) := by
  obtain ⟨h1, h2, h3⟩ := h _ hi
  simp only [packus_epi16]
  rw [← pack_byte h2 h3]
  congr 3
  have key : ∀ m, m < 8 → m % 4 = i % 4 →
      w16 (packs_epi32 a a) (8 * (i / 16) + m) = (v (4 * (i / 16) + i % 4)).toNat := by
    intro m hm hm4
    simp only [packs_epi32, w16_ofW16]
    have e : (if (8 * (i / 16) + m) % 8 < 4 then w32 a (4 * ((8 * (i / 16) + m) / 8) +
        (8 * (i / 16) + m) % 8)
      else w32 a (4 * ((8 * (i / 16) + m) / 8) + ((8 * (i / 16) + m) % 8 - 4))) =
        enc32 (v (4 * (i / 16) + i % 4)) := by
      rw [← h1]
      split <;> congr 1 <;> omega
    rw [e, s32_enc32 (by omega) (by omega)]
    unfold satS16 enc16
    omega
  split
  · exact key _ (by omega) (by omega)
  · exact key _ (by omega) (by omega)

end Verif.Simd
