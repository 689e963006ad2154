import Verif.Model.Sse2
import Verif.Lemmas.SimdPix
import Verif.Lemmas.Tail
/-! # SSE2 encoders -/

namespace Verif.Simd

open Spec (byte val)

/-- The `n` pixels from column `x` of line `y` of the source image. -/
def PixAt (n : Nat) (s : Sampler) (src : Buf) (ss x y : Nat) (rg bg : Reg) : Prop :=
  Pix n rg bg (fun k => val ((srcImg s src ss).r (x + k) y))
    (fun k => val ((srcImg s src ss).g (x + k) y)) (fun k => val ((srcImg s src ss).b (x + k) y))

theorem rng_val (n : Nat) (f : Nat → UInt8) : Rng n 255 (fun k => val (f k)) :=
  fun k _ => val_range (f k)

/-- The sum over the 2x2 block of a pixel. -/
def sumAt (p : Spec.Plane) (x y k : Nat) : Int :=
  val (p (x + k) (2 * y)) + val (p (x + (k ^^^ 1)) (2 * y)) + val (p (x + k) (2 * y + 1)) +
    val (p (x + (k ^^^ 1)) (2 * y + 1))

theorem sumAt_rng (n : Nat) (p : Spec.Plane) (x y : Nat) : Rng n 1020 (sumAt p x y) := by
  intro k _
  have h1 := val_range (p (x + k) (2 * y))
  have h2 := val_range (p (x + (k ^^^ 1)) (2 * y))
  have h3 := val_range (p (x + k) (2 * y + 1))
  have h4 := val_range (p (x + (k ^^^ 1)) (2 * y + 1))
  unfold sumAt
  omega

theorem xor_one (k : Nat) : k ^^^ 1 = if k % 2 = 0 then k + 1 else k - 1 := by
  apply Nat.eq_of_testBit_eq
  intro i
  rcases Nat.mod_two_eq_zero_or_one k with e | e
  · obtain ⟨j, rfl⟩ : ∃ j, k = 2 * j := ⟨k / 2, by omega⟩
    rw [if_pos e, Nat.testBit_xor]
    cases i with
    | zero => simp
    | succ i => simp [Nat.testBit_succ]; congr 1; omega
  · obtain ⟨j, rfl⟩ : ∃ j, k = 2 * j + 1 := ⟨k / 2, by omega⟩
    rw [if_neg (by omega), Nat.testBit_xor]
    cases i with
    | zero => simp
    | succ i => simp [Nat.testBit_succ]; congr 1; omega

theorem sumAt_even (p : Spec.Plane) {x y k : Nat} (hx : x % 2 = 0) (hk : k % 2 = 0) :
    sumAt p x y k = Spec.sum4 p ((x + k) / 2) y := by
  unfold sumAt Spec.sum4
  rw [xor_one, if_pos hk, show 2 * ((x + k) / 2) = x + k by omega,
    show x + (k + 1) = x + k + 1 by omega]

theorem sumAt_odd (p : Spec.Plane) {x y k : Nat} (hx : x % 2 = 0) (hk : k % 2 = 1) :
    sumAt p x y k = Spec.sum4 p ((x + k) / 2) y := by
  unfold sumAt Spec.sum4
  rw [xor_one, if_neg (by omega), show 2 * ((x + k) / 2) = x + (k - 1) by omega,
    show x + (k - 1) + 1 = x + k by omega]
  omega

theorem sumAt_eq (p : Spec.Plane) {x y k : Nat} (hx : x % 2 = 0) :
    sumAt p x y k = Spec.sum4 p ((x + k) / 2) y := by
  rcases Nat.mod_two_eq_zero_or_one k with e | e
  · exact sumAt_even p hx e
  · exact sumAt_odd p hx e

/-- The values in the chroma lanes. -/
theorem uv_at (c : Colorimetry) {n : Nat} {w : Weights} {s : Sampler} {src : Buf} {ss x y : Nat}
    {rg bg : Reg} (hx : x % 2 = 0) (hw : UvWeights n c w)
    (h : Pix n rg bg (sumAt (srcImg s src ss).r x y) (sumAt (srcImg s src ss).g x y)
      (sumAt (srcImg s src ss).b x y)) :
    ∃ v, Lanes n (srai_epi32 (affine_transform rg bg w) FIX18) v ∧
      ∀ k, byte (v k) = Spec.interleave (Spec.cbPlane420 c.std (srcImg s src ss))
        (Spec.crPlane420 c.std (srcImg s src ss)) (x + k) y := by
  refine ⟨_, uv_lanes c hw h (sumAt_rng _ _ _ _) (sumAt_rng _ _ _ _) (sumAt_rng _ _ _ _), ?_⟩
  intro k
  simp only [Spec.interleave, show (x + k) % 2 = k % 2 by omega, Spec.cbPlane420, Spec.crPlane420,
    sumAt_eq _ hx]
  split <;> rfl

/-- Sum of the pixels of two lines. -/
theorem sum_at {n : Nat} {s : Sampler} {src : Buf} {ss x y : Nat}
    {rg0 bg0 rg1 bg1 rg0' bg0' rg1' bg1' : Reg}
    (h0 : PixAt n s src ss x (2 * y) rg0 bg0) (h1 : PixAt n s src ss x (2 * y + 1) rg1 bg1)
    (hn : ∀ k, k < n → k ^^^ 1 < n)
    (s0 : ∀ k, k < n → ∀ b, b < 4 → rg0' (4 * k + b) = rg0 (4 * (k ^^^ 1) + b))
    (s1 : ∀ k, k < n → ∀ b, b < 4 → bg0' (4 * k + b) = bg0 (4 * (k ^^^ 1) + b))
    (s2 : ∀ k, k < n → ∀ b, b < 4 → rg1' (4 * k + b) = rg1 (4 * (k ^^^ 1) + b))
    (s3 : ∀ k, k < n → ∀ b, b < 4 → bg1' (4 * k + b) = bg1 (4 * (k ^^^ 1) + b)) :
    Pix n (add_epi16 (add_epi16 rg0 rg0') (add_epi16 rg1 rg1'))
      (add_epi16 (add_epi16 bg0 bg0') (add_epi16 bg1 bg1'))
      (sumAt (srcImg s src ss).r x y) (sumAt (srcImg s src ss).g x y)
      (sumAt (srcImg s src ss).b x y) := by
  have sw : ∀ {a a' : Reg} {k : Nat}, k < n →
      (∀ k, k < n → ∀ b, b < 4 → a' (4 * k + b) = a (4 * (k ^^^ 1) + b)) →
      w16 a' (2 * k) = w16 a (2 * (k ^^^ 1)) ∧ w16 a' (2 * k + 1) = w16 a (2 * (k ^^^ 1) + 1) := by
    intro a a' k hk h
    obtain ⟨e1, e2⟩ := w16_pair a' k
    obtain ⟨e3, e4⟩ := w16_pair a (k ^^^ 1)
    have h0 := h k hk 0 (by omega)
    simp only [Nat.add_zero] at h0
    rw [e1, e2, e3, e4, h0, h k hk 1 (by omega), h k hk 2 (by omega), h k hk 3 (by omega)]
    exact ⟨rfl, rfl⟩
  have swap : ∀ {rg bg rg' bg' : Reg} {y : Nat}, PixAt n s src ss x y rg bg →
      (∀ k, k < n → ∀ b, b < 4 → rg' (4 * k + b) = rg (4 * (k ^^^ 1) + b)) →
      (∀ k, k < n → ∀ b, b < 4 → bg' (4 * k + b) = bg (4 * (k ^^^ 1) + b)) →
      Pix n rg' bg' (fun k => val ((srcImg s src ss).r (x + (k ^^^ 1)) y))
        (fun k => val ((srcImg s src ss).g (x + (k ^^^ 1)) y))
        (fun k => val ((srcImg s src ss).b (x + (k ^^^ 1)) y)) := by
    intro rg bg rg' bg' y h ha hb k hk
    obtain ⟨e1, e2⟩ := sw hk ha
    obtain ⟨e3, e4⟩ := sw hk hb
    rw [e1, e2, e3, e4]
    exact h _ (hn k hk)
  exact pix_sum h0 h1 (rng_val n _) (rng_val n _) (rng_val n _) (rng_val n _) (rng_val n _)
    (rng_val n _) (swap h0 s0 s1) (swap h1 s2 s3) hn

end Verif.Simd

namespace Verif.Sse2

open Spec (byte val PlaneFits)
open Verif.Simd

/-- Bytes of the aligned line. -/
theorem align_bgr_byte (line : Reg) {k b : Nat} (hk : k < 4) (hb : b < 3) :
    align_bgr line (4 * k + b) = line (3 * k + b) := by
  interval_cases k <;> interval_cases b <;> rfl

theorem unpack_ok (s : Sampler) {src : Buf} {ss x y : Nat}
    (h : ss * y + s.pf.depth * x + 16 ≤ src.len) :
    ∃ rg bg, unpack_ui8x3_i16x2_4x s src (ss * y + s.pf.depth * x) = pure (rg, bg) ∧
      PixAt 4 s src ss x y rg bg := by
  cases s
  · refine ⟨_, _, by rw [unpack_ui8x3_i16x2_4x, load_eq h]; rfl,
      (split_xrgb_pix 4 _).congr ?_ ?_ ?_⟩ <;> intro k hk <;>
    simp only [srcImg, Spec.rgbImage, Sampler.pf, Spec.bpp, Spec.rgbPos, PixelFormat.depth] <;>
    rw [if_pos (by omega)] <;> congr 2 <;> omega
  · refine ⟨_, _, by rw [unpack_ui8x3_i16x2_4x, load_eq h]; rfl,
      (split_bgrx_pix 4 _).congr ?_ ?_ ?_⟩ <;> intro k hk <;>
    simp only [srcImg, Spec.rgbImage, Sampler.pf, Spec.bpp, Spec.rgbPos, PixelFormat.depth] <;>
    rw [if_pos (by omega)] <;> congr 2 <;> omega
  · refine ⟨_, _, by rw [unpack_ui8x3_i16x2_4x, load_eq h]; rfl,
      (split_bgrx_pix 4 _).congr ?_ ?_ ?_⟩ <;> intro k hk
    · rw [align_bgr_byte _ hk (by omega)]
      simp only [srcImg, Spec.rgbImage, Sampler.pf, Spec.bpp, Spec.rgbPos, PixelFormat.depth]
      rw [if_pos (by omega)]; congr 2; omega
    · rw [align_bgr_byte _ hk (by omega)]
      simp only [srcImg, Spec.rgbImage, Sampler.pf, Spec.bpp, Spec.rgbPos, PixelFormat.depth]
      rw [if_pos (by omega)]; congr 2; omega
    · rw [show 4 * k = 4 * k + 0 from rfl, align_bgr_byte _ hk (by omega)]
      simp only [srcImg, Spec.rgbImage, Sampler.pf, Spec.bpp, Spec.rgbPos, PixelFormat.depth]
      rw [if_pos (by omega)]; congr 2; omega

theorem pack_4x {d : Dst} {i : Nat} {a : Reg} {v : Nat → Int} {F : Nat → UInt8}
    (hd : i + 4 ≤ d.len) (h : Lanes 4 a v) (hF : ∀ k, k < 4 → byte (v k) = F k) :
    Emits (pack_i32_4x d i a) () (Row d i 4 F) := by
  refine store_row hd fun j hj => ?_
  have e : 4 * (j / 16) + j % 4 = j := by omega
  have := pack_twice (i := j) h (by omega)
  rw [e] at this
  exact this.trans (hF j hj)

theorem rgb_to_i444_4x_emits (s : Sampler) (c : Colorimetry) {src : Buf} {ss x y yo uo vo : Nat}
    {yp up vp : Dst} (hs : ss * y + s.pf.depth * x + 16 ≤ src.len)
    (hy : yo + 4 ≤ yp.len) (hu : uo + 4 ≤ up.len) (hv : vo + 4 ≤ vp.len) :
    Emits (rgb_to_i444_4x s src (ss * y + s.pf.depth * x) yp yo up uo vp vo (y_weights c)
      (u_weights c) (v_weights c)) () fun p =>
      Row yp yo 4 (fun k => Spec.lumaPlane c.std (srcImg s src ss) (x + k) y) p ∨
      Row up uo 4 (fun k => Spec.cbPlane c.std (srcImg s src ss) (x + k) y) p ∨
      Row vp vo 4 (fun k => Spec.crPlane c.std (srcImg s src ss) (x + k) y) p := by
  obtain ⟨rg, bg, e, hp⟩ := unpack_ok s hs
  unfold rgb_to_i444_4x
  rw [e, pure_bind]
  exact (pack_4x hy (luma_lanes c hp (rng_val 4 _) (rng_val 4 _) (rng_val 4 _)) fun _ _ => rfl).seq
    ((pack_4x hu (cb_lanes c hp (rng_val 4 _) (rng_val 4 _) (rng_val 4 _)) fun _ _ => rfl).seq
    (pack_4x hv (cr_lanes c hp (rng_val 4 _) (rng_val 4 _) (rng_val 4 _)) fun _ _ => rfl))

theorem uv_weights_ok (c : Colorimetry) : UvWeights 4 c (uv_weights c) := by
  obtain ⟨-, -, -, ⟨a1, a2⟩, ⟨a3, a4⟩, ⟨a5, a6⟩, ⟨a7, a8⟩, ⟨a9, a10⟩, -⟩ := weights_small c
  refine ⟨fun j hj => ?_, fun j hj => ?_, fun j hj => ?_, fun j hj => ?_,
    fun k _ => w32_set1 _ k⟩ <;>
  · obtain rfl | rfl : j = 0 ∨ j = 1 := by omega
    all_goals exact weight_lanes' rfl (by omega) (by omega) (by omega) (by omega)

theorem swap_byte (a : Reg) {k b : Nat} (hk : k < 4) (hb : b < 4) :
    shuffle_epi32 a (mm_shuffle 2 3 0 1) (4 * k + b) = a (4 * (k ^^^ 1) + b) := by
  interval_cases k <;> interval_cases b <;> rfl

theorem sum_ok {s : Sampler} {src : Buf} {ss x y : Nat} {rg0 bg0 rg1 bg1 : Reg}
    (h0 : PixAt 4 s src ss x (2 * y) rg0 bg0) (h1 : PixAt 4 s src ss x (2 * y + 1) rg1 bg1) :
    Pix 4 (sum_i16x2_neighborhood_2x rg0 rg1) (sum_i16x2_neighborhood_2x bg0 bg1)
      (sumAt (srcImg s src ss).r x y) (sumAt (srcImg s src ss).g x y)
      (sumAt (srcImg s src ss).b x y) :=
  sum_at h0 h1 (fun k hk => by interval_cases k <;> decide) (fun _ hk _ hb => swap_byte _ hk hb)
    (fun _ hk _ hb => swap_byte _ hk hb) (fun _ hk _ hb => swap_byte _ hk hb)
    (fun _ hk _ hb => swap_byte _ hk hb)

theorem rgb_to_yuv_4x_emits (s : Sampler) (c : Colorimetry) {src : Buf} {ss x y y0 y1 uv : Nat}
    {yp uvp : Dst} (hx : x % 2 = 0) (hs0 : ss * (2 * y) + s.pf.depth * x + 16 ≤ src.len)
    (hs1 : ss * (2 * y + 1) + s.pf.depth * x + 16 ≤ src.len)
    (hy0 : y0 + 4 ≤ yp.len) (hy1 : y1 + 4 ≤ yp.len) (hu : uv + 4 ≤ uvp.len) :
    Emits (rgb_to_yuv_4x s src (ss * (2 * y) + s.pf.depth * x)
      (ss * (2 * y + 1) + s.pf.depth * x) yp y0 y1 uvp uv (y_weights c) (uv_weights c)) () fun p =>
      Row yp y0 4 (fun k => Spec.lumaPlane c.std (srcImg s src ss) (x + k) (2 * y)) p ∨
      Row yp y1 4 (fun k => Spec.lumaPlane c.std (srcImg s src ss) (x + k) (2 * y + 1)) p ∨
      Row uvp uv 4 (fun k => Spec.interleave (Spec.cbPlane420 c.std (srcImg s src ss))
        (Spec.crPlane420 c.std (srcImg s src ss)) (x + k) y) p := by
  obtain ⟨rg0, bg0, e0, hp0⟩ := unpack_ok s hs0
  obtain ⟨rg1, bg1, e1, hp1⟩ := unpack_ok s hs1
  unfold rgb_to_yuv_4x
  rw [e0, pure_bind, e1]
  simp only [pure_bind]
  obtain ⟨v, hv, hv'⟩ := uv_at c hx (uv_weights_ok c) (sum_ok hp0 hp1)
  exact (pack_4x hy0 (luma_lanes c hp0 (rng_val 4 _) (rng_val 4 _) (rng_val 4 _))
      fun _ _ => rfl).seq
    ((pack_4x hy1 (luma_lanes c hp1 (rng_val 4 _) (rng_val 4 _) (rng_val 4 _)) fun _ _ => rfl).seq
    (pack_4x hu hv fun k _ => hv' k))

theorem shuf_byte (a : Reg) {k b : Nat} (hk : k < 4) (hb : b < 4) :
    shuffle_epi32 a (mm_shuffle 3 1 2 0) (4 * k + b) = a (4 * ([0, 2, 1, 3].getD k 0) + b) := by
  interval_cases k <;> interval_cases b <;> rfl

theorem shuf_lanes {a : Reg} {v : Nat → Int} (h : Lanes 4 a v) :
    Lanes 4 (shuffle_epi32 a (mm_shuffle 3 1 2 0)) (fun k => v ([0, 2, 1, 3].getD k 0)) := by
  intro k hk
  have h0 := shuf_byte a (b := 0) hk (by omega)
  simp only [Nat.add_zero] at h0
  have e : w32 (shuffle_epi32 a (mm_shuffle 3 1 2 0)) k = w32 a ([0, 2, 1, 3].getD k 0) := by
    unfold w32
    rw [h0, shuf_byte a hk (by omega), shuf_byte a hk (by omega), shuf_byte a hk (by omega)]
  rw [e]
  exact h _ (by interval_cases k <;> decide)

theorem rgb_to_i420_4x_emits (s : Sampler) (c : Colorimetry) {src : Buf}
    {ss x y y0 y1 uo vo : Nat}
    {yp up vp : Dst} (hx : x % 2 = 0) (hs0 : ss * (2 * y) + s.pf.depth * x + 16 ≤ src.len)
    (hs1 : ss * (2 * y + 1) + s.pf.depth * x + 16 ≤ src.len)
    (hy0 : y0 + 4 ≤ yp.len) (hy1 : y1 + 4 ≤ yp.len) (hu : uo + 2 ≤ up.len)
    (hv : vo + 2 ≤ vp.len) :
    Emits (rgb_to_i420_4x s src (ss * (2 * y) + s.pf.depth * x)
      (ss * (2 * y + 1) + s.pf.depth * x) yp y0 y1 up uo vp vo (y_weights c) (uv_weights c)) ()
      fun p =>
      Row yp y0 4 (fun k => Spec.lumaPlane c.std (srcImg s src ss) (x + k) (2 * y)) p ∨
      Row yp y1 4 (fun k => Spec.lumaPlane c.std (srcImg s src ss) (x + k) (2 * y + 1)) p ∨
      Row up uo 2 (fun k => Spec.cbPlane420 c.std (srcImg s src ss) (x / 2 + k) y) p ∨
      Row vp vo 2 (fun k => Spec.crPlane420 c.std (srcImg s src ss) (x / 2 + k) y) p := by
  obtain ⟨rg0, bg0, e0, hp0⟩ := unpack_ok s hs0
  obtain ⟨rg1, bg1, e1, hp1⟩ := unpack_ok s hs1
  unfold rgb_to_i420_4x
  rw [e0, pure_bind, e1]
  simp only [pure_bind]
  obtain ⟨v, hl, hv'⟩ := uv_at c hx (uv_weights_ok c) (sum_ok hp0 hp1)
  have hl' := shuf_lanes hl
  refine (pack_4x hy0 (luma_lanes c hp0 (rng_val 4 _) (rng_val 4 _) (rng_val 4 _))
      fun _ _ => rfl).seq
    ((pack_4x hy1 (luma_lanes c hp1 (rng_val 4 _) (rng_val 4 _) (rng_val 4 _)) fun _ _ => rfl).seq
    ((store_row hu fun j hj => ?_).seq (store_row hv fun j hj => ?_)))
  · rw [pack_twice hl' (by omega), show 4 * (j / 16) + j % 4 = j by omega]
    have : [0, 2, 1, 3].getD j 0 = 2 * j := by interval_cases j <;> rfl
    simp only [this, hv']
    rw [show x + 2 * j = 2 * (x / 2 + j) by omega, X86.interleave_even]
  · rw [pack_twice hl' (by omega), show 4 * ((j + 2) / 16) + (j + 2) % 4 = j + 2 by omega]
    have : [0, 2, 1, 3].getD (j + 2) 0 = 2 * j + 1 := by interval_cases j <;> rfl
    simp only [this, hv']
    rw [show x + (2 * j + 1) = 2 * (x / 2 + j) + 1 by omega, X86.interleave_odd]

/-- Room to read the groups of a line. -/
theorem room_group {len ss d w h x y m : Nat} (hm : w = 4 * m) (hy : y < h) (hx : x < m)
    (hr : ss * (h - 1) + d * w + (16 - 4 * d) ≤ len) (hd : d ≤ 4) :
    ss * y + d * (4 * x) + 16 ≤ len := by
  have h1 : ss * y ≤ ss * (h - 1) := Nat.mul_le_mul_left _ (by omega)
  have h2 : d * (4 * x + 4) ≤ d * w := Nat.mul_le_mul_left _ (by omega)
  rw [Nat.mul_add] at h2
  omega

theorem line_group {len stride w h x y m n : Nat} (hf : ∀ y, y < h → stride * y + w ≤ len)
    (hm : w = n * m) (hy : y < h) (hx : x < m) : stride * y + n * x + n ≤ len := by
  have h1 := hf y hy
  have h2 : n * (x + 1) ≤ n * m := Nat.mul_le_mul_left _ hx
  rw [Nat.mul_add, Nat.mul_one] at h2
  omega

theorem depth_le (s : Sampler) : s.pf.depth ≤ 4 := by cases s <;> decide

theorem rgb_to_i444_sse2_emits (s : Sampler) (c : Colorimetry) {w h ss ys us vs : Nat} {src : Buf}
    {yp up vp : Dst} (hw : w % 4 = 0)
    (hr : ss * (h - 1) + s.pf.depth * w + (16 - 4 * s.pf.depth) ≤ src.len)
    (hy : ∀ y, y < h → ys * y + w ≤ yp.len) (hu : ∀ y, y < h → us * y + w ≤ up.len)
    (hv : ∀ y, y < h → vs * y + w ≤ vp.len) :
    Emits (rgb_to_i444_sse2 exactIx s s.pf.depth c w h ss src ys us vs yp up vp) ()
      (X86.G444 c.std (srcImg s src ss) w h ys us vs yp up vp) := by
  obtain ⟨m, hm⟩ : ∃ m, w = 4 * m := ⟨w / 4, by omega⟩
  have hd := depth_le s
  unfold rgb_to_i444_sse2 X86.G444
  simp only [wg_eq, K.liftM_eq, K.lift_ok, pure_bind, RGB_TO_YUV_WAVES, show w / 4 = m by omega]
  have := enc444_groups (n := 4) (m := m) (h := h) (ys := ys) (us := us) (vs := vs) (yp := yp)
    (up := up) (vp := vp) (by omega) fun y hy' x hx =>
    rgb_to_i444_4x_emits s c (room_group hm hy' hx hr hd) (line_group hy hm hy' hx)
      (line_group hu hm hy' hx) (line_group hv hm hy' hx)
  simp only [← hm, ← Nat.mul_assoc] at this
  exact this

theorem rgb_to_i420_sse2_emits (s : Sampler) (c : Colorimetry) {w h ss ys us vs : Nat} {src : Buf}
    {yp up vp : Dst} (hw : w % 4 = 0) (hh : h % 2 = 0)
    (hr : ss * (h - 1) + s.pf.depth * w + (16 - 4 * s.pf.depth) ≤ src.len)
    (hy : ∀ y, y < h → ys * y + w ≤ yp.len)
    (hu : ∀ y, y < h / 2 → us * y + w / 2 ≤ up.len)
    (hv : ∀ y, y < h / 2 → vs * y + w / 2 ≤ vp.len) :
    Emits (rgb_to_i420_sse2 exactIx s s.pf.depth c w h ss src ys us vs yp up vp) ()
      (X86.G420 c.std (srcImg s src ss) w h ys us vs yp up vp) := by
  obtain ⟨m, hm⟩ : ∃ m, w = 4 * m := ⟨w / 4, by omega⟩
  have hm2 : w / 2 = 2 * m := by omega
  have hd := depth_le s
  unfold rgb_to_i420_sse2 X86.G420
  simp only [wg_eq, K.liftM_eq, K.lift_ok, pure_bind, RGB_TO_YUV_WAVES, show w / 4 = m by omega, Nat.reduceDiv]
  have := enc420_groups (n := 4) (n' := 2) (m := m) (h := h) (ys := ys) (us := us) (vs := vs)
    (yp := yp) (up := up) (vp := vp) (L := Spec.lumaPlane c.std (srcImg s src ss))
    (U := Spec.cbPlane420 c.std (srcImg s src ss)) (V := Spec.crPlane420 c.std (srcImg s src ss))
    (by omega) (by omega) hh fun y hy' x hx => by
    have := rgb_to_i420_4x_emits s c (x := 4 * x) (y := y) (by omega)
      (room_group hm (by omega) hx hr hd)
      (room_group hm (by omega) hx hr hd) (line_group hy hm (y := 2 * y) (by omega) hx)
      (line_group hy hm (y := 2 * y + 1) (by omega) hx)
      (line_group hu hm2 hy' hx) (line_group hv hm2 hy' hx)
    rw [show 4 * x / 2 = 2 * x by omega] at this
    exact this
  simp only [← hm, ← hm2, ← Nat.mul_assoc] at this
  simp only [← Nat.mul_assoc]
  exact this

theorem rgb_to_nv12_sse2_emits (s : Sampler) (c : Colorimetry) {w h ss ys uvs : Nat} {src : Buf}
    {yp uvp : Dst} (hw : w % 4 = 0) (hh : h % 2 = 0)
    (hr : ss * (h - 1) + s.pf.depth * w + (16 - 4 * s.pf.depth) ≤ src.len)
    (hy : ∀ y, y < h → ys * y + w ≤ yp.len)
    (hu : ∀ y, y < h / 2 → uvs * y + w ≤ uvp.len) :
    Emits (rgb_to_nv12_sse2 exactIx s s.pf.depth c w h ss src ys uvs yp uvp) ()
      (X86.GNv12 c.std (srcImg s src ss) w h ys uvs yp uvp) := by
  obtain ⟨m, hm⟩ : ∃ m, w = 4 * m := ⟨w / 4, by omega⟩
  have hd := depth_le s
  unfold rgb_to_nv12_sse2 X86.GNv12
  simp only [wg_eq, K.liftM_eq, K.lift_ok, pure_bind, RGB_TO_YUV_WAVES, show w / 4 = m by omega]
  have := encNv12_groups (n := 4) (m := m) (h := h) (ys := ys) (uvs := uvs)
    (yp := yp) (uvp := uvp) (by omega) hh fun y hy' x hx =>
    rgb_to_yuv_4x_emits s c (x := 4 * x) (y := y) (by omega)
      (room_group hm (by omega) hx hr hd)
      (room_group hm (by omega) hx hr hd) (line_group hy hm (y := 2 * y) (by omega) hx)
      (line_group hy hm (y := 2 * y + 1) (by omega) hx)
      (line_group hu hm hy' hx)
  simp only [← hm, ← Nat.mul_assoc] at this
  simp only [← Nat.mul_assoc]
  exact this

end Verif.Sse2
