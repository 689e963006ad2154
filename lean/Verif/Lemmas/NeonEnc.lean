import Verif.Model.Neon
import Verif.Spec.Vector
import Verif.Lemmas.Sse2Enc
import Mathlib.Tactic.Linarith
/-! # The RGB to YUV kernels of neon.rs -/

namespace Verif.Neon

open Spec (byte val PlaneFits)
open Verif.Simd (s16 enc16 s32 enc32 store_row load_eq Reg load)

theorem trunc16_id {x : Int} (h1 : -32768 ≤ x) (h2 : x ≤ 32767) : trunc16 x = x := by
  unfold trunc16 s16 enc16
  split <;> omega

theorem trunc32_id {x : Int} (h1 : -2147483648 ≤ x) (h2 : x ≤ 2147483647) : trunc32 x = x := by
  unfold trunc32 s32 enc32
  split <;> omega

theorem mul_bound {r w N : Int} (h0 : 0 ≤ r) (h1 : r ≤ N) (h2 : -32768 ≤ w) (h3 : w ≤ 32768) :
    -(N * 32768) ≤ r * w ∧ r * w ≤ N * 32768 := by
  constructor <;> nlinarith

/-- The weights are the coefficients of the specification (so no compile-time assertion of
common.rs:43-60 fails and no cast changes a value). -/
theorem weights (c : Colorimetry) :
    ((FORWARD_WEIGHTS c).y0 : Int) = (Spec.lumaCoef c.std).1 ∧
    ((FORWARD_WEIGHTS c).y1 : Int) = (Spec.lumaCoef c.std).2.1 ∧
    ((FORWARD_WEIGHTS c).y2 : Int) = (Spec.lumaCoef c.std).2.2 ∧
    ((FORWARD_WEIGHTS c).y3 : Int) = Spec.lumaOffset c.std ∧
    (FORWARD_WEIGHTS c).uv0 = (Spec.cbCoef c.std).1 ∧
    (FORWARD_WEIGHTS c).uv1 = (Spec.cbCoef c.std).2.1 ∧
    (FORWARD_WEIGHTS c).uv3 = (Spec.cbCoef c.std).2.2 ∧
    (FORWARD_WEIGHTS c).uv3 = (Spec.crCoef c.std).1 ∧
    (FORWARD_WEIGHTS c).uv2 = (Spec.crCoef c.std).2.1 ∧
    (FORWARD_WEIGHTS c).uv4 = (Spec.crCoef c.std).2.2 := by
  cases c <;> decide

theorem us_lane {r g b : U} {w0 w1 w2 k : Nat} (hk : k < 8) (hr : r k ≤ 255) (hg : g k ≤ 255)
    (hb : b k ≤ 255) (hw : w0 + w1 + w2 ≤ 65536) :
    rgb_to_us_8x (r, g, b) (get_low (r, g, b)) w0 w1 w2 k =
      (r k * w0 + g k * w1 + b k * w2 + 32768) / 65536 := by
  have h1 : r k * w0 ≤ 255 * w0 := Nat.mul_le_mul_right _ hr
  have h2 : g k * w1 ≤ 255 * w1 := Nat.mul_le_mul_right _ hg
  have h3 : b k * w2 ≤ 255 * w2 := Nat.mul_le_mul_right _ hb
  simp only [rgb_to_us_8x, get_low, vget_low_u16, vcombine_u16, vrshrn_n_u32, vmlal_n_u16,
    vmull_n_u16, vmlal_high_n_u16, vmull_high_n_u16, FIX16, Nat.reduceSub, Nat.reducePow]
  split
  · omega
  · rw [show 4 + (k - 4) = k by omega]
    omega

theorem y_lane (c : Colorimetry) {r g b : U} {k : Nat} (hk : k < 8) (hr : r k ≤ 255)
    (hg : g k ≤ 255) (hb : b k ≤ 255) :
    rgb_to_y_8x (r, g, b) (FORWARD_WEIGHTS c) k = byte (Spec.luma c.std (r k) (g k) (b k)) := by
  have hw : (FORWARD_WEIGHTS c).y0 + (FORWARD_WEIGHTS c).y1 + (FORWARD_WEIGHTS c).y2 ≤ 65536 := by
    cases c <;> decide
  simp only [rgb_to_y_8x, vqmovn_u16, vaddq_u16, vdupq_n_u16, us_lane hk hr hg hb hw]
  unfold byte Spec.luma Spec.dot Spec.roundUp
  obtain ⟨e0, e1, e2, e3, -⟩ := weights c
  rw [← e0, ← e1, ← e2, ← e3]
  have h1 : r k * (FORWARD_WEIGHTS c).y0 ≤ 255 * (FORWARD_WEIGHTS c).y0 :=
    Nat.mul_le_mul_right _ hr
  have h2 : g k * (FORWARD_WEIGHTS c).y1 ≤ 255 * (FORWARD_WEIGHTS c).y1 :=
    Nat.mul_le_mul_right _ hg
  have h3 : b k * (FORWARD_WEIGHTS c).y2 ≤ 255 * (FORWARD_WEIGHTS c).y2 :=
    Nat.mul_le_mul_right _ hb
  have hw2 : 255 * ((FORWARD_WEIGHTS c).y0 + (FORWARD_WEIGHTS c).y1 + (FORWARD_WEIGHTS c).y2) +
      32768 < (256 - (FORWARD_WEIGHTS c).y3) * 65536 ∧ (FORWARD_WEIGHTS c).y3 ≤ 16 := by
    cases c <;> decide
  congr 1
  rw [Int.mul_comm _ (r k : Int), Int.mul_comm _ (g k : Int), Int.mul_comm _ (b k : Int),
    ← Int.natCast_mul, ← Int.natCast_mul, ← Int.natCast_mul]
  omega

/-- The rounded linear form of a lane. -/
theorem s_lane {r g b : U} {w0 w1 w2 : Int} {k : Nat} (hk : k < 8) (hr : r k ≤ 255)
    (hg : g k ≤ 255) (hb : b k ≤ 255) (h0 : -32768 ≤ w0 ∧ w0 ≤ 32768)
    (h1 : -32768 ≤ w1 ∧ w1 ≤ 32768) (h2 : -32768 ≤ w2 ∧ w2 ≤ 32768) :
    rgb_to_s_8x (as_signed (r, g, b)) (as_signed (get_low (r, g, b))) w0 w1 w2 k =
      ((r k : Int) * w0 + g k * w1 + b k * w2 + 32768) / 65536 := by
  obtain ⟨a1, a2⟩ := mul_bound (r := (r k : Int)) (N := 255) (by omega) (by omega) h0.1 h0.2
  obtain ⟨b1, b2⟩ := mul_bound (r := (g k : Int)) (N := 255) (by omega) (by omega) h1.1 h1.2
  obtain ⟨c1, c2⟩ := mul_bound (r := (b k : Int)) (N := 255) (by omega) (by omega) h2.1 h2.2
  have er : s16 (r k) = r k := by unfold s16; rw [if_pos (by omega)]
  have eg : s16 (g k) = g k := by unfold s16; rw [if_pos (by omega)]
  have eb : s16 (b k) = b k := by unfold s16; rw [if_pos (by omega)]
  have key : trunc16 ((trunc32 (trunc32 (trunc32 ((r k : Int) * w0) + g k * w1) + b k * w2) +
      32768) / 65536) = ((r k : Int) * w0 + g k * w1 + b k * w2 + 32768) / 65536 := by
    rw [trunc32_id (x := (r k : Int) * w0) (by omega) (by omega),
      trunc32_id (x := (r k : Int) * w0 + g k * w1) (by omega) (by omega),
      trunc32_id (by omega) (by omega), trunc16_id (by omega) (by omega)]
  simp only [rgb_to_s_8x, as_signed, get_low, vget_low_u16, vcombine_s16, vrshrn_n_s32,
    vmlal_n_s16, vmull_n_s16, vmlal_high_n_s16, vmull_high_n_s16, vreinterpret_s16_u16, FIX16,
    Nat.reduceSub, Int.reducePow]
  split
  · rw [er, eg, eb]
    exact key
  · rw [show 4 + (k - 4) = k by omega, er, eg, eb]
    exact key

theorem bias_lane {v : S} {k : Nat} {x : Int} (e : v k = x) (h0 : -128 ≤ x) (h1 : x ≤ 32639) :
    add_bias v k = byte (Spec.clamp (128 + x)) := by
  have hb : UV_BIAS = 128 := by decide
  simp only [add_bias, vqmovn_u16, vreinterpret_u16_s16, vaddq_s16, vdupq_n_s16, hb, e]
  rw [trunc16_id (by omega) (by omega)]
  unfold byte Spec.clamp enc16
  congr 1
  omega

theorem coef_small (c : Colorimetry) :
    (-32768 ≤ (Spec.cbCoef c.std).1 ∧ (Spec.cbCoef c.std).1 ≤ 32768) ∧
    (-32768 ≤ (Spec.cbCoef c.std).2.1 ∧ (Spec.cbCoef c.std).2.1 ≤ 32768) ∧
    (-32768 ≤ (Spec.cbCoef c.std).2.2 ∧ (Spec.cbCoef c.std).2.2 ≤ 32768) ∧
    (-32768 ≤ (Spec.crCoef c.std).1 ∧ (Spec.crCoef c.std).1 ≤ 32768) ∧
    (-32768 ≤ (Spec.crCoef c.std).2.1 ∧ (Spec.crCoef c.std).2.1 ≤ 32768) ∧
    (-32768 ≤ (Spec.crCoef c.std).2.2 ∧ (Spec.crCoef c.std).2.2 ≤ 32768) := by
  cases c <;> decide

theorem cb_lane (c : Colorimetry) {r g b : U} {k : Nat} (hk : k < 8) (hr : r k ≤ 255)
    (hg : g k ≤ 255) (hb : b k ≤ 255) :
    add_bias (rgb_to_s_8x (as_signed (r, g, b)) (as_signed (get_low (r, g, b)))
      (FORWARD_WEIGHTS c).uv0 (FORWARD_WEIGHTS c).uv1 (FORWARD_WEIGHTS c).uv3) k =
      byte (Spec.cbUp c.std (r k) (g k) (b k)) := by
  obtain ⟨-, -, -, -, e0, e1, e2, -⟩ := weights c
  obtain ⟨s0, s1, s2, -⟩ := coef_small c
  rw [e0, e1, e2]
  rw [bias_lane (s_lane hk hr hg hb s0 s1 s2)]
  · unfold Spec.cbUp Spec.roundUp Spec.dot
    rw [Int.mul_comm _ (r k : Int), Int.mul_comm _ (g k : Int), Int.mul_comm _ (b k : Int)]
    rfl
  · cases c <;> simp only [Spec.cbCoef, Colorimetry.std] <;> omega
  · cases c <;> simp only [Spec.cbCoef, Colorimetry.std] <;> omega

theorem cr_lane (c : Colorimetry) {r g b : U} {k : Nat} (hk : k < 8) (hr : r k ≤ 255)
    (hg : g k ≤ 255) (hb : b k ≤ 255) :
    add_bias (rgb_to_s_8x (as_signed (r, g, b)) (as_signed (get_low (r, g, b)))
      (FORWARD_WEIGHTS c).uv3 (FORWARD_WEIGHTS c).uv2 (FORWARD_WEIGHTS c).uv4) k =
      byte (Spec.crUp c.std (r k) (g k) (b k)) := by
  obtain ⟨-, -, -, -, -, -, -, e0, e1, e2⟩ := weights c
  obtain ⟨-, -, -, s0, s1, s2⟩ := coef_small c
  rw [e0, e1, e2]
  rw [bias_lane (s_lane hk hr hg hb s0 s1 s2)]
  · unfold Spec.crUp Spec.roundUp Spec.dot
    rw [Int.mul_comm _ (r k : Int), Int.mul_comm _ (g k : Int), Int.mul_comm _ (b k : Int)]
    rfl
  · cases c <;> simp only [Spec.crCoef, Colorimetry.std] <;> omega
  · cases c <;> simp only [Spec.crCoef, Colorimetry.std] <;> omega

/-- The three lanes of a pixel. -/
def Pix8 (r g b : U) (s : Sampler) (src : Buf) (ss x y : Nat) : Prop :=
  ∀ k, k < 8 → (r k : Int) = val ((srcImg s src ss).r (x + k) y) ∧
    (g k : Int) = val ((srcImg s src ss).g (x + k) y) ∧
    (b k : Int) = val ((srcImg s src ss).b (x + k) y)

theorem load_ok (s : Sampler) {src : Buf} {ss x y : Nat}
    (h : ss * y + s.pf.depth * x + s.pf.depth * 8 ≤ src.len) :
    ∃ r g b, load_rgb_8x s src (ss * y + s.pf.depth * x) = pure (r, g, b) ∧
      Pix8 r g b s src ss x y := by
  cases s
  · refine ⟨_, _, _, by rw [load_rgb_8x, vld4, load_eq (n := 4 * 8) h]; rfl, fun k hk => ⟨?_, ?_, ?_⟩⟩ <;>
    simp only [vmovl_u8, val, srcImg, Spec.rgbImage, Sampler.pf, Spec.bpp, Spec.rgbPos,
      PixelFormat.depth] <;>
    rw [if_pos (by omega)] <;> congr 3 <;> omega
  · refine ⟨_, _, _, by rw [load_rgb_8x, vld4, load_eq (n := 4 * 8) h]; rfl, fun k hk => ⟨?_, ?_, ?_⟩⟩ <;>
    simp only [vmovl_u8, val, srcImg, Spec.rgbImage, Sampler.pf, Spec.bpp, Spec.rgbPos,
      PixelFormat.depth] <;>
    rw [if_pos (by omega)] <;> congr 3 <;> omega
  · refine ⟨_, _, _, by rw [load_rgb_8x, vld3, load_eq (n := 3 * 8) h]; rfl, fun k hk => ⟨?_, ?_, ?_⟩⟩ <;>
    simp only [vmovl_u8, val, srcImg, Spec.rgbImage, Sampler.pf, Spec.bpp, Spec.rgbPos,
      PixelFormat.depth] <;>
    rw [if_pos (by omega)] <;> congr 3 <;> omega

theorem Pix8.le {r g b : U} {s : Sampler} {src : Buf} {ss x y : Nat}
    (h : Pix8 r g b s src ss x y) {k : Nat} (hk : k < 8) : r k ≤ 255 ∧ g k ≤ 255 ∧ b k ≤ 255 := by
  obtain ⟨h1, h2, h3⟩ := h k hk
  have a1 := val_range ((srcImg s src ss).r (x + k) y)
  have a2 := val_range ((srcImg s src ss).g (x + k) y)
  have a3 := val_range ((srcImg s src ss).b (x + k) y)
  omega

theorem y_row (c : Colorimetry) {r g b : U} {s : Sampler} {src : Buf} {ss x y yo : Nat} {yp : Dst}
    (h : Pix8 r g b s src ss x y) (hy : yo + 8 ≤ yp.len) :
    Emits (vst1_u8 yp yo (rgb_to_y_8x (r, g, b) (FORWARD_WEIGHTS c))) ()
      (Row yp yo 8 (fun k => Spec.lumaPlane c.std (srcImg s src ss) (x + k) y)) := by
  refine store_row hy fun k hk => ?_
  obtain ⟨l1, l2, l3⟩ := h.le hk
  rw [y_lane c hk l1 l2 l3]
  obtain ⟨h1, h2, h3⟩ := h k hk
  rw [h1, h2, h3]
  rfl

theorem rgb_to_i444_8x_emits (s : Sampler) (c : Colorimetry) {src : Buf} {ss x y yo uo vo : Nat}
    {yp up vp : Dst} (hs : ss * y + s.pf.depth * x + s.pf.depth * 8 ≤ src.len)
    (hy : yo + 8 ≤ yp.len) (hu : uo + 8 ≤ up.len) (hv : vo + 8 ≤ vp.len) :
    Emits (rgb_to_i444_8x s src (ss * y + s.pf.depth * x) yp yo up uo vp vo (FORWARD_WEIGHTS c)) ()
      fun p =>
      Row yp yo 8 (fun k => Spec.lumaPlane c.std (srcImg s src ss) (x + k) y) p ∨
      Row up uo 8 (fun k => Spec.cbPlaneUp c.std (srcImg s src ss) (x + k) y) p ∨
      Row vp vo 8 (fun k => Spec.crPlaneUp c.std (srcImg s src ss) (x + k) y) p := by
  obtain ⟨r, g, b, e, hp⟩ := load_ok s hs
  unfold rgb_to_i444_8x
  rw [e, pure_bind]
  refine (y_row c hp hy).seq ((store_row hu fun k hk => ?_).seq (store_row hv fun k hk => ?_))
  · obtain ⟨l1, l2, l3⟩ := hp.le hk
    obtain ⟨h1, h2, h3⟩ := hp k hk
    refine (cb_lane c hk l1 l2 l3).trans ?_
    rw [h1, h2, h3]
    rfl
  · obtain ⟨l1, l2, l3⟩ := hp.le hk
    obtain ⟨h1, h2, h3⟩ := hp k hk
    refine (cr_lane c hk l1 l2 l3).trans ?_
    rw [h1, h2, h3]
    rfl

/-! ## Subsampled chroma -/

theorem avg_lane {a b : U} {k : Nat} (hk : k < 4)
    (h0 : a (2 * k) ≤ 255) (h1 : a (2 * k + 1) ≤ 255) (h2 : b (2 * k) ≤ 255)
    (h3 : b (2 * k + 1) ≤ 255) :
    vpaddq_u16 (vaddq_u16 a b) (vaddq_u16 a b) (4 + k) =
      a (2 * k) + b (2 * k) + (a (2 * k + 1) + b (2 * k + 1)) := by
  simp only [vpaddq_u16, vaddq_u16, show ¬ 4 + k < 4 by omega, if_false,
    show 4 + k - 4 = k by omega]
  omega

theorem uv_lane {r g b : U} {w0 w1 w2 : Int} {k : Nat} (hr : r (4 + k) ≤ 1020)
    (hg : g (4 + k) ≤ 1020) (hb : b (4 + k) ≤ 1020) (h0 : -32768 ≤ w0 ∧ w0 ≤ 32768)
    (h1 : -32768 ≤ w1 ∧ w1 ≤ 32768) (h2 : -32768 ≤ w2 ∧ w2 ≤ 32768) :
    vrshrn_n_s32 FIX16 (vshrq_n_s32 (FIX18 - FIX16) (vmlal_high_n_s16 (vmlal_high_n_s16
      (vmull_high_n_s16 (vreinterpret_s16_u16 r) w0) (vreinterpret_s16_u16 g) w1)
      (vreinterpret_s16_u16 b) w2)) k =
      ((r (4 + k) : Int) * w0 + g (4 + k) * w1 + b (4 + k) * w2 + 131072) / 262144 := by
  obtain ⟨a1, a2⟩ := mul_bound (r := (r (4 + k) : Int)) (N := 1020) (by omega) (by omega) h0.1 h0.2
  obtain ⟨b1, b2⟩ := mul_bound (r := (g (4 + k) : Int)) (N := 1020) (by omega) (by omega) h1.1 h1.2
  obtain ⟨c1, c2⟩ := mul_bound (r := (b (4 + k) : Int)) (N := 1020) (by omega) (by omega) h2.1 h2.2
  have er : s16 (r (4 + k)) = r (4 + k) := by unfold s16; rw [if_pos (by omega)]
  have eg : s16 (g (4 + k)) = g (4 + k) := by unfold s16; rw [if_pos (by omega)]
  have eb : s16 (b (4 + k)) = b (4 + k) := by unfold s16; rw [if_pos (by omega)]
  simp only [vrshrn_n_s32, vshrq_n_s32, vmlal_high_n_s16, vmull_high_n_s16, vreinterpret_s16_u16,
    FIX16, FIX18, Nat.reduceSub, Int.reducePow, er, eg, eb]
  rw [trunc32_id (x := (r (4 + k) : Int) * w0) (by omega) (by omega),
    trunc32_id (x := (r (4 + k) : Int) * w0 + g (4 + k) * w1) (by omega) (by omega),
    trunc32_id (by omega) (by omega), trunc16_id (by omega) (by omega)]
  omega

theorem uv_ok (c : Colorimetry) {s : Sampler} {src : Buf} {ss x y : Nat} {r0 g0 b0 r1 g1 b1 : U}
    (h0 : Pix8 r0 g0 b0 s src ss x (2 * y)) (h1 : Pix8 r1 g1 b1 s src ss x (2 * y + 1))
    (hx : x % 2 = 0) {k : Nat} (hk : k < 4) :
    ∃ u v, (rgb_to_uv_8x (rgb_to_avg_8x (r0, g0, b0) (r1, g1, b1)) (FORWARD_WEIGHTS c)).1 k = u ∧
      (rgb_to_uv_8x (rgb_to_avg_8x (r0, g0, b0) (r1, g1, b1)) (FORWARD_WEIGHTS c)).2 k = v ∧
      -128 ≤ u ∧ u ≤ 32639 ∧ -128 ≤ v ∧ v ≤ 32639 ∧
      byte (Spec.clamp (128 + u)) = Spec.cbPlane420Up c.std (srcImg s src ss) (x / 2 + k) y ∧
      byte (Spec.clamp (128 + v)) = Spec.crPlane420Up c.std (srcImg s src ss) (x / 2 + k) y := by
  obtain ⟨p1, p2, p3⟩ := h0.le (k := 2 * k) (by omega)
  obtain ⟨p4, p5, p6⟩ := h0.le (k := 2 * k + 1) (by omega)
  obtain ⟨q1, q2, q3⟩ := h1.le (k := 2 * k) (by omega)
  obtain ⟨q4, q5, q6⟩ := h1.le (k := 2 * k + 1) (by omega)
  have er : (rgb_to_avg_8x (r0, g0, b0) (r1, g1, b1)).1 (4 + k) = _ :=
    avg_lane (a := r0) (b := r1) hk p1 p4 q1 q4
  have eg : (rgb_to_avg_8x (r0, g0, b0) (r1, g1, b1)).2.1 (4 + k) = _ :=
    avg_lane (a := g0) (b := g1) hk p2 p5 q2 q5
  have eb : (rgb_to_avg_8x (r0, g0, b0) (r1, g1, b1)).2.2 (4 + k) = _ :=
    avg_lane (a := b0) (b := b1) hk p3 p6 q3 q6
  obtain ⟨-, -, -, -, e0, e1, e2, f0, f1, f2⟩ := weights c
  obtain ⟨s0, s1, s2, t0, t1, t2⟩ := coef_small c
  obtain ⟨i1, i2, i3⟩ := h0 (2 * k) (by omega)
  obtain ⟨i4, i5, i6⟩ := h0 (2 * k + 1) (by omega)
  obtain ⟨j1, j2, j3⟩ := h1 (2 * k) (by omega)
  obtain ⟨j4, j5, j6⟩ := h1 (2 * k + 1) (by omega)
  have x0 : x + 2 * k = 2 * (x / 2 + k) := by omega
  have x1 : x + (2 * k + 1) = 2 * (x / 2 + k) + 1 := by omega
  have sr : ((r0 (2 * k) + r1 (2 * k) + (r0 (2 * k + 1) + r1 (2 * k + 1)) : Nat) : Int) =
      Spec.sum4 (srcImg s src ss).r (x / 2 + k) y := by
    unfold Spec.sum4
    rw [x0] at i1 j1
    rw [x1] at i4 j4
    omega
  have sg : ((g0 (2 * k) + g1 (2 * k) + (g0 (2 * k + 1) + g1 (2 * k + 1)) : Nat) : Int) =
      Spec.sum4 (srcImg s src ss).g (x / 2 + k) y := by
    unfold Spec.sum4
    rw [x0] at i2 j2
    rw [x1] at i5 j5
    omega
  have sb : ((b0 (2 * k) + b1 (2 * k) + (b0 (2 * k + 1) + b1 (2 * k + 1)) : Nat) : Int) =
      Spec.sum4 (srcImg s src ss).b (x / 2 + k) y := by
    unfold Spec.sum4
    rw [x0] at i3 j3
    rw [x1] at i6 j6
    omega
  refine ⟨_, _, uv_lane (by rw [er]; omega) (by rw [eg]; omega) (by rw [eb]; omega)
    (e0 ▸ s0) (e1 ▸ s1) (e2 ▸ s2),
    uv_lane (by rw [er]; omega) (by rw [eg]; omega) (by rw [eb]; omega)
    (f0 ▸ t0) (f1 ▸ t1) (f2 ▸ t2), ?_⟩
  simp only [er, eg, eb, sr, sg, sb]
  have lr : 0 ≤ Spec.sum4 (srcImg s src ss).r (x / 2 + k) y ∧
      Spec.sum4 (srcImg s src ss).r (x / 2 + k) y ≤ 1020 := by rw [← sr]; omega
  have lg : 0 ≤ Spec.sum4 (srcImg s src ss).g (x / 2 + k) y ∧
      Spec.sum4 (srcImg s src ss).g (x / 2 + k) y ≤ 1020 := by rw [← sg]; omega
  have lb : 0 ≤ Spec.sum4 (srcImg s src ss).b (x / 2 + k) y ∧
      Spec.sum4 (srcImg s src ss).b (x / 2 + k) y ≤ 1020 := by rw [← sb]; omega
  unfold Spec.cbPlane420Up Spec.crPlane420Up Spec.cbAvgUp Spec.crAvgUp Spec.roundUp Spec.dot
  generalize Spec.sum4 (srcImg s src ss).r (x / 2 + k) y = R at lr ⊢
  generalize Spec.sum4 (srcImg s src ss).g (x / 2 + k) y = G at lg ⊢
  generalize Spec.sum4 (srcImg s src ss).b (x / 2 + k) y = B at lb ⊢
  rw [f1, f2, e0, e1]
  refine ⟨?_, ?_, ?_, ?_, ?_, ?_⟩
  · rw [e2]; cases c <;> simp only [Spec.cbCoef, Colorimetry.std] <;> omega
  · rw [e2]; cases c <;> simp only [Spec.cbCoef, Colorimetry.std] <;> omega
  · rw [f0]; cases c <;> simp only [Spec.crCoef, Colorimetry.std] <;> omega
  · rw [f0]; cases c <;> simp only [Spec.crCoef, Colorimetry.std] <;> omega
  · rw [e2, Int.mul_comm _ R, Int.mul_comm _ G, Int.mul_comm _ B]; rfl
  · rw [f0, Int.mul_comm _ R, Int.mul_comm _ G, Int.mul_comm _ B]; rfl

theorem y_and_avg_emits {α : Type} (s : Sampler) (c : Colorimetry) {src : Buf} {ss x y y0 y1 : Nat} {yp : Dst}
    {G : Write → Prop} {a : α} {k : S × S → K α}
    (hs0 : ss * (2 * y) + s.pf.depth * x + s.pf.depth * 8 ≤ src.len)
    (hs1 : ss * (2 * y + 1) + s.pf.depth * x + s.pf.depth * 8 ≤ src.len)
    (hy0 : y0 + 8 ≤ yp.len) (hy1 : y1 + 8 ≤ yp.len)
    (hk : ∀ r0 g0 b0 r1 g1 b1, Pix8 r0 g0 b0 s src ss x (2 * y) →
      Pix8 r1 g1 b1 s src ss x (2 * y + 1) →
      Emits (k (rgb_to_uv_8x (rgb_to_avg_8x (r0, g0, b0) (r1, g1, b1)) (FORWARD_WEIGHTS c))) a G) :
    Emits (do
      let p ← rgb_to_y_and_avg_uv_8x s src (ss * (2 * y) + s.pf.depth * x)
        (ss * (2 * y + 1) + s.pf.depth * x) yp y0 y1 (FORWARD_WEIGHTS c)
      k p) a fun p =>
      Row yp y0 8 (fun k => Spec.lumaPlane c.std (srcImg s src ss) (x + k) (2 * y)) p ∨
      Row yp y1 8 (fun k => Spec.lumaPlane c.std (srcImg s src ss) (x + k) (2 * y + 1)) p ∨ G p := by
  obtain ⟨r0, g0, b0, e0, hp0⟩ := load_ok s hs0
  obtain ⟨r1, g1, b1, e1, hp1⟩ := load_ok s hs1
  unfold rgb_to_y_and_avg_uv_8x
  rw [e0, e1]
  simp only [pure_bind, bind_assoc]
  exact (y_row c hp0 hy0).seq ((y_row c hp1 hy1).seq (hk _ _ _ _ _ _ hp0 hp1))

theorem zip_lane (a b : S) {k : Nat} (_ : k < 8) :
    vcombine_s16 (vzip1_s16 a b) (vzip2_s16 a b) k = if k % 2 = 0 then a (k / 2) else b (k / 2) := by
  simp only [vcombine_s16, vzip1_s16, vzip2_s16]
  by_cases h4 : k < 4
  · rw [if_pos h4]
  · rw [if_neg h4, show (k - 4) % 2 = k % 2 by omega, show 2 + (k - 4) / 2 = k / 2 by omega]

theorem rgb_to_nv12_8x_emits (s : Sampler) (c : Colorimetry) {src : Buf} {ss x y y0 y1 uv : Nat}
    {yp uvp : Dst} (hx : x % 2 = 0)
    (hs0 : ss * (2 * y) + s.pf.depth * x + s.pf.depth * 8 ≤ src.len)
    (hs1 : ss * (2 * y + 1) + s.pf.depth * x + s.pf.depth * 8 ≤ src.len)
    (hy0 : y0 + 8 ≤ yp.len) (hy1 : y1 + 8 ≤ yp.len) (hu : uv + 8 ≤ uvp.len) :
    Emits (rgb_to_nv12_8x s src (ss * (2 * y) + s.pf.depth * x)
      (ss * (2 * y + 1) + s.pf.depth * x) yp y0 y1 uvp uv (FORWARD_WEIGHTS c)) () fun p =>
      Row yp y0 8 (fun k => Spec.lumaPlane c.std (srcImg s src ss) (x + k) (2 * y)) p ∨
      Row yp y1 8 (fun k => Spec.lumaPlane c.std (srcImg s src ss) (x + k) (2 * y + 1)) p ∨
      Row uvp uv 8 (fun k => Spec.interleave (Spec.cbPlane420Up c.std (srcImg s src ss))
        (Spec.crPlane420Up c.std (srcImg s src ss)) (x + k) y) p := by
  refine y_and_avg_emits s c hs0 hs1 hy0 hy1 fun r0 g0 b0 r1 g1 b1 hp0 hp1 => ?_
  refine store_row hu fun k hk => ?_
  obtain ⟨u, v, eu, ev, l1, l2, l3, l4, fu, fv⟩ := uv_ok c hp0 hp1 hx (k := k / 2) (by omega)
  unfold Spec.interleave
  rw [show (x + k) % 2 = k % 2 by omega, show (x + k) / 2 = x / 2 + k / 2 by omega]
  by_cases h2 : k % 2 = 0
  · rw [if_pos h2, ← fu]
    exact bias_lane ((zip_lane _ _ hk).trans ((if_pos h2).trans eu)) l1 l2
  · rw [if_neg h2, ← fv]
    exact bias_lane ((zip_lane _ _ hk).trans ((if_neg h2).trans ev)) l3 l4

theorem rgb_to_i420_8x_emits (s : Sampler) (c : Colorimetry) {src : Buf}
    {ss x y y0 y1 uo vo : Nat} {yp up vp : Dst} (hx : x % 2 = 0)
    (hs0 : ss * (2 * y) + s.pf.depth * x + s.pf.depth * 8 ≤ src.len)
    (hs1 : ss * (2 * y + 1) + s.pf.depth * x + s.pf.depth * 8 ≤ src.len)
    (hy0 : y0 + 8 ≤ yp.len) (hy1 : y1 + 8 ≤ yp.len) (hu : uo + 4 ≤ up.len) (hv : vo + 4 ≤ vp.len) :
    Emits (rgb_to_i420_8x s src (ss * (2 * y) + s.pf.depth * x)
      (ss * (2 * y + 1) + s.pf.depth * x) yp y0 y1 up uo vp vo (FORWARD_WEIGHTS c)) () fun p =>
      Row yp y0 8 (fun k => Spec.lumaPlane c.std (srcImg s src ss) (x + k) (2 * y)) p ∨
      Row yp y1 8 (fun k => Spec.lumaPlane c.std (srcImg s src ss) (x + k) (2 * y + 1)) p ∨
      Row up uo 4 (fun k => Spec.cbPlane420Up c.std (srcImg s src ss) (x / 2 + k) y) p ∨
      Row vp vo 4 (fun k => Spec.crPlane420Up c.std (srcImg s src ss) (x / 2 + k) y) p := by
  refine y_and_avg_emits s c hs0 hs1 hy0 hy1 fun r0 g0 b0 r1 g1 b1 hp0 hp1 => ?_
  refine (store_row hu fun k hk => ?_).seq (store_row hv fun k hk => ?_)
  · obtain ⟨u, v, eu, ev, l1, l2, l3, l4, fu, fv⟩ := uv_ok c hp0 hp1 hx hk
    rw [← fu]
    refine bias_lane ?_ l1 l2
    simp only [vcombine_s16, Nat.mul_zero, Nat.zero_add, if_pos hk]
    exact eu
  · obtain ⟨u, v, eu, ev, l1, l2, l3, l4, fu, fv⟩ := uv_ok c hp0 hp1 hx hk
    rw [← fv]
    refine bias_lane ?_ l3 l4
    simp only [vcombine_s16, show ¬ 4 * 1 + k < 4 by omega, if_false,
      show 4 * 1 + k - 4 = k by omega]
    exact ev

/-! ## Whole kernels -/

theorem src_group {len ss d w h x y m : Nat} (hs : ∀ y, y < h → ss * y + d * w ≤ len)
    (hm : w = 8 * m) (hy : y < h) (hx : x < m) : ss * y + d * (8 * x) + d * 8 ≤ len := by
  have h1 := hs y hy
  have h2 : d * (8 * x + 8) ≤ d * w := Nat.mul_le_mul_left _ (by omega)
  rw [Nat.mul_add] at h2
  omega

theorem rgb_to_i444_neon_emits (s : Sampler) (c : Colorimetry) {w h ss ys us vs : Nat} {src : Buf}
    {yp up vp : Dst} (hw : w % 8 = 0) (hs : ∀ y, y < h → ss * y + s.pf.depth * w ≤ src.len)
    (hy : ∀ y, y < h → ys * y + w ≤ yp.len) (hu : ∀ y, y < h → us * y + w ≤ up.len)
    (hv : ∀ y, y < h → vs * y + w ≤ vp.len) :
    Emits (rgb_to_i444_neon exactIx s s.pf.depth c w h ss src ys us vs yp up vp) () fun p =>
      Rect yp ys w h (Spec.lumaPlane c.std (srcImg s src ss)) p ∨
      Rect up us w h (Spec.cbPlaneUp c.std (srcImg s src ss)) p ∨
      Rect vp vs w h (Spec.crPlaneUp c.std (srcImg s src ss)) p := by
  obtain ⟨m, hm⟩ : ∃ m, w = 8 * m := ⟨w / 8, by omega⟩
  unfold rgb_to_i444_neon
  simp only [wg_eq, K.liftM_eq, K.lift_ok, pure_bind, RGB_TO_YUV_WAVES, LANE_COUNT, RGB_TO_YUV_WG_SIZE, Nat.reduceDiv,
    show w / 8 = m by omega]
  have := enc444_groups (n := 8) (m := m) (h := h) (ys := ys) (us := us) (vs := vs) (yp := yp)
    (up := up) (vp := vp) (by omega) fun y hy' x hx =>
    rgb_to_i444_8x_emits s c (src_group hs hm hy' hx) (Sse2.line_group hy hm hy' hx)
      (Sse2.line_group hu hm hy' hx) (Sse2.line_group hv hm hy' hx)
  simp only [← hm, ← Nat.mul_assoc] at this
  exact this

theorem rgb_to_i420_neon_emits (s : Sampler) (c : Colorimetry) {w h ss ys us vs : Nat} {src : Buf}
    {yp up vp : Dst} (hw : w % 8 = 0) (hh : h % 2 = 0)
    (hs : ∀ y, y < h → ss * y + s.pf.depth * w ≤ src.len)
    (hy : ∀ y, y < h → ys * y + w ≤ yp.len)
    (hu : ∀ y, y < h / 2 → us * y + w / 2 ≤ up.len)
    (hv : ∀ y, y < h / 2 → vs * y + w / 2 ≤ vp.len) :
    Emits (rgb_to_i420_neon exactIx s s.pf.depth c w h ss src ys us vs yp up vp) () fun p =>
      Rect yp ys w h (Spec.lumaPlane c.std (srcImg s src ss)) p ∨
      Rect up us (w / 2) (h / 2) (Spec.cbPlane420Up c.std (srcImg s src ss)) p ∨
      Rect vp vs (w / 2) (h / 2) (Spec.crPlane420Up c.std (srcImg s src ss)) p := by
  obtain ⟨m, hm⟩ : ∃ m, w = 8 * m := ⟨w / 8, by omega⟩
  have hm2 : w / 2 = 4 * m := by omega
  unfold rgb_to_i420_neon
  simp only [wg_eq, K.liftM_eq, K.lift_ok, pure_bind, RGB_TO_YUV_WAVES, LANE_COUNT, RGB_TO_YUV_WG_SIZE, Nat.reduceDiv,
    show w / 8 = m by omega]
  have := enc420_groups (n := 8) (n' := 4) (m := m) (h := h) (ys := ys) (us := us) (vs := vs)
    (yp := yp) (up := up) (vp := vp) (L := Spec.lumaPlane c.std (srcImg s src ss))
    (U := Spec.cbPlane420Up c.std (srcImg s src ss))
    (V := Spec.crPlane420Up c.std (srcImg s src ss))
    (by omega) (by omega) hh fun y hy' x hx => by
    have := rgb_to_i420_8x_emits s c (x := 8 * x) (y := y) (by omega)
      (src_group hs hm (by omega) hx)
      (src_group hs hm (by omega) hx) (Sse2.line_group hy hm (y := 2 * y) (by omega) hx)
      (Sse2.line_group hy hm (y := 2 * y + 1) (by omega) hx)
      (Sse2.line_group hu hm2 hy' hx) (Sse2.line_group hv hm2 hy' hx)
    rw [show 8 * x / 2 = 4 * x by omega] at this
    exact this
  simp only [← hm, ← hm2, ← Nat.mul_assoc] at this
  simp only [← Nat.mul_assoc]
  exact this

theorem rgb_to_nv12_neon_emits (s : Sampler) (c : Colorimetry) {w h ss ys uvs : Nat} {src : Buf}
    {yp uvp : Dst} (hw : w % 8 = 0) (hh : h % 2 = 0)
    (hs : ∀ y, y < h → ss * y + s.pf.depth * w ≤ src.len)
    (hy : ∀ y, y < h → ys * y + w ≤ yp.len)
    (hu : ∀ y, y < h / 2 → uvs * y + w ≤ uvp.len) :
    Emits (rgb_to_nv12_neon exactIx s s.pf.depth c w h ss src ys uvs yp uvp) () fun p =>
      Rect yp ys w h (Spec.lumaPlane c.std (srcImg s src ss)) p ∨
      Rect uvp uvs w (h / 2) (Spec.interleave (Spec.cbPlane420Up c.std (srcImg s src ss))
        (Spec.crPlane420Up c.std (srcImg s src ss))) p := by
  obtain ⟨m, hm⟩ : ∃ m, w = 8 * m := ⟨w / 8, by omega⟩
  unfold rgb_to_nv12_neon
  simp only [wg_eq, K.liftM_eq, K.lift_ok, pure_bind, RGB_TO_YUV_WAVES, LANE_COUNT, RGB_TO_YUV_WG_SIZE, Nat.reduceDiv,
    show w / 8 = m by omega]
  have := encNv12_groups (n := 8) (m := m) (h := h) (ys := ys) (uvs := uvs)
    (yp := yp) (uvp := uvp) (by omega) hh fun y hy' x hx =>
    rgb_to_nv12_8x_emits s c (x := 8 * x) (y := y) (by omega)
      (src_group hs hm (by omega) hx)
      (src_group hs hm (by omega) hx) (Sse2.line_group hy hm (y := 2 * y) (by omega) hx)
      (Sse2.line_group hy hm (y := 2 * y + 1) (by omega) hx)
      (Sse2.line_group hu hm hy' hx)
  simp only [← hm, ← Nat.mul_assoc] at this
  simp only [← Nat.mul_assoc]
  exact this

end Verif.Neon
