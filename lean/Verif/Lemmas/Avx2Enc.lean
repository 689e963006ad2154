import Verif.Model.Avx2
import Verif.Lemmas.Sse2Enc
/-! # AVX2 encoders -/

namespace Verif.Avx2

open Spec (byte val PlaneFits)
open Verif.Simd
open Verif.Sse2 (line_group depth_le)

/-- Bytes of the aligned line. -/
theorem align_bgr_byte (line : Reg) {k b : Nat} (hk : k < 8) (hb : b < 3) :
    align_bgr (permutevar8x32_epi32 line align_dqword_2x96) (4 * k + b) = line (3 * k + b) := by
  interval_cases k <;> interval_cases b <;> rfl

theorem unpack_ok (s : Sampler) {src : Buf} {ss x y : Nat}
    (h : ss * y + s.pf.depth * x + 32 ≤ src.len) :
    ∃ rg bg, unpack_ui8x3_i16x2_8x s src (ss * y + s.pf.depth * x) = pure (rg, bg) ∧
      PixAt 8 s src ss x y rg bg := by
  cases s
  · refine ⟨_, _, by rw [unpack_ui8x3_i16x2_8x, load_eq h]; rfl,
      (split_xrgb_pix 8 _).congr ?_ ?_ ?_⟩ <;> intro k hk <;>
    simp only [srcImg, Spec.rgbImage, Sampler.pf, Spec.bpp, Spec.rgbPos, PixelFormat.depth] <;>
    rw [if_pos (by omega)] <;> congr 2 <;> omega
  · refine ⟨_, _, by rw [unpack_ui8x3_i16x2_8x, load_eq h]; rfl,
      (split_bgrx_pix 8 _).congr ?_ ?_ ?_⟩ <;> intro k hk <;>
    simp only [srcImg, Spec.rgbImage, Sampler.pf, Spec.bpp, Spec.rgbPos, PixelFormat.depth] <;>
    rw [if_pos (by omega)] <;> congr 2 <;> omega
  · refine ⟨_, _, by rw [unpack_ui8x3_i16x2_8x, load_eq h]; rfl,
      (split_bgrx_pix 8 _).congr ?_ ?_ ?_⟩ <;> intro k hk
    · rw [align_bgr_byte _ hk (by omega)]
      simp only [srcImg, Spec.rgbImage, Sampler.pf, Spec.bpp, Spec.rgbPos, PixelFormat.depth]
      rw [if_pos (by omega)]; congr 2; omega
    · rw [align_bgr_byte _ hk (by omega)]
      simp only [srcImg, Spec.rgbImage, Sampler.pf, Spec.bpp, Spec.rgbPos, PixelFormat.depth]
      rw [if_pos (by omega)]; congr 2; omega
    · rw [show 4 * k = 4 * k + 0 from rfl, align_bgr_byte _ hk (by omega)]
      simp only [srcImg, Spec.rgbImage, Sampler.pf, Spec.bpp, Spec.rgbPos, PixelFormat.depth]
      rw [if_pos (by omega)]; congr 2; omega

theorem pack_lo_byte (a : Reg) {j : Nat} (hj : j < 8) :
    extract_epi64 (permutevar8x32_epi32 a pack_lo_dword_2x128) 0 j = a (16 * (j / 4) + j % 4) := by
  interval_cases j <;> rfl

theorem pack_lo_twice {a : Reg} {v : Nat → Int} (h : Lanes 8 a v) {j : Nat} (hj : j < 8) :
    pack_i32_8x_reg a j = byte (v j) := by
  refine (pack_lo_byte _ hj).trans ?_
  have e : 4 * ((16 * (j / 4) + j % 4) / 16) + (16 * (j / 4) + j % 4) % 4 = j := by omega
  have := pack_twice (i := 16 * (j / 4) + j % 4) h (by omega)
  rwa [e] at this

theorem pack_8x {d : Dst} {i : Nat} {a : Reg} {v : Nat → Int} {F : Nat → UInt8}
    (hd : i + 8 ≤ d.len) (h : Lanes 8 a v) (hF : ∀ k, k < 8 → byte (v k) = F k) :
    Emits (pack_i32_8x d i a) () (Row d i 8 F) :=
  store_row hd fun j hj => (pack_lo_twice h hj).trans (hF j hj)

theorem rgb_to_i444_8x_emits (s : Sampler) (c : Colorimetry) {src : Buf} {ss x y yo uo vo : Nat}
    {yp up vp : Dst} (hs : ss * y + s.pf.depth * x + 32 ≤ src.len)
    (hy : yo + 8 ≤ yp.len) (hu : uo + 8 ≤ up.len) (hv : vo + 8 ≤ vp.len) :
    Emits (rgb_to_i444_8x s src (ss * y + s.pf.depth * x) yp yo up uo vp vo (y_weights c)
      (u_weights c) (v_weights c)) () fun p =>
      Row yp yo 8 (fun k => Spec.lumaPlane c.std (srcImg s src ss) (x + k) y) p ∨
      Row up uo 8 (fun k => Spec.cbPlane c.std (srcImg s src ss) (x + k) y) p ∨
      Row vp vo 8 (fun k => Spec.crPlane c.std (srcImg s src ss) (x + k) y) p := by
  obtain ⟨rg, bg, e, hp⟩ := unpack_ok s hs
  unfold rgb_to_i444_8x
  rw [e, pure_bind]
  exact (pack_8x hy (luma_lanes c hp (rng_val 8 _) (rng_val 8 _) (rng_val 8 _)) fun _ _ => rfl).seq
    ((pack_8x hu (cb_lanes c hp (rng_val 8 _) (rng_val 8 _) (rng_val 8 _)) fun _ _ => rfl).seq
    (pack_8x hv (cr_lanes c hp (rng_val 8 _) (rng_val 8 _) (rng_val 8 _)) fun _ _ => rfl))

theorem uv_weights_ok (c : Colorimetry) : UvWeights 8 c (uv_weights c) := by
  obtain ⟨-, -, -, ⟨a1, a2⟩, ⟨a3, a4⟩, ⟨a5, a6⟩, ⟨a7, a8⟩, ⟨a9, a10⟩, -⟩ := weights_small c
  refine ⟨fun j hj => ?_, fun j hj => ?_, fun j hj => ?_, fun j hj => ?_,
    fun k _ => w32_set1 _ k⟩ <;>
  · obtain rfl | rfl | rfl | rfl : j = 0 ∨ j = 1 ∨ j = 2 ∨ j = 3 := by omega
    all_goals exact weight_lanes' rfl (by omega) (by omega) (by omega) (by omega)

theorem swap_byte (a : Reg) {k b : Nat} (hk : k < 8) (hb : b < 4) :
    permutevar8x32_epi32 a xcgh_odd_even_words (4 * k + b) = a (4 * (k ^^^ 1) + b) := by
  interval_cases k <;> interval_cases b <;> rfl

theorem sum_ok {s : Sampler} {src : Buf} {ss x y : Nat} {rg0 bg0 rg1 bg1 : Reg}
    (h0 : PixAt 8 s src ss x (2 * y) rg0 bg0) (h1 : PixAt 8 s src ss x (2 * y + 1) rg1 bg1) :
    Pix 8 (sum_i16x2_neighborhood_4x rg0 rg1) (sum_i16x2_neighborhood_4x bg0 bg1)
      (sumAt (srcImg s src ss).r x y) (sumAt (srcImg s src ss).g x y)
      (sumAt (srcImg s src ss).b x y) :=
  sum_at h0 h1 (fun k hk => by interval_cases k <;> decide) (fun _ hk _ hb => swap_byte _ hk hb)
    (fun _ hk _ hb => swap_byte _ hk hb) (fun _ hk _ hb => swap_byte _ hk hb)
    (fun _ hk _ hb => swap_byte _ hk hb)

theorem rgb_to_yuv_8x_emits (s : Sampler) (c : Colorimetry) {src : Buf} {ss x y y0 y1 uv : Nat}
    {yp uvp : Dst} (hx : x % 2 = 0) (hs0 : ss * (2 * y) + s.pf.depth * x + 32 ≤ src.len)
    (hs1 : ss * (2 * y + 1) + s.pf.depth * x + 32 ≤ src.len)
    (hy0 : y0 + 8 ≤ yp.len) (hy1 : y1 + 8 ≤ yp.len) (hu : uv + 8 ≤ uvp.len) :
    Emits (rgb_to_yuv_8x s src (ss * (2 * y) + s.pf.depth * x)
      (ss * (2 * y + 1) + s.pf.depth * x) yp y0 y1 uvp uv (y_weights c) (uv_weights c)) () fun p =>
      Row yp y0 8 (fun k => Spec.lumaPlane c.std (srcImg s src ss) (x + k) (2 * y)) p ∨
      Row yp y1 8 (fun k => Spec.lumaPlane c.std (srcImg s src ss) (x + k) (2 * y + 1)) p ∨
      Row uvp uv 8 (fun k => Spec.interleave (Spec.cbPlane420 c.std (srcImg s src ss))
        (Spec.crPlane420 c.std (srcImg s src ss)) (x + k) y) p := by
  obtain ⟨rg0, bg0, e0, hp0⟩ := unpack_ok s hs0
  obtain ⟨rg1, bg1, e1, hp1⟩ := unpack_ok s hs1
  unfold rgb_to_yuv_8x
  rw [e0, pure_bind, e1]
  simp only [pure_bind]
  obtain ⟨v, hv, hv'⟩ := uv_at c hx (uv_weights_ok c) (sum_ok hp0 hp1)
  exact (pack_8x hy0 (luma_lanes c hp0 (rng_val 8 _) (rng_val 8 _) (rng_val 8 _))
      fun _ _ => rfl).seq
    ((pack_8x hy1 (luma_lanes c hp1 (rng_val 8 _) (rng_val 8 _) (rng_val 8 _)) fun _ _ => rfl).seq
    (pack_8x hu hv fun k _ => hv' k))

theorem shuf_byte (a : Reg) {k b : Nat} (hk : k < 8) (hb : b < 4) :
    permutevar8x32_epi32 a (set_epi32 [7, 5, 3, 1, 6, 4, 2, 0]) (4 * k + b) = a (4 * ([0, 2, 4, 6, 1, 3, 5, 7].getD k 0) + b) := by
  interval_cases k <;> interval_cases b <;> rfl

theorem shuf_lanes {a : Reg} {v : Nat → Int} (h : Lanes 8 a v) :
    Lanes 8 (permutevar8x32_epi32 a (set_epi32 [7, 5, 3, 1, 6, 4, 2, 0])) (fun k => v ([0, 2, 4, 6, 1, 3, 5, 7].getD k 0)) := by
  intro k hk
  have h0 := shuf_byte a (b := 0) hk (by omega)
  simp only [Nat.add_zero] at h0
  have e : w32 (permutevar8x32_epi32 a (set_epi32 [7, 5, 3, 1, 6, 4, 2, 0])) k = w32 a ([0, 2, 4, 6, 1, 3, 5, 7].getD k 0) := by
    unfold w32
    rw [h0, shuf_byte a hk (by omega), shuf_byte a hk (by omega), shuf_byte a hk (by omega)]
  rw [e]
  exact h _ (by interval_cases k <;> decide)

theorem rgb_to_i420_8x_emits (s : Sampler) (c : Colorimetry) {src : Buf}
    {ss x y y0 y1 uo vo : Nat}
    {yp up vp : Dst} (hx : x % 2 = 0) (hs0 : ss * (2 * y) + s.pf.depth * x + 32 ≤ src.len)
    (hs1 : ss * (2 * y + 1) + s.pf.depth * x + 32 ≤ src.len)
    (hy0 : y0 + 8 ≤ yp.len) (hy1 : y1 + 8 ≤ yp.len) (hu : uo + 4 ≤ up.len)
    (hv : vo + 4 ≤ vp.len) :
    Emits (rgb_to_i420_8x s src (ss * (2 * y) + s.pf.depth * x)
      (ss * (2 * y + 1) + s.pf.depth * x) yp y0 y1 up uo vp vo (y_weights c) (uv_weights c)) ()
      fun p =>
      Row yp y0 8 (fun k => Spec.lumaPlane c.std (srcImg s src ss) (x + k) (2 * y)) p ∨
      Row yp y1 8 (fun k => Spec.lumaPlane c.std (srcImg s src ss) (x + k) (2 * y + 1)) p ∨
      Row up uo 4 (fun k => Spec.cbPlane420 c.std (srcImg s src ss) (x / 2 + k) y) p ∨
      Row vp vo 4 (fun k => Spec.crPlane420 c.std (srcImg s src ss) (x / 2 + k) y) p := by
  obtain ⟨rg0, bg0, e0, hp0⟩ := unpack_ok s hs0
  obtain ⟨rg1, bg1, e1, hp1⟩ := unpack_ok s hs1
  unfold rgb_to_i420_8x
  rw [e0, pure_bind, e1]
  simp only [pure_bind]
  obtain ⟨v, hl, hv'⟩ := uv_at c hx (uv_weights_ok c) (sum_ok hp0 hp1)
  have hl' := shuf_lanes hl
  refine (pack_8x hy0 (luma_lanes c hp0 (rng_val 8 _) (rng_val 8 _) (rng_val 8 _))
      fun _ _ => rfl).seq
    ((pack_8x hy1 (luma_lanes c hp1 (rng_val 8 _) (rng_val 8 _) (rng_val 8 _)) fun _ _ => rfl).seq
    ((store_row hu fun j hj => ?_).seq (store_row hv fun j hj => ?_)))
  · refine (pack_lo_twice hl' (by omega)).trans ?_
    have : [0, 2, 4, 6, 1, 3, 5, 7].getD j 0 = 2 * j := by interval_cases j <;> rfl
    simp only [this, hv']
    rw [show x + 2 * j = 2 * (x / 2 + j) by omega, X86.interleave_even]
  · refine (pack_lo_twice (j := j + 4) hl' (by omega)).trans ?_
    have : [0, 2, 4, 6, 1, 3, 5, 7].getD (j + 4) 0 = 2 * j + 1 := by interval_cases j <;> rfl
    simp only [this, hv']
    rw [show x + (2 * j + 1) = 2 * (x / 2 + j) + 1 by omega, X86.interleave_odd]

/-- Room to read the groups of a line. -/
theorem room_group {len ss d w h x y m : Nat} (hm : w = 8 * m) (hy : y < h) (hx : x < m)
    (hr : ss * (h - 1) + d * w + (32 - 8 * d) ≤ len) (hd : d ≤ 4) :
    ss * y + d * (8 * x) + 32 ≤ len := by
  have h1 : ss * y ≤ ss * (h - 1) := Nat.mul_le_mul_left _ (by omega)
  have h2 : d * (8 * x + 8) ≤ d * w := Nat.mul_le_mul_left _ (by omega)
  rw [Nat.mul_add] at h2
  omega

theorem rgb_to_i444_avx2_emits (s : Sampler) (c : Colorimetry) {w h ss ys us vs : Nat} {src : Buf}
    {yp up vp : Dst} (hw : w % 8 = 0)
    (hr : ss * (h - 1) + s.pf.depth * w + (32 - 8 * s.pf.depth) ≤ src.len)
    (hy : ∀ y, y < h → ys * y + w ≤ yp.len) (hu : ∀ y, y < h → us * y + w ≤ up.len)
    (hv : ∀ y, y < h → vs * y + w ≤ vp.len) :
    Emits (rgb_to_i444_avx2 exactIx s s.pf.depth c w h ss src ys us vs yp up vp) ()
      (X86.G444 c.std (srcImg s src ss) w h ys us vs yp up vp) := by
  obtain ⟨m, hm⟩ : ∃ m, w = 8 * m := ⟨w / 8, by omega⟩
  have hd := depth_le s
  unfold rgb_to_i444_avx2 X86.G444
  simp only [wg_eq, K.liftM_eq, K.lift_ok, pure_bind, RGB_TO_YUV_WAVES, LANE_COUNT, Nat.reduceDiv, show w / 8 = m by omega]
  have := enc444_groups (n := 8) (m := m) (h := h) (ys := ys) (us := us) (vs := vs) (yp := yp)
    (up := up) (vp := vp) (by omega) fun y hy' x hx =>
    rgb_to_i444_8x_emits s c (room_group hm hy' hx hr hd) (line_group hy hm hy' hx)
      (line_group hu hm hy' hx) (line_group hv hm hy' hx)
  simp only [← hm, ← Nat.mul_assoc] at this
  exact this

theorem rgb_to_i420_avx2_emits (s : Sampler) (c : Colorimetry) {w h ss ys us vs : Nat} {src : Buf}
    {yp up vp : Dst} (hw : w % 8 = 0) (hh : h % 2 = 0)
    (hr : ss * (h - 1) + s.pf.depth * w + (32 - 8 * s.pf.depth) ≤ src.len)
    (hy : ∀ y, y < h → ys * y + w ≤ yp.len)
    (hu : ∀ y, y < h / 2 → us * y + w / 2 ≤ up.len)
    (hv : ∀ y, y < h / 2 → vs * y + w / 2 ≤ vp.len) :
    Emits (rgb_to_i420_avx2 exactIx s s.pf.depth c w h ss src ys us vs yp up vp) ()
      (X86.G420 c.std (srcImg s src ss) w h ys us vs yp up vp) := by
  obtain ⟨m, hm⟩ : ∃ m, w = 8 * m := ⟨w / 8, by omega⟩
  have hm2 : w / 2 = 4 * m := by omega
  have hd := depth_le s
  unfold rgb_to_i420_avx2 X86.G420
  simp only [wg_eq, K.liftM_eq, K.lift_ok, pure_bind, RGB_TO_YUV_WAVES, LANE_COUNT, Nat.reduceDiv, show w / 8 = m by omega, Nat.reduceDiv]
  have := enc420_groups (n := 8) (n' := 4) (m := m) (h := h) (ys := ys) (us := us) (vs := vs)
    (yp := yp) (up := up) (vp := vp) (L := Spec.lumaPlane c.std (srcImg s src ss))
    (U := Spec.cbPlane420 c.std (srcImg s src ss)) (V := Spec.crPlane420 c.std (srcImg s src ss))
    (by omega) (by omega) hh fun y hy' x hx => by
    have := rgb_to_i420_8x_emits s c (x := 8 * x) (y := y) (by omega)
      (room_group hm (by omega) hx hr hd)
      (room_group hm (by omega) hx hr hd) (line_group hy hm (y := 2 * y) (by omega) hx)
      (line_group hy hm (y := 2 * y + 1) (by omega) hx)
      (line_group hu hm2 hy' hx) (line_group hv hm2 hy' hx)
    rw [show 8 * x / 2 = 4 * x by omega] at this
    exact this
  simp only [← hm, ← hm2, ← Nat.mul_assoc] at this
  simp only [← Nat.mul_assoc]
  exact this

theorem rgb_to_nv12_avx2_emits (s : Sampler) (c : Colorimetry) {w h ss ys uvs : Nat} {src : Buf}
    {yp uvp : Dst} (hw : w % 8 = 0) (hh : h % 2 = 0)
    (hr : ss * (h - 1) + s.pf.depth * w + (32 - 8 * s.pf.depth) ≤ src.len)
    (hy : ∀ y, y < h → ys * y + w ≤ yp.len)
    (hu : ∀ y, y < h / 2 → uvs * y + w ≤ uvp.len) :
    Emits (rgb_to_nv12_avx2 exactIx s s.pf.depth c w h ss src ys uvs yp uvp) ()
      (X86.GNv12 c.std (srcImg s src ss) w h ys uvs yp uvp) := by
  obtain ⟨m, hm⟩ : ∃ m, w = 8 * m := ⟨w / 8, by omega⟩
  have hd := depth_le s
  unfold rgb_to_nv12_avx2 X86.GNv12
  simp only [wg_eq, K.liftM_eq, K.lift_ok, pure_bind, RGB_TO_YUV_WAVES, LANE_COUNT, Nat.reduceDiv, show w / 8 = m by omega]
  have := encNv12_groups (n := 8) (m := m) (h := h) (ys := ys) (uvs := uvs)
    (yp := yp) (uvp := uvp) (by omega) hh fun y hy' x hx =>
    rgb_to_yuv_8x_emits s c (x := 8 * x) (y := y) (by omega)
      (room_group hm (by omega) hx hr hd)
      (room_group hm (by omega) hx hr hd) (line_group hy hm (y := 2 * y) (by omega) hx)
      (line_group hy hm (y := 2 * y + 1) (by omega) hx)
      (line_group hu hm hy' hx)
  simp only [← hm, ← Nat.mul_assoc] at this
  simp only [← Nat.mul_assoc]
  exact this

end Verif.Avx2
