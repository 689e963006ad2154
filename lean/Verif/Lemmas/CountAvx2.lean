import Verif.Lemmas.Count
import Verif.Lemmas.Avx2Impl
/-! # How many bytes the kernels of avx2.rs write -/

namespace Verif.Avx2

open Verif.Simd

variable (s s2 s3 : Buf)

theorem unpack_ui8_i16be_16x_puts (i : Nat) : K.Puts (unpack_ui8_i16be_16x s i) 0 := by
  unfold unpack_ui8_i16be_16x
  exact .of (.seq (.load s _ _) fun _ => .pure rfl)

theorem unpack_ui8x2_i16be_16x_puts (i : Nat) : K.Puts (unpack_ui8x2_i16be_16x s i) 0 := by
  unfold unpack_ui8x2_i16be_16x
  exact .of (.seq (.load s _ _) fun _ => .pure rfl)

theorem unpack_ui8x3_i16x2_8x_puts (p : Sampler) (i : Nat) : K.Puts (unpack_ui8x3_i16x2_8x p s i) 0 := by
  unfold unpack_ui8x3_i16x2_8x
  cases p
  all_goals exact .of (.seq (.load s _ _) fun _ => .pure rfl)

theorem pack_i16x3_16x_puts (rev : Bool) (d : Dst) (i : Nat) (r g b : Reg) :
    K.Puts (pack_i16x3_16x rev d i r g b) 64 := by
  unfold pack_i16x3_16x
  apply K.Puts.of
  count_run [K.Puts.store ..]

theorem pack_rgb_16x_puts (d : Dst) (i : Nat) (r g b : Reg) : K.Puts (pack_rgb_16x d i r g b) 64 := by
  unfold pack_rgb_16x
  apply K.Puts.of
  count_run [K.Puts.store ..]

theorem pack_i32_8x_puts (d : Dst) (i : Nat) (r : Reg) : K.Puts (pack_i32_8x d i r) 8 := .store ..

theorem rgb_to_yuv_8x_puts (p : Sampler) (a b : Nat) (yp : Dst) (y0 y1 : Nat) (uvp : Dst) (uv : Nat)
    (yw uw : Weights) : K.Puts (rgb_to_yuv_8x p s a b yp y0 y1 uvp uv yw uw) 24 := by
  unfold rgb_to_yuv_8x
  apply K.Puts.of
  count_run [unpack_ui8x3_i16x2_8x_puts s _ _, pack_i32_8x_puts ..]

theorem rgb_to_i420_8x_puts (p : Sampler) (a b : Nat) (yp : Dst) (y0 y1 : Nat) (up : Dst) (u : Nat)
    (vp : Dst) (v : Nat) (yw uw : Weights) : K.Puts (rgb_to_i420_8x p s a b yp y0 y1 up u vp v yw uw) 24 := by
  unfold rgb_to_i420_8x
  apply K.Puts.of
  count_run [unpack_ui8x3_i16x2_8x_puts s _ _, pack_i32_8x_puts .., K.Puts.store ..]

theorem rgb_to_i444_8x_puts (p : Sampler) (a : Nat) (yp : Dst) (y : Nat) (up : Dst) (u : Nat)
    (vp : Dst) (v : Nat) (yw uw vw : Weights) : K.Puts (rgb_to_i444_8x p s a yp y up u vp v yw uw vw) 24 := by
  unfold rgb_to_i444_8x
  apply K.Puts.of
  count_run [unpack_ui8x3_i16x2_8x_puts s _ _, pack_i32_8x_puts ..]

theorem rgb_to_nv12_avx2_puts (ix : Index) (p : Sampler) (depth : Nat) (c : Colorimetry)
    (w h ss ys uvs : Nat) (y uv : Dst) :
    K.AtMost (rgb_to_nv12_avx2 ix p depth c w h ss s ys uvs y uv) (h / 2 * (w / 8 * 24)) := by
  unfold rgb_to_nv12_avx2
  refine .puts (.forK (fun y => .forK (fun x => .of ?_) _) _) (Nat.le_refl _)
  count_run [rgb_to_yuv_8x_puts s ..]

theorem rgb_to_i420_avx2_puts (ix : Index) (p : Sampler) (depth : Nat) (c : Colorimetry)
    (w h ss ys us vs : Nat) (y u v : Dst) :
    K.AtMost (rgb_to_i420_avx2 ix p depth c w h ss s ys us vs y u v) (h / 2 * (w / 8 * 24)) := by
  unfold rgb_to_i420_avx2
  refine .puts (.forK (fun y => .forK (fun x => .of ?_) _) _) (Nat.le_refl _)
  count_run [rgb_to_i420_8x_puts s ..]

theorem rgb_to_i444_avx2_puts (ix : Index) (p : Sampler) (depth : Nat) (c : Colorimetry)
    (w h ss ys us vs : Nat) (y u v : Dst) :
    K.AtMost (rgb_to_i444_avx2 ix p depth c w h ss s ys us vs y u v) (h * (w / 8 * 24)) := by
  unfold rgb_to_i444_avx2
  refine .puts (.forK (fun y => .forK (fun x => .of ?_) _) _) (Nat.le_refl _)
  count_run [rgb_to_i444_8x_puts s ..]

theorem block_32x2_puts (k : Back) (put : Nat → Reg → Reg → Reg → K Unit)
    (hp : ∀ i r g b, K.Puts (put i r g b) 64) (cb cr : Reg) (y0 y1 d00 d10 d01 d11 : R Nat) :
    K.Puts (block_32x2 k put cb cr s y0 y1 d00 d10 d01 d11) 256 := by
  unfold block_32x2
  apply K.Puts.of
  count_run [K.Puts.load s _ _, hp ..]

theorem nv12_to_bgra_avx2_puts (ix : Index) (c : Colorimetry) (rev : Bool) (w h ys uvs ds : Nat)
    (d : Dst) : K.AtMost (nv12_to_bgra_avx2 ix c rev w h ys uvs s s2 ds d) (h / 2 * (w / 32 * 256)) := by
  unfold nv12_to_bgra_avx2
  refine .puts (.forK (fun y => .forK (fun x => .of ?_) _) _) (Nat.le_refl _)
  count_run [unpack_ui8x2_i16be_16x_puts s2 _, block_32x2_puts s _ _ (pack_i16x3_16x_puts rev d) ..]

theorem nv12_to_rgb_avx2_puts (ix : Index) (c : Colorimetry) (w h ys uvs ds : Nat)
    (d : Dst) : K.Puts (nv12_to_rgb_avx2 ix c w h ys uvs s s2 ds d) (h / 2 * (w / 32 * 256)) := by
  unfold nv12_to_rgb_avx2
  refine .forK (fun y => .forK (fun x => .of ?_) _) _
  count_run [unpack_ui8x2_i16be_16x_puts s2 _, block_32x2_puts s _ _ (pack_rgb_16x_puts d) ..]

theorem i420_to_bgra_avx2_puts (ix : Index) (c : Colorimetry) (rev : Bool) (w h ys us vs ds : Nat)
    (d : Dst) : K.AtMost (i420_to_bgra_avx2 ix c rev w h ys us vs s s2 s3 ds d)
      (h / 2 * (w / 32 * 256)) := by
  unfold i420_to_bgra_avx2
  refine .puts (.forK (fun y => .forK (fun x => .of ?_) _) _) (Nat.le_refl _)
  count_run [unpack_ui8_i16be_16x_puts _ _, block_32x2_puts s _ _ (pack_i16x3_16x_puts rev d) ..]

theorem i444_to_bgra_avx2_puts (ix : Index) (c : Colorimetry) (rev : Bool) (w h ys us vs ds : Nat)
    (d : Dst) : K.AtMost (i444_to_bgra_avx2 ix c rev w h ys us vs s s2 s3 ds d) (h * (w / 16 * 64)) := by
  unfold i444_to_bgra_avx2
  refine .puts (.forK (fun y => .forK (fun x => .of ?_) _) _) (Nat.le_refl _)
  count_run [K.Puts.load _ _ _, pack_i16x3_16x_puts ..]

theorem rgb_to_bgra_32_puts (so : Nat) (d : Dst) (o : Nat) : K.Puts (rgb_to_bgra_32 s so d o) 128 := by
  unfold rgb_to_bgra_32
  apply K.Puts.of
  count_run [K.Puts.load s _ _, K.Puts.store ..]

theorem rgb_to_bgra_avx2_puts (t : Target) (w h ss ds : Nat) (d : Dst) :
    K.AtMost (rgb_to_bgra_avx2 t w h ss s ds d) (h * ((w + 31) / 32 * 128)) := by
  unfold rgb_to_bgra_avx2
  refine .after fun _ => .after fun _ => .after fun _ => .after fun _ =>
    K.AtMost.mono (K.AtMost.seq (m := 0) (K.AtMost.iterK (c := (w + 31) / 32 * 128) ?_ _ _) fun _ => .pure)
      (Nat.le_refl _)
  rintro ⟨so, o⟩
  dsimp only
  refine K.AtMost.mono (K.AtMost.seq (m := 0) (K.AtMost.iterK (c := 128) ?_ _ _) fun _ =>
    .after fun _ => .after fun _ => .pure) ?_
  · rintro ⟨so, o⟩
    exact K.AtMost.mono (K.AtMost.seq (m := 0) (.puts (rgb_to_bgra_32_puts s so d o) (Nat.le_refl _))
      fun _ => .pure) (Nat.le_refl _)
  · simp only [LANE_COUNT]
    omega

theorem bgr_to_rgb_32_puts (so : Nat) (d : Dst) (o : Nat) : K.Puts (bgr_to_rgb_32 s so d o) 96 := by
  unfold bgr_to_rgb_32
  apply K.Puts.of
  count_run [K.Puts.load s _ _, K.Puts.store ..]

theorem bgr_to_rgb_avx2_puts (mul : Nat → Nat → R Nat) (w h ss ds : Nat) (d : Dst) :
    K.AtMost (bgr_to_rgb_avx2 mul w h ss s ds d) (h * ((w + 31) / 32 * 96)) := by
  unfold bgr_to_rgb_avx2
  refine .forK (fun _ => .after fun _ => .after fun _ =>
    K.AtMost.mono (K.AtMost.seq (m := 0) (K.AtMost.iterK (c := 96) ?_ _ _) fun _ => .pure) ?_) _
  · rintro ⟨so, o⟩
    exact K.AtMost.mono (K.AtMost.seq (m := 0) (.puts (bgr_to_rgb_32_puts s so d o) (Nat.le_refl _))
      fun _ => .pure) (Nat.le_refl _)
  · simp only [LANE_COUNT]
    omega

theorem bgra_to_rgb_4x_count (d : Dst) (q : X86.Cur) (a : Nat) :
    K.Count (bgra_to_rgb_4x s d q) a (fun q' b => q'.x = q.x + 32 ∧ b = a + 96) := by
  unfold bgra_to_rgb_4x
  count_run [K.Puts.load s _ _, K.Puts.store ..]

theorem bgra_to_rgb_1x_count (d : Dst) (q : X86.Cur) (a : Nat) :
    K.Count (bgra_to_rgb_1x s d q) a (fun q' b => q'.x = q.x + 8 ∧ b = a + 24) := by
  unfold bgra_to_rgb_1x
  count_run [K.Puts.load s _ _, K.Puts.store ..]

theorem bgra_to_rgb_px_puts (d : Dst) (so o y : Nat) : K.Puts (bgra_to_rgb_px s d so o y) 3 := by
  unfold bgra_to_rgb_px
  apply K.Puts.of
  count_run [K.Puts.rd s _, K.Puts.wr ..]

/-- The groups of eight of a line. -/
theorem line_count {d : Dst} {w so o : Nat} (hw : w < 2 ^ 32) :
    K.AtMost (do
      let s' ← whileK w (fun q => q.x < lower_multiple_of_pot w LANE_COUNT) (bgra_to_rgb_4x s d) ⟨0, so, o⟩
      let _ ← whileK w (fun q => q.x < lower_multiple_of_pot w 8) (bgra_to_rgb_1x s d) s'
      return () : K Unit) (8 * (w / 8) * 3) := by
  have h8 : lower_multiple_of_pot w 8 = 8 * (w / 8) := lower_multiple (k := 3) hw (by omega)
  have h32 : lower_multiple_of_pot w LANE_COUNT = 32 * (w / 32) := lower_multiple (k := 5) hw (by omega)
  refine .of (.bind (K.Count.whileK (I := fun (q : X86.Cur) b =>
      q.x ≤ 8 * (w / 8) ∧ 32 * (q.x / 32) = q.x ∧ b = 3 * q.x)
    ?_ _ _ _ ⟨Nat.zero_le _, by simp, rfl⟩) fun q b hq => .bind (K.Count.whileK
    (I := fun (q : X86.Cur) b => q.x ≤ 8 * (w / 8) ∧ 8 * (q.x / 8) = q.x ∧ b = 3 * q.x) ?_ _ _ _
    ⟨hq.1, by omega, hq.2.2⟩) fun q b hq => .pure (by omega))
  · intro q b ⟨h1, h2, h3⟩ hc
    have hc' : q.x < lower_multiple_of_pot w LANE_COUNT := by simpa using hc
    refine ⟨fun r ws e => ?_⟩
    obtain ⟨g1, g2⟩ := (bgra_to_rgb_4x_count s d q b).out r ws e
    exact ⟨by omega, by omega, by omega⟩
  · intro q b ⟨h1, h2, h3⟩ hc
    have hc' : q.x < lower_multiple_of_pot w 8 := by simpa using hc
    refine ⟨fun r ws e => ?_⟩
    obtain ⟨g1, g2⟩ := (bgra_to_rgb_1x_count s d q b).out r ws e
    exact ⟨by omega, by omega, by omega⟩

theorem bgra_to_rgb_avx2_puts (t : Target) (w h ss ds : Nat) (hw : w < 2 ^ 32) (d : Dst) :
    K.AtMost (bgra_to_rgb_avx2 t w h ss s ds d) (h * (w * 3)) := by
  unfold bgra_to_rgb_avx2
  have h8 : lower_multiple_of_pot w 8 = 8 * (w / 8) := lower_multiple (k := 3) hw (by omega)
  refine .after fun _ => .after fun _ => .after fun _ => .after fun _ =>
    K.AtMost.mono (K.AtMost.seq (K.AtMost.forK (fun i => .after fun _ => .after fun _ => .after fun _ =>
      .after fun _ => .after fun _ => .after fun _ => line_count s hw) _) (m := h * ((w - 8 * (w / 8)) * 3))
      fun _ => .ite (fun _ => K.AtMost.mono (K.AtMost.seq (m := 0) (K.AtMost.iterK
        (c := (w - 8 * (w / 8)) * 3) ?_ _ _) fun _ => .pure) (Nat.le_refl _)) fun _ => .pure) ?_
  · rintro ⟨so, o⟩
    rw [h8]
    exact K.AtMost.mono (K.AtMost.seq (m := 0) (.puts (.forFrom (bgra_to_rgb_px_puts s d so o) _ _)
      (Nat.le_refl _)) fun _ => .after fun _ => .after fun _ => .after fun _ => .after fun _ =>
      .after fun _ => .after fun _ => .pure) (Nat.le_refl _)
  · rw [← Nat.mul_add]
    exact Nat.mul_le_mul_left h (by omega)

/-! ## The wrappers after validation -/

theorem le_of_lower (w p : Nat) : lower_multiple_of_pot w p ≤ w := Nat.and_le_left

theorem nv12_rgb_puts (ix : Index) (c : Colorimetry) (rev : Bool) (w h ys uvs ds : Nat) (d : Dst) :
    K.AtMost (nv12_rgb ix c 4 rev w h ys uvs s s2 ds d) (h / 2 * (w / 2 * 16)) := by
  unfold nv12_rgb
  dsimp only
  have := le_of_lower w YUV_TO_RGB_WAVES
  rw [if_pos rfl, if_pos rfl]
  exact .split (nv12_to_bgra_avx2_puts ..) (.ite (fun _ => .after fun _ => .after fun _ => .after fun _ =>
    X86.nv12_to_bgra_puts ..) fun _ => .pure) (by omega)

/-- 24-bit destinations: 64 bytes are stored for 16 pixels of the vector part. -/
theorem nv12_rgb24_puts (ix : Index) (c : Colorimetry) (rev : Bool) (w h ys uvs ds : Nat)
    (hw : w < 2 ^ 32) (d : Dst) :
    K.Puts (nv12_rgb ix c 3 rev w h ys uvs s s2 ds d)
      (h / 2 * (w / 32 * 256) + h / 2 * (w % 32 / 2 * 12)) := by
  unfold nv12_rgb
  dsimp only
  have hl : lower_multiple_of_pot w YUV_TO_RGB_WAVES = 32 * (w / 32) := lower_multiple (k := 5) hw (by omega)
  have hr : w - 32 * (w / 32) = w % 32 := by omega
  have hq : 32 * (w / 32) / 32 = w / 32 := by omega
  rw [hl, hr]
  simp only [Nat.reduceEqDiff, if_false]
  have tail : ∀ a, K.Count (if w % 32 > 0 then do
        X86.nv12_to_rgb ix c (w % 32) h ys uvs (← s.from (32 * (w / 32))) (← s2.from (32 * (w / 32))) ds
          (← d.from (32 * (w / 32) * 3)) else pure ()) a
      (fun _ m => m = a + h / 2 * (w % 32 / 2 * 12)) := by
    intro a
    refine .ite (fun _ => .seq (.lift _) fun _ => .seq (.lift _) fun _ => .seq (.lift _) fun _ =>
      .last (X86.nv12_to_rgb_exact ..) fun _ => by omega) fun h0 => .pure ?_
    rw [show w % 32 = 0 by omega]
    simp
  refine .of (.ite (fun _ => .seq (nv12_to_rgb_avx2_puts ..) fun _ => ?_) fun h0 => ?_)
  · rw [hq, Nat.zero_add]
    exact tail _
  · rw [show w / 32 = 0 by omega]
    simpa [show w / 32 = 0 by omega] using tail 0

theorem i420_rgb_puts (ix : Index) (c : Colorimetry) (depth : Nat) (rev : Bool) (w h ys us vs ds : Nat)
    (d : Dst) : K.AtMost (i420_rgb ix c depth rev w h ys us vs s s2 s3 ds d) (h / 2 * (w / 2 * 16)) := by
  unfold i420_rgb
  dsimp only
  have := le_of_lower w YUV_TO_RGB_WAVES
  exact .split (i420_to_bgra_avx2_puts ..) (.ite (fun _ => .after fun _ => .after fun _ => .after fun _ =>
    .after fun _ => X86.i420_to_bgra_puts ..) fun _ => .pure) (by omega)

theorem i444_rgb_puts (ix : Index) (c : Colorimetry) (depth : Nat) (rev : Bool) (w h ys us vs ds : Nat)
    (d : Dst) : K.AtMost (i444_rgb ix c depth rev w h ys us vs s s2 s3 ds d) (h * (w * 4)) := by
  unfold i444_rgb
  dsimp only
  have := le_of_lower w (YUV_TO_RGB_WAVES / 2)
  exact .split (i444_to_bgra_avx2_puts ..) (.ite (fun _ => .after fun _ => .after fun _ => .after fun _ =>
    .after fun _ => X86.i444_to_bgra_puts ..) fun _ => .pure) (by omega)

theorem encode_part_le_self (depth w : Nat) : encode_part depth w ≤ w := by
  unfold encode_part
  split
  · exact Nat.mul_div_le ..
  · exact le_of_lower ..

theorem rgb_nv12_puts (ix : Index) (p : Sampler) (depth : Nat) (c : Colorimetry) (w h ss ys uvs : Nat)
    (y uv : Dst) : K.AtMost (rgb_nv12 ix p depth c w h ss s ys uvs y uv) (h / 2 * (w / 2 * 6)) := by
  unfold rgb_nv12
  dsimp only
  have := encode_part_le_self depth w
  exact .split (rgb_to_nv12_avx2_puts ..) (.ite (fun _ => .after fun _ => .after fun _ => .after fun _ =>
    X86.rgb_to_nv12_puts ..) fun _ => .pure) (by omega)

theorem rgb_i420_puts (ix : Index) (p : Sampler) (depth : Nat) (c : Colorimetry)
    (w h ss ys us vs : Nat) (y u v : Dst) :
    K.AtMost (rgb_i420 ix p depth c w h ss s ys us vs y u v) (h / 2 * (w / 2 * 6)) := by
  unfold rgb_i420
  dsimp only
  have := encode_part_le_self depth w
  exact .split (rgb_to_i420_avx2_puts ..) (.ite (fun _ => .after fun _ => .after fun _ => .after fun _ =>
    .after fun _ => X86.rgb_to_i420_puts ..) fun _ => .pure) (by omega)

theorem rgb_i444_puts (ix : Index) (p : Sampler) (depth : Nat) (c : Colorimetry)
    (w h ss ys us vs : Nat) (y u v : Dst) :
    K.AtMost (rgb_i444 ix p depth c w h ss s ys us vs y u v) (h * (w * 3)) := by
  unfold rgb_i444
  dsimp only
  have := encode_part_le_self depth w
  exact .split (rgb_to_i444_avx2_puts ..) (.ite (fun _ => .after fun _ => .after fun _ => .after fun _ =>
    .after fun _ => X86.rgb_to_i444_puts ..) fun _ => .pure) (by omega)

theorem rgb_bgra_puts (t : Target) (w h ss ds : Nat) (hw : w < 2 ^ 32) (d : Dst) :
    K.AtMost (rgb_bgra t w h ss s ds d) (h * (w * 4)) := by
  unfold rgb_bgra
  dsimp only
  have hl : lower_multiple_of_pot w LANE_COUNT = 32 * (w / 32) := lower_multiple (k := 5) hw (by omega)
  rw [hl]
  exact .split (rgb_to_bgra_avx2_puts ..) (.ite (fun hp => .after fun _ => .after fun _ =>
    X86.rgb_to_bgra_puts _ _ _ _ _ _ hp _) fun _ => .pure) (by omega)

theorem bgra_rgb_puts (t : Target) (w h ss ds : Nat) (hw : w < 2 ^ 32) (d : Dst) :
    K.AtMost (bgra_rgb t w h ss s ds d) (h * (w * 3)) := bgra_to_rgb_avx2_puts s t w h ss ds hw d

theorem bgr_rgb_puts (mul : Nat → Nat → R Nat) (w h ss ds : Nat) (hw : w < 2 ^ 32) (d : Dst) :
    K.AtMost (bgr_rgb mul w h ss s ds d) (h * (w * 3)) := by
  unfold bgr_rgb
  dsimp only
  have hl : lower_multiple_of_pot w LANE_COUNT = 32 * (w / 32) := lower_multiple (k := 5) hw (by omega)
  rw [hl]
  exact .split (bgr_to_rgb_avx2_puts ..) (.ite (fun hp => .after fun _ => .after fun _ =>
    X86.bgr_to_rgb_puts _ _ _ _ _ _ (by omega) _) fun _ => .pure) (by omega)

end Verif.Avx2
