import Verif.Lemmas.Count
import Verif.Lemmas.Sse2Impl
/-! # How many bytes the kernels of sse2.rs write -/

namespace Verif.Sse2

open Verif.Simd

variable (s s2 s3 : Buf)

theorem unpack_ui8_i16be_8x_puts (i : Nat) : K.Puts (unpack_ui8_i16be_8x s i) 0 := by
  unfold unpack_ui8_i16be_8x
  exact .of (.seq (.load s _ _) fun _ => .pure rfl)

theorem unpack_ui8x2_i16be_8x_puts (i : Nat) : K.Puts (unpack_ui8x2_i16be_8x s i) 0 := by
  unfold unpack_ui8x2_i16be_8x
  exact .of (.seq (.load s _ _) fun _ => .pure rfl)

theorem unpack_ui8x3_i16x2_4x_puts (p : Sampler) (i : Nat) : K.Puts (unpack_ui8x3_i16x2_4x p s i) 0 := by
  unfold unpack_ui8x3_i16x2_4x
  cases p
  all_goals exact .of (.seq (.load s _ _) fun _ => .pure rfl)

theorem pack_i16x3_8x_puts (rev : Bool) (d : Dst) (i : Nat) (r g b : Reg) :
    K.Puts (pack_i16x3_8x rev d i r g b) 32 := by
  unfold pack_i16x3_8x
  apply K.Puts.of
  count_run [K.Puts.store ..]

theorem rgb_to_bgra_4x_puts (r : Reg) (d : Dst) (i : Nat) : K.Puts (rgb_to_bgra_4x r d i) 16 := .store ..

theorem pack_i32_4x_puts (d : Dst) (i : Nat) (r : Reg) : K.Puts (pack_i32_4x d i r) 4 := .store ..

theorem rgb_to_yuv_4x_puts (p : Sampler) (a b : Nat) (yp : Dst) (y0 y1 : Nat) (uvp : Dst) (uv : Nat)
    (yw uw : Weights) : K.Puts (rgb_to_yuv_4x p s a b yp y0 y1 uvp uv yw uw) 12 := by
  unfold rgb_to_yuv_4x
  apply K.Puts.of
  count_run [unpack_ui8x3_i16x2_4x_puts s _ _, pack_i32_4x_puts ..]

theorem rgb_to_i420_4x_puts (p : Sampler) (a b : Nat) (yp : Dst) (y0 y1 : Nat) (up : Dst) (u : Nat)
    (vp : Dst) (v : Nat) (yw uw : Weights) : K.Puts (rgb_to_i420_4x p s a b yp y0 y1 up u vp v yw uw) 12 := by
  unfold rgb_to_i420_4x
  apply K.Puts.of
  count_run [unpack_ui8x3_i16x2_4x_puts s _ _, pack_i32_4x_puts .., K.Puts.store ..]

theorem rgb_to_i444_4x_puts (p : Sampler) (a : Nat) (yp : Dst) (y : Nat) (up : Dst) (u : Nat)
    (vp : Dst) (v : Nat) (yw uw vw : Weights) : K.Puts (rgb_to_i444_4x p s a yp y up u vp v yw uw vw) 12 := by
  unfold rgb_to_i444_4x
  apply K.Puts.of
  count_run [unpack_ui8x3_i16x2_4x_puts s _ _, pack_i32_4x_puts ..]

theorem rgb_to_nv12_sse2_puts (ix : Index) (p : Sampler) (depth : Nat) (c : Colorimetry)
    (w h ss ys uvs : Nat) (y uv : Dst) :
    K.AtMost (rgb_to_nv12_sse2 ix p depth c w h ss s ys uvs y uv) (h / 2 * (w / 4 * 12)) := by
  unfold rgb_to_nv12_sse2
  refine .puts (.forK (fun y => .forK (fun x => .of ?_) _) _) (Nat.le_refl _)
  count_run [rgb_to_yuv_4x_puts s ..]

theorem rgb_to_i420_sse2_puts (ix : Index) (p : Sampler) (depth : Nat) (c : Colorimetry)
    (w h ss ys us vs : Nat) (y u v : Dst) :
    K.AtMost (rgb_to_i420_sse2 ix p depth c w h ss s ys us vs y u v) (h / 2 * (w / 4 * 12)) := by
  unfold rgb_to_i420_sse2
  refine .puts (.forK (fun y => .forK (fun x => .of ?_) _) _) (Nat.le_refl _)
  count_run [rgb_to_i420_4x_puts s ..]

theorem rgb_to_i444_sse2_puts (ix : Index) (p : Sampler) (depth : Nat) (c : Colorimetry)
    (w h ss ys us vs : Nat) (y u v : Dst) :
    K.AtMost (rgb_to_i444_sse2 ix p depth c w h ss s ys us vs y u v) (h * (w / 4 * 12)) := by
  unfold rgb_to_i444_sse2
  refine .puts (.forK (fun y => .forK (fun x => .of ?_) _) _) (Nat.le_refl _)
  count_run [rgb_to_i444_4x_puts s ..]

theorem put_8x_puts (rev : Bool) (d : Dst) (i : Nat) (r g b y : Reg) :
    K.Puts (put_8x rev d i r g b y) 32 := pack_i16x3_8x_puts ..

theorem block_16x2_puts (k : Back) (rev : Bool) (cb cr : Reg) (y0 y1 : R Nat) (d : Dst)
    (d00 d10 d01 d11 : R Nat) : K.Puts (block_16x2 k rev cb cr s y0 y1 d d00 d10 d01 d11) 128 := by
  unfold block_16x2
  apply K.Puts.of
  count_run [K.Puts.load s _ _, put_8x_puts ..]

theorem nv12_to_bgra_sse2_puts (ix : Index) (c : Colorimetry) (rev : Bool) (w h ys uvs ds : Nat)
    (d : Dst) : K.AtMost (nv12_to_bgra_sse2 ix c rev w h ys uvs s s2 ds d) (h / 2 * (w / 16 * 128)) := by
  unfold nv12_to_bgra_sse2
  refine .puts (.forK (fun y => .forK (fun x => .of ?_) _) _) (Nat.le_refl _)
  count_run [unpack_ui8x2_i16be_8x_puts s2 _, block_16x2_puts ..]

theorem i420_to_bgra_sse2_puts (ix : Index) (c : Colorimetry) (rev : Bool) (w h ys us vs ds : Nat)
    (d : Dst) : K.AtMost (i420_to_bgra_sse2 ix c rev w h ys us vs s s2 s3 ds d)
      (h / 2 * (w / 16 * 128)) := by
  unfold i420_to_bgra_sse2
  refine .puts (.forK (fun y => .forK (fun x => .of ?_) _) _) (Nat.le_refl _)
  count_run [unpack_ui8_i16be_8x_puts _ _, block_16x2_puts ..]

theorem i444_to_bgra_sse2_puts (ix : Index) (c : Colorimetry) (rev : Bool) (w h ys us vs ds : Nat)
    (d : Dst) : K.AtMost (i444_to_bgra_sse2 ix c rev w h ys us vs s s2 s3 ds d) (h * (w / 8 * 32)) := by
  unfold i444_to_bgra_sse2
  refine .puts (.forK (fun y => .forK (fun x => .of ?_) _) _) (Nat.le_refl _)
  count_run [K.Puts.load _ _ _, put_8x_puts ..]

theorem rgb_to_bgra_16_puts (so : Nat) (d : Dst) (o : Nat) : K.Puts (rgb_to_bgra_16 s so d o) 64 := by
  unfold rgb_to_bgra_16
  apply K.Puts.of
  count_run [K.Puts.load s _ _, rgb_to_bgra_4x_puts ..]

theorem rgb_to_bgra_sse2_puts (t : Target) (w h ss ds : Nat) (d : Dst) :
    K.AtMost (rgb_to_bgra_sse2 t w h ss s ds d) (h * ((w + 15) / 16 * 64)) := by
  unfold rgb_to_bgra_sse2
  refine .after fun _ => .after fun _ => .after fun _ => .after fun _ =>
    K.AtMost.mono (K.AtMost.seq (m := 0) (K.AtMost.iterK (c := (w + 15) / 16 * 64) ?_ _ _) fun _ => .pure)
      (Nat.le_refl _)
  rintro ⟨so, o⟩
  dsimp only
  refine K.AtMost.mono (K.AtMost.seq (m := 0) (K.AtMost.iterK (c := 64) ?_ _ _) fun _ =>
    .after fun _ => .after fun _ => .pure) ?_
  · rintro ⟨so, o⟩
    exact K.AtMost.mono (K.AtMost.seq (m := 0) (.puts (rgb_to_bgra_16_puts s so d o) (Nat.le_refl _))
      fun _ => .pure) (Nat.le_refl _)
  · simp only [LANE_COUNT]
    omega

/-! ## The wrappers after validation -/

theorem le_of_lower (w p : Nat) : lower_multiple_of_pot w p ≤ w := Nat.and_le_left

theorem nv12_rgb_puts (ix : Index) (c : Colorimetry) (depth : Nat) (hd : depth = 3 ∨ depth = 4) (rev : Bool)
    (w h ys uvs ds : Nat) (d : Dst) :
    K.AtMost (nv12_rgb ix c depth rev w h ys uvs s s2 ds d) (h / 2 * (w / 2 * (4 * depth))) := by
  unfold nv12_rgb
  dsimp only
  have := le_of_lower w YUV_TO_RGB_WAVES
  refine .ite (fun h => h ▸ X86.nv12_to_rgb_puts ..) fun h => ?_
  obtain rfl : depth = 4 := hd.resolve_left h
  exact .split (nv12_to_bgra_sse2_puts ..) (.ite (fun _ => .after fun _ => .after fun _ => .after fun _ =>
    X86.nv12_to_bgra_puts ..) fun _ => .pure) (by omega)

theorem i420_rgb_puts (ix : Index) (c : Colorimetry) (depth : Nat) (rev : Bool) (w h ys us vs ds : Nat)
    (d : Dst) : K.AtMost (i420_rgb ix c depth rev w h ys us vs s s2 s3 ds d) (h / 2 * (w / 2 * 16)) := by
  unfold i420_rgb
  dsimp only
  have := le_of_lower w YUV_TO_RGB_WAVES
  exact .split (i420_to_bgra_sse2_puts ..) (.ite (fun _ => .after fun _ => .after fun _ => .after fun _ =>
    .after fun _ => X86.i420_to_bgra_puts ..) fun _ => .pure) (by omega)

theorem i444_rgb_puts (ix : Index) (c : Colorimetry) (depth : Nat) (rev : Bool) (w h ys us vs ds : Nat)
    (d : Dst) : K.AtMost (i444_rgb ix c depth rev w h ys us vs s s2 s3 ds d) (h * (w * 4)) := by
  unfold i444_rgb
  dsimp only
  have := le_of_lower w (YUV_TO_RGB_WAVES / 2)
  exact .split (i444_to_bgra_sse2_puts ..) (.ite (fun _ => .after fun _ => .after fun _ => .after fun _ =>
    .after fun _ => X86.i444_to_bgra_puts ..) fun _ => .pure) (by omega)

theorem encode_part_le_self (depth w : Nat) : encode_part depth w ≤ w := by
  unfold encode_part
  split
  · exact Nat.mul_div_le ..
  · exact le_of_lower ..

theorem rgb_nv12_puts (ix : Index) (p : Sampler) (depth : Nat) (c : Colorimetry) (w h ss ys uvs : Nat)
    (y uv : Dst) : K.AtMost (rgb_nv12 ix p depth c w h ss s ys uvs y uv) (h / 2 * (w / 2 * 6)) := by
  unfold rgb_nv12
  dsimp only
  have := encode_part_le_self depth w
  exact .split (rgb_to_nv12_sse2_puts ..) (.ite (fun _ => .after fun _ => .after fun _ => .after fun _ =>
    X86.rgb_to_nv12_puts ..) fun _ => .pure) (by omega)

theorem rgb_i420_puts (ix : Index) (p : Sampler) (depth : Nat) (c : Colorimetry)
    (w h ss ys us vs : Nat) (y u v : Dst) :
    K.AtMost (rgb_i420 ix p depth c w h ss s ys us vs y u v) (h / 2 * (w / 2 * 6)) := by
  unfold rgb_i420
  dsimp only
  have := encode_part_le_self depth w
  exact .split (rgb_to_i420_sse2_puts ..) (.ite (fun _ => .after fun _ => .after fun _ => .after fun _ =>
    .after fun _ => X86.rgb_to_i420_puts ..) fun _ => .pure) (by omega)

theorem rgb_i444_puts (ix : Index) (p : Sampler) (depth : Nat) (c : Colorimetry)
    (w h ss ys us vs : Nat) (y u v : Dst) :
    K.AtMost (rgb_i444 ix p depth c w h ss s ys us vs y u v) (h * (w * 3)) := by
  unfold rgb_i444
  dsimp only
  have := encode_part_le_self depth w
  exact .split (rgb_to_i444_sse2_puts ..) (.ite (fun _ => .after fun _ => .after fun _ => .after fun _ =>
    .after fun _ => X86.rgb_to_i444_puts ..) fun _ => .pure) (by omega)

theorem rgb_bgra_puts (t : Target) (w h ss ds : Nat) (hw : w < 2 ^ 32) (d : Dst) :
    K.AtMost (rgb_bgra t w h ss s ds d) (h * (w * 4)) := by
  unfold rgb_bgra
  dsimp only
  have hl : lower_multiple_of_pot w LANE_COUNT = 16 * (w / 16) := lower_multiple (k := 4) hw (by omega)
  rw [hl]
  exact .split (rgb_to_bgra_sse2_puts ..) (.ite (fun hp => .after fun _ => .after fun _ =>
    X86.rgb_to_bgra_puts _ _ _ _ _ _ hp _) fun _ => .pure) (by omega)

end Verif.Sse2
