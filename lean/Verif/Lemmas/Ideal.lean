import Verif.Lemmas.SimFar
import Verif.Model.Crate
import Verif.Spec.Reach
/-!
# The kernels of every instruction set and their ideal counterparts

Unless lines are so far apart that the offset of the fourth one exceeds `usize`, the kernels behave as
if their offsets were computed exactly.
-/

namespace Verif

/-- The kernels with exact offsets. -/
def idealOf : InstructionSet → Impl
  | .x86 => X86.ideal
  | .sse2 => Sse2.ideal
  | .avx2 => Avx2.ideal
  | .neon => Neon.ideal

theorem vectorised_sse2 (s : Sampler) {w : Nat} (hw : w < 2 ^ 32) :
    0 < Sse2.encode_part s.pf.depth w ↔ Spec.Vectorised .sse2 s.pf w := by
  rw [Sse2.encode_part_eq s hw]
  cases s <;> simp [Spec.Vectorised, Spec.groupWidth, Sampler.pf]

theorem vectorised_avx2 (s : Sampler) {w : Nat} (hw : w < 2 ^ 32) :
    0 < Avx2.encode_part s.pf.depth w ↔ Spec.Vectorised .avx2 s.pf w := by
  rw [Avx2.encode_part_eq s hw]
  cases s <;> simp [Spec.Vectorised, Spec.groupWidth, Sampler.pf]

theorem vectorised_neon (s : Sampler) {w : Nat} (hw : w < 2 ^ 32) :
    0 < lower_multiple_of_pot w Neon.RGB_TO_YUV_WAVES ↔ Spec.Vectorised .neon s.pf w := by
  rw [show lower_multiple_of_pot w Neon.RGB_TO_YUV_WAVES = 8 * (w / 8) from
    Simd.lower_multiple (k := 3) hw (by omega)]
  simp [Spec.Vectorised, Spec.groupWidth]

section
variable {t : Target} {w h : Nat}

theorem agree_rgb_nv12 (set : InstructionSet) (s : Sampler) (c : Colorimetry) {ss ys uvs : Nat}
    {src : Buf} {yp uvp : Dst} (hw : w < 2 ^ 32) (hB : 256 ≤ 2 ^ t.bits)
    (hs : Near t src.len ss) (hy : Near t yp.len ys) (hu : Near t uvp.len uvs)
    (h3 : Spec.Vectorised set s.pf w → 4 ≤ h → 3 * ss < 2 ^ t.bits ∧ 3 * ys < 2 ^ t.bits) :
    (crate set).rgb_nv12 t s s.pf.depth c w h ss src ys uvs yp uvp =
      (idealOf set).rgb_nv12 t s s.pf.depth c w h ss src ys uvs yp uvp := by
  cases set
  · exact X86.rgb_to_nv12_agrees s c hB hs.close hy.close hu.close
  · exact Sse2.rgb_nv12_agrees s c hw hB hs hy hu fun hv => h3 ((vectorised_sse2 s hw).1 hv)
  · exact Avx2.rgb_nv12_agrees s c hw hB hs hy hu fun hv => h3 ((vectorised_avx2 s hw).1 hv)
  · exact Neon.rgb_nv12_agrees s c hw hB hs hy hu fun hv => h3 ((vectorised_neon s hw).1 hv)

theorem agree_rgb_i420 (set : InstructionSet) (s : Sampler) (c : Colorimetry) {ss ys us vs : Nat}
    {src : Buf} {yp up vp : Dst} (hw : w < 2 ^ 32) (hB : 256 ≤ 2 ^ t.bits)
    (hs : Near t src.len ss) (hy : Near t yp.len ys) (hu : Near t up.len us)
    (hv : Near t vp.len vs)
    (h3 : Spec.Vectorised set s.pf w → 4 ≤ h → 3 * ss < 2 ^ t.bits ∧ 3 * ys < 2 ^ t.bits) :
    (crate set).rgb_i420 t s s.pf.depth c w h ss src ys us vs yp up vp =
      (idealOf set).rgb_i420 t s s.pf.depth c w h ss src ys us vs yp up vp := by
  cases set
  · exact X86.rgb_to_i420_agrees s c hB hs.close hy.close hu.close hv.close
  · exact Sse2.rgb_i420_agrees s c hw hB hs hy hu hv fun hv => h3 ((vectorised_sse2 s hw).1 hv)
  · exact Avx2.rgb_i420_agrees s c hw hB hs hy hu hv fun hv => h3 ((vectorised_avx2 s hw).1 hv)
  · exact Neon.rgb_i420_agrees s c hw hB hs hy hu hv fun hv => h3 ((vectorised_neon s hw).1 hv)

theorem agree_rgb_i444 (set : InstructionSet) (s : Sampler) (c : Colorimetry) {ss ys us vs : Nat}
    {src : Buf} {yp up vp : Dst} (hw : w < 2 ^ 32) (hB : 256 ≤ 2 ^ t.bits)
    (hs : Near t src.len ss) (hy : Near t yp.len ys) (hu : Near t up.len us)
    (hv : Near t vp.len vs) :
    (crate set).rgb_i444 t s s.pf.depth c w h ss src ys us vs yp up vp =
      (idealOf set).rgb_i444 t s s.pf.depth c w h ss src ys us vs yp up vp := by
  cases set
  · exact X86.rgb_to_i444_agrees s c hB hs.close hy.close hu.close hv.close
  · exact Sse2.rgb_i444_agrees s c hw hB hs hy hu hv
  · exact Avx2.rgb_i444_agrees s c hw hB hs hy hu hv
  · exact Neon.rgb_i444_agrees s c hw hB hs hy hu hv

theorem agree_i444_rgb (set : InstructionSet) (c : Colorimetry) (n : Nat) (rev : Bool)
    {ys us vs ds : Nat} {yb ub vb : Buf} {d : Dst} (hw : w < 2 ^ 32) (hB : 256 ≤ 2 ^ t.bits)
    (hy : Near t yb.len ys) (hu : Near t ub.len us) (hv : Near t vb.len vs) (hd : Near t d.len ds) :
    (crate set).i444_rgb t c n rev w h ys us vs yb ub vb ds d =
      (idealOf set).i444_rgb t c n rev w h ys us vs yb ub vb ds d := by
  cases set
  · exact X86.i444_to_bgra_agrees c rev hB hy.close hu.close hv.close hd.close
  · exact Sse2.i444_rgb_agrees c n rev hw hB hy hu hv hd
  · exact Avx2.i444_rgb_agrees c n rev hw hB hy hu hv hd
  · exact X86.i444_to_bgra_agrees c rev hB hy.close hu.close hv.close hd.close

theorem agree_i420_rgb (set : InstructionSet) (c : Colorimetry) (n : Nat) (rev : Bool)
    {ys us vs ds : Nat} {yb ub vb : Buf} {d : Dst} (hw : w < 2 ^ 32) (hB : 256 ≤ 2 ^ t.bits)
    (hy : Near t yb.len ys) (hu : Near t ub.len us) (hv : Near t vb.len vs) (hd : Near t d.len ds) :
    (crate set).i420_rgb t c n rev w h ys us vs yb ub vb ds d =
      (idealOf set).i420_rgb t c n rev w h ys us vs yb ub vb ds d := by
  cases set
  · exact X86.i420_to_bgra_agrees c rev hB hy.close hu.close hv.close hd.close
  · exact Sse2.i420_rgb_agrees c n rev hw hB hy hu hv hd
  · exact Avx2.i420_rgb_agrees c n rev hw hB hy hu hv hd
  · exact X86.i420_to_bgra_agrees c rev hB hy.close hu.close hv.close hd.close

theorem X86.nv12_rgb_agrees (c : Colorimetry) (n : Nat) (rev : Bool) {ys uvs ds : Nat}
    {yb uvb : Buf} {d : Dst} (hB : 256 ≤ 2 ^ t.bits) (hy : Close t yb.len ys)
    (hu : Close t uvb.len uvs) (hd : Close t d.len ds) :
    X86.nv12_rgb (wg_index t) c n rev w h ys uvs yb uvb ds d =
      X86.nv12_rgb exactIx c n rev w h ys uvs yb uvb ds d := by
  unfold X86.nv12_rgb
  split
  · exact X86.nv12_to_bgra_agrees c rev hB hy hu hd
  · exact X86.nv12_to_rgb_agrees c hB hy hu hd

theorem agree_nv12_rgb (set : InstructionSet) (c : Colorimetry) (n : Nat) (rev : Bool)
    {ys uvs ds : Nat} {yb uvb : Buf} {d : Dst} (hw : w < 2 ^ 32) (hB : 256 ≤ 2 ^ t.bits)
    (hy : Near t yb.len ys) (hu : Near t uvb.len uvs) (hd : Near t d.len ds) :
    (crate set).nv12_rgb t c n rev w h ys uvs yb uvb ds d =
      (idealOf set).nv12_rgb t c n rev w h ys uvs yb uvb ds d := by
  cases set
  · exact X86.nv12_rgb_agrees c n rev hB hy.close hu.close hd.close
  · exact Sse2.nv12_rgb_agrees c n rev hw hB hy hu hd
  · exact Avx2.nv12_rgb_agrees c n rev hw hB hy hu hd
  · exact X86.nv12_rgb_agrees c n rev hB hy.close hu.close hd.close

theorem agree_bgr_rgb (set : InstructionSet) {ss ds : Nat} {src : Buf} {d : Dst} (hdim : Dim w h)
    (hs : src.len + ss < 2 ^ t.bits) (hd : d.len + ds < 2 ^ t.bits) :
    (crate set).bgr_rgb t w h ss src ds d = (idealOf set).bgr_rgb t w h ss src ds d := by
  have hw := hdim.w_lt
  cases set
  · exact X86.bgr_to_rgb_agrees hdim.w_pos (by omega) hs hd
  · exact X86.bgr_to_rgb_agrees hdim.w_pos (by omega) hs hd
  · exact Avx2.bgr_rgb_agrees hw hs hd
  · exact Neon.bgr_rgb_agrees hw hs hd

theorem agree_rgb_bgra (set : InstructionSet) {ss ds : Nat} {src : Buf} {d : Dst} (hdim : Dim w h)
    (hs : src.len + ss < 2 ^ t.bits) (hd : d.len + ds < 2 ^ t.bits) :
    (crate set).rgb_bgra t w h ss src ds d = (idealOf set).rgb_bgra t w h ss src ds d := by
  cases set
  · rfl
  · rfl
  · rfl
  · exact Neon.rgb_bgra_agrees hdim.w_lt hs hd

theorem agree_bgra_rgb (set : InstructionSet) {ss ds : Nat} {src : Buf} {d : Dst} (hdim : Dim w h)
    (hs : src.len + ss < 2 ^ t.bits) (hd : d.len + ds < 2 ^ t.bits) :
    (crate set).bgra_rgb t w h ss src ds d = (idealOf set).bgra_rgb t w h ss src ds d := by
  cases set
  · rfl
  · rfl
  · rfl
  · exact Neon.bgra_rgb_agrees hdim.w_lt hs hd

/-- Lines too far apart: the kernel never completes. The condition `hS` on the first two lines is the
weakest one needed for them to be converted. -/
theorem far_rgb_nv12 (set : InstructionSet) (s : Sampler) (c : Colorimetry) {S X : Prop}
    {ss ys uvs : Nat} {src : Buf} {yp uvp : Dst} (hw : w < 2 ^ 32)
    (hv : Spec.Vectorised set s.pf w) (hh : 4 ≤ h)
    (hB : 256 ≤ 2 ^ t.bits) (hs : Near t src.len ss) (hy : Near t yp.len ys)
    (hu : Near t uvp.len uvs) (h3 : 2 ^ t.bits ≤ 3 * ss ∨ 2 ^ t.bits ≤ 3 * ys)
    (hX : t.checked = true → X)
    (hS : S → t.checked = true ∧ ss + s.pf.depth * w + 8 ≤ src.len ∧ ys + w ≤ yp.len ∧
      w ≤ uvp.len) :
    K.Wp S X ((crate set).rgb_nv12 t s s.pf.depth c w h ss src ys uvs yp uvp) (fun _ => False) := by
  cases set
  · obtain ⟨n, hn, -⟩ := hv
    cases hn
  · have h0 := (vectorised_sse2 s hw).2 hv
    have h1 := Sse2.encode_part_le s hw
    refine Sse2.rgb_nv12_far s c hw h0 hh hB hs hy hu h3 hX fun h => ?_
    obtain ⟨g1, g2, g3, g4⟩ := hS h
    have g5 : s.pf.depth * (Sse2.encode_part s.pf.depth w - 4) + 16 ≤ s.pf.depth * w + 4 := by
      have : s.pf.depth * (Sse2.encode_part s.pf.depth w - 4) ≤ s.pf.depth * (w - 4) :=
        Nat.mul_le_mul_left _ (by omega)
      rw [Nat.mul_sub] at this
      have : s.pf.depth * 4 ≤ s.pf.depth * w := Nat.mul_le_mul_left _ (by omega)
      cases s <;> simp only [Sampler.pf, PixelFormat.depth] at * <;> omega
    refine ⟨g1, ?_, ?_, ?_⟩ <;> unfold Ext <;> omega
  · have h0 := (vectorised_avx2 s hw).2 hv
    have h1 := Avx2.encode_part_le s hw
    refine Avx2.rgb_nv12_far s c hw h0 hh hB hs hy hu h3 hX fun h => ?_
    obtain ⟨g1, g2, g3, g4⟩ := hS h
    have g5 : s.pf.depth * (Avx2.encode_part s.pf.depth w - 8) + 32 ≤ s.pf.depth * w + 8 := by
      have : s.pf.depth * (Avx2.encode_part s.pf.depth w - 8) ≤ s.pf.depth * (w - 8) :=
        Nat.mul_le_mul_left _ (by omega)
      rw [Nat.mul_sub] at this
      have : s.pf.depth * 8 ≤ s.pf.depth * w := Nat.mul_le_mul_left _ (by omega)
      cases s <;> simp only [Sampler.pf, PixelFormat.depth] at * <;> omega
    refine ⟨g1, ?_, ?_, ?_⟩ <;> unfold Ext <;> omega
  · have h0 := (vectorised_neon s hw).2 hv
    have h1 : lower_multiple_of_pot w Neon.RGB_TO_YUV_WAVES = 8 * (w / 8) :=
      Simd.lower_multiple (k := 3) hw (by omega)
    refine Neon.rgb_nv12_far s c hw h0 hh hB hs hy hu h3 hX fun h => ?_
    obtain ⟨g1, g2, g3, g4⟩ := hS h
    have g5 : lower_multiple_of_pot w Neon.RGB_TO_YUV_WAVES * s.pf.depth ≤ s.pf.depth * w := by
      rw [Nat.mul_comm]
      exact Nat.mul_le_mul_left _ (by omega)
    refine ⟨g1, ?_, ?_, ?_⟩ <;> unfold Ext <;> omega

theorem far_rgb_i420 (set : InstructionSet) (s : Sampler) (c : Colorimetry) {S X : Prop}
    {ss ys us vs : Nat} {src : Buf} {yp up vp : Dst} (hw : w < 2 ^ 32)
    (hv : Spec.Vectorised set s.pf w) (hh : 4 ≤ h)
    (hB : 256 ≤ 2 ^ t.bits) (hs : Near t src.len ss) (hy : Near t yp.len ys)
    (hu : Near t up.len us) (hv' : Near t vp.len vs)
    (h3 : 2 ^ t.bits ≤ 3 * ss ∨ 2 ^ t.bits ≤ 3 * ys) (hX : t.checked = true → X)
    (hS : S → t.checked = true ∧ ss + s.pf.depth * w + 8 ≤ src.len ∧ ys + w ≤ yp.len ∧
      w / 2 ≤ up.len ∧ w / 2 ≤ vp.len) :
    K.Wp S X ((crate set).rgb_i420 t s s.pf.depth c w h ss src ys us vs yp up vp)
      (fun _ => False) := by
  cases set
  · obtain ⟨n, hn, -⟩ := hv
    cases hn
  · have h0 := (vectorised_sse2 s hw).2 hv
    have h1 := Sse2.encode_part_le s hw
    refine Sse2.rgb_i420_far s c hw h0 hh hB hs hy hu hv' h3 hX fun h => ?_
    obtain ⟨g1, g2, g3, g4⟩ := hS h
    have g5 : s.pf.depth * (Sse2.encode_part s.pf.depth w - 4) + 16 ≤ s.pf.depth * w + 4 := by
      have : s.pf.depth * (Sse2.encode_part s.pf.depth w - 4) ≤ s.pf.depth * (w - 4) :=
        Nat.mul_le_mul_left _ (by omega)
      rw [Nat.mul_sub] at this
      have : s.pf.depth * 4 ≤ s.pf.depth * w := Nat.mul_le_mul_left _ (by omega)
      cases s <;> simp only [Sampler.pf, PixelFormat.depth] at * <;> omega
    refine ⟨g1, ?_, ?_, ?_, ?_⟩ <;> unfold Ext <;> omega
  · have h0 := (vectorised_avx2 s hw).2 hv
    have h1 := Avx2.encode_part_le s hw
    refine Avx2.rgb_i420_far s c hw h0 hh hB hs hy hu hv' h3 hX fun h => ?_
    obtain ⟨g1, g2, g3, g4⟩ := hS h
    have g5 : s.pf.depth * (Avx2.encode_part s.pf.depth w - 8) + 32 ≤ s.pf.depth * w + 8 := by
      have : s.pf.depth * (Avx2.encode_part s.pf.depth w - 8) ≤ s.pf.depth * (w - 8) :=
        Nat.mul_le_mul_left _ (by omega)
      rw [Nat.mul_sub] at this
      have : s.pf.depth * 8 ≤ s.pf.depth * w := Nat.mul_le_mul_left _ (by omega)
      cases s <;> simp only [Sampler.pf, PixelFormat.depth] at * <;> omega
    refine ⟨g1, ?_, ?_, ?_, ?_⟩ <;> unfold Ext <;> omega
  · have h0 := (vectorised_neon s hw).2 hv
    have h1 : lower_multiple_of_pot w Neon.RGB_TO_YUV_WAVES = 8 * (w / 8) :=
      Simd.lower_multiple (k := 3) hw (by omega)
    refine Neon.rgb_i420_far s c hw h0 hh hB hs hy hu hv' h3 hX fun h => ?_
    obtain ⟨g1, g2, g3, g4⟩ := hS h
    have g5 : lower_multiple_of_pot w Neon.RGB_TO_YUV_WAVES * s.pf.depth ≤ s.pf.depth * w := by
      rw [Nat.mul_comm]
      exact Nat.mul_le_mul_left _ (by omega)
    refine ⟨g1, ?_, ?_, ?_, ?_⟩ <;> unfold Ext <;> omega

end

end Verif
