import Verif.Lemmas.SimSse2
import Verif.Lemmas.SimAvx2
import Verif.Lemmas.SimNeon
/-!
# Lines so far apart that their offset exceeds `usize`

The vectorised 4:2:0 encoders compute the offsets of two lines before they access the first of them. If
three times a stride exceeds `usize` then they never get beyond the second pair of lines: either the
offset of the fourth line overflows, or, without overflow checks, the third line is out of bounds.
-/

namespace Verif

namespace K.Wp

variable {S X : Prop} {t : Target}

/-- The offset is right unless it overflows, and with overflow checks it does not overflow. -/
theorem index {x y w h : Nat} (hX : t.checked = true → X) :
    K.Wp S X (K.lift (wg_index t x y w h)) (fun a =>
      (h * y + x * w < 2 ^ t.bits → a = h * y + x * w) ∧
      (t.checked = true → h * y + x * w < 2 ^ t.bits)) := by
  have m : ∀ a b : Nat, (t.mul a b = .ok (a * b) ∧ a * b < 2 ^ t.bits) ∨
      (2 ^ t.bits ≤ a * b ∧ ((t.checked = true ∧ t.mul a b = .error .overflow) ∨
        (t.checked ≠ true ∧ ∃ v, t.mul a b = .ok v))) := by
    intro a b
    unfold Target.mul
    split
    · exact .inl ⟨rfl, by assumption⟩
    · split
      · exact .inr ⟨by omega, .inl ⟨by assumption, rfl⟩⟩
      · exact .inr ⟨by omega, .inr ⟨by assumption, _, rfl⟩⟩
  have d : ∀ a b : Nat, (t.add a b = .ok (a + b) ∧ a + b < 2 ^ t.bits) ∨
      (2 ^ t.bits ≤ a + b ∧ ((t.checked = true ∧ t.add a b = .error .overflow) ∨
        (t.checked ≠ true ∧ ∃ v, t.add a b = .ok v))) := by
    intro a b
    unfold Target.add
    split
    · exact .inl ⟨rfl, by assumption⟩
    · split
      · exact .inr ⟨by omega, .inl ⟨by assumption, rfl⟩⟩
      · exact .inr ⟨by omega, .inr ⟨by assumption, _, rfl⟩⟩
  have over : t.checked = true → K.Wp S X (K.lift (.error .overflow : R Nat)) (fun a =>
      (h * y + x * w < 2 ^ t.bits → a = h * y + x * w) ∧
      (t.checked = true → h * y + x * w < 2 ^ t.bits)) := fun hc => .inr ⟨rfl, hX hc⟩
  have wrap : ∀ v, t.checked ≠ true → 2 ^ t.bits ≤ h * y + x * w →
      K.Wp S X (K.lift (.ok v : R Nat)) (fun a =>
      (h * y + x * w < 2 ^ t.bits → a = h * y + x * w) ∧
      (t.checked = true → h * y + x * w < 2 ^ t.bits)) :=
    fun v hc hb => ⟨fun hl => absurd hl (by omega), fun h => absurd h hc⟩
  unfold wg_index
  rcases m h y with ⟨e1, b1⟩ | ⟨b1, ⟨hc, e1⟩ | ⟨hc, v1, e1⟩⟩
  · rcases m x w with ⟨e2, b2⟩ | ⟨b2, ⟨hc, e2⟩ | ⟨hc, v2, e2⟩⟩
    · rcases d (h * y) (x * w) with ⟨e3, b3⟩ | ⟨b3, ⟨hc, e3⟩ | ⟨hc, v3, e3⟩⟩
      · rw [e1, e2]; show K.Wp S X (K.lift (t.add _ _)) _; rw [e3]; exact ⟨fun _ => rfl, fun _ => b3⟩
      · rw [e1, e2]; show K.Wp S X (K.lift (t.add _ _)) _; rw [e3]; exact over hc
      · rw [e1, e2]; show K.Wp S X (K.lift (t.add _ _)) _; rw [e3]; exact wrap _ hc b3
    · rw [e1, e2]; exact over hc
    · rw [e1, e2]; show K.Wp S X (K.lift (t.add _ _)) _
      rcases d (h * y) v2 with ⟨e3, _⟩ | ⟨_, ⟨hc', e3⟩ | ⟨_, v3, e3⟩⟩
      · rw [e3]; exact wrap _ hc (by omega)
      · exact absurd hc' hc
      · rw [e3]; exact wrap _ hc (by omega)
  · rw [e1]; exact over hc
  · rw [e1]
    rcases m x w with ⟨e2, b2⟩ | ⟨b2, ⟨hc', e2⟩ | ⟨_, v2, e2⟩⟩
    · rw [e2]; show K.Wp S X (K.lift (t.add _ _)) _
      rcases d v1 (x * w) with ⟨e3, _⟩ | ⟨_, ⟨hc', e3⟩ | ⟨_, v3, e3⟩⟩
      · rw [e3]; exact wrap _ hc (by omega)
      · exact absurd hc' hc
      · rw [e3]; exact wrap _ hc (by omega)
    · exact absurd hc' hc
    · rw [e2]; show K.Wp S X (K.lift (t.add _ _)) _
      rcases d v1 v2 with ⟨e3, _⟩ | ⟨_, ⟨hc', e3⟩ | ⟨_, v3, e3⟩⟩
      · rw [e3]; exact wrap _ hc (by omega)
      · exact absurd hc' hc
      · rw [e3]; exact wrap _ hc (by omega)

/-- A loop that does not get beyond its second iteration. -/
theorem second {n : Nat} {f : Nat → K Unit} {Q : Unit → Prop} (hn : 2 ≤ n)
    (h0 : K.Wp S X (Verif.forK 1 f) Q) (h1 : K.Wp S X (f 1) (fun _ => False)) :
    K.Wp S X (Verif.forK n f) (fun _ => False) := by
  obtain ⟨n, rfl⟩ : ∃ m, n = m + 2 := ⟨n - 2, by omega⟩
  rw [Verif.forK, Verif.forFrom, Verif.forFrom]
  refine bind (P := Q) ?_ fun _ _ => bind h1 fun _ h => h.elim
  rw [Verif.forK, Verif.forFrom] at h0
  have e : (f 0 >>= fun _ => Verif.forFrom (0 + 1) 0 f) = f 0 := bind_pure (f 0)
  rwa [e] at h0

/-- A loop that does not get beyond its first iteration. -/
theorem never {n : Nat} {f : Nat → K Unit} (hn : 0 < n) (h0 : K.Wp S X (f 0) (fun _ => False)) :
    K.Wp S X (Verif.forK n f) (fun _ => False) := by
  obtain ⟨n, rfl⟩ : ∃ m, n = m + 1 := ⟨n - 1, by omega⟩
  rw [Verif.forK, Verif.forFrom]
  exact bind h0 fun _ h => h.elim

/-- A first part that never completes. -/
theorem stuck {c : Prop} [Decidable c] {β : Type} {V : K Unit} {f : Unit → K β} {Q : β → Prop}
    (hc : c) (h : K.Wp S X V (fun _ => False)) :
    K.Wp S X (if c then (do let r ← V; f r) else f ()) Q := by
  rw [if_pos hc]
  exact bind h fun _ h => h.elim

end K.Wp

/-- What is known of two strides too wide. -/
theorem too_wide {t : Target} {sl ss yl ys a1 a2 a3 a4 d d' : Nat} (hs : Near t sl ss)
    (hy : Near t yl ys) (h3 : 2 ^ t.bits ≤ 3 * ss ∨ 2 ^ t.bits ≤ 3 * ys)
    (h1 : (ss * (2 * 1) + 0 * d < 2 ^ t.bits → a1 = ss * (2 * 1) + 0 * d) ∧
      (t.checked = true → ss * (2 * 1) + 0 * d < 2 ^ t.bits))
    (h2 : (ss * (2 * 1 + 1) + 0 * d < 2 ^ t.bits → a2 = ss * (2 * 1 + 1) + 0 * d) ∧
      (t.checked = true → ss * (2 * 1 + 1) + 0 * d < 2 ^ t.bits))
    (h3' : (ys * (2 * 1) + 0 * d' < 2 ^ t.bits → a3 = ys * (2 * 1) + 0 * d') ∧
      (t.checked = true → ys * (2 * 1) + 0 * d' < 2 ^ t.bits))
    (h4 : (ys * (2 * 1 + 1) + 0 * d' < 2 ^ t.bits → a4 = ys * (2 * 1 + 1) + 0 * d') ∧
      (t.checked = true → ys * (2 * 1 + 1) + 0 * d' < 2 ^ t.bits)) :
    t.checked ≠ true ∧ ¬ (a1 ≤ sl ∧ a3 ≤ yl) := by
  rw [Nat.zero_mul, Nat.add_zero] at h1 h2 h3' h4
  have := hs.le; have := hs.twice; have := hy.le; have := hy.twice
  have e1 := h1.1 (by omega)
  have e3 := h3'.1 (by omega)
  refine ⟨fun hc => ?_, by omega⟩
  have := h2.2 hc
  have := h4.2 hc
  omega

namespace Sse2

open Verif.Simd

variable {S X : Prop} {t : Target}

theorem rgb_to_nv12_sse2_far (s : Sampler) (c : Colorimetry) {w h ss ys uvs : Nat} {src : Buf}
    {yp uvp : Dst} (hw : 0 < w) (hwk : w % 4 = 0) (h4 : 4 ≤ h) (hb : 256 ≤ 2 ^ t.bits)
    (hs : Near t src.len ss) (hy : Near t yp.len ys) (hu : Near t uvp.len uvs)
    (h3 : 2 ^ t.bits ≤ 3 * ss ∨ 2 ^ t.bits ≤ 3 * ys) (hX : t.checked = true → X)
    (hS : S → t.checked = true ∧ Ext src.len ss (s.pf.depth * (w - 4) + 16) 2 ∧ Ext yp.len ys w 2 ∧
      Ext uvp.len uvs w 1) :
    K.Wp S X (rgb_to_nv12_sse2 (wg_index t) s s.pf.depth c w h ss src ys uvs yp uvp)
      (fun _ => False) := by
  refine K.Wp.second (n := h / 2) (Nat.le_div_iff_mul_le (by omega) |>.2 h4)
    (Q := fun _ => Ext src.len ss (s.pf.depth * (w - 4) + 16) 2 ∧ Ext yp.len ys w 2 ∧
      Ext uvp.len uvs w 1) ?_ (K.Wp.never (Nat.div_pos (by simp only [RGB_TO_YUV_WAVES]; omega) (by simp only [RGB_TO_YUV_WAVES]; omega)) ?_)
  · have e := rgb_to_nv12_sse2_agrees (t := t) (w := w) s c (h := 2) hb hs.close hy.close hu.close
      (fun h => absurd h (by omega))
    have := rgb_to_nv12_sse2_wp (S := S) (X := X) s c (h := 2) hw (by omega) hwk (by omega)
      (fun h => (hS h).2)
    rw [← e] at this
    exact this
  · simp only [K.liftM_eq]
    refine K.Wp.bind (K.Wp.index hX) fun a1 h1' => ?_
    refine K.Wp.bind (K.Wp.index hX) fun a2 h2' => ?_
    refine K.Wp.bind (K.Wp.index hX) fun a3 h3' => ?_
    refine K.Wp.bind (K.Wp.index hX) fun a4 h4' => ?_
    refine K.Wp.bind (K.Wp.index hX) fun a5 h5' => ?_
    obtain ⟨hc, hf⟩ := too_wide hs hy h3 h1' h2' h3' h4'
    have no : ¬ S := fun h => hc (hS h).1
    unfold rgb_to_yuv_4x
    refine K.Wp.bind (unpack3_wp fun h => (no h).elim) fun _ l1 => ?_
    exact K.Wp.bind (pack_i32_4x_wp fun h => (no h).elim) fun _ l2 => absurd ⟨by omega, by omega⟩ hf

theorem rgb_to_i420_sse2_far (s : Sampler) (c : Colorimetry) {w h ss ys us vs : Nat} {src : Buf}
    {yp up vp : Dst} (hw : 0 < w) (hwk : w % 4 = 0) (h4 : 4 ≤ h) (hb : 256 ≤ 2 ^ t.bits)
    (hs : Near t src.len ss) (hy : Near t yp.len ys) (hu : Near t up.len us) (hv : Near t vp.len vs)
    (h3 : 2 ^ t.bits ≤ 3 * ss ∨ 2 ^ t.bits ≤ 3 * ys) (hX : t.checked = true → X)
    (hS : S → t.checked = true ∧ Ext src.len ss (s.pf.depth * (w - 4) + 16) 2 ∧ Ext yp.len ys w 2 ∧
      Ext up.len us (w / 2) 1 ∧ Ext vp.len vs (w / 2) 1) :
    K.Wp S X (rgb_to_i420_sse2 (wg_index t) s s.pf.depth c w h ss src ys us vs yp up vp)
      (fun _ => False) := by
  refine K.Wp.second (n := h / 2) (Nat.le_div_iff_mul_le (by omega) |>.2 h4)
    (Q := fun _ => Ext src.len ss (s.pf.depth * (w - 4) + 16) 2 ∧ Ext yp.len ys w 2 ∧
      Ext up.len us (w / 2) 1 ∧ Ext vp.len vs (w / 2) 1) ?_ (K.Wp.never (Nat.div_pos (by simp only [RGB_TO_YUV_WAVES]; omega) (by simp only [RGB_TO_YUV_WAVES]; omega)) ?_)
  · have e := rgb_to_i420_sse2_agrees (t := t) (w := w) s c (h := 2) hb hs.close hy.close hu.close hv.close
      (fun h => absurd h (by omega))
    have := rgb_to_i420_sse2_wp (S := S) (X := X) s c (h := 2) hw (by omega) hwk (by omega)
      (fun h => (hS h).2)
    rw [← e] at this
    exact this
  · simp only [K.liftM_eq]
    refine K.Wp.bind (K.Wp.index hX) fun a1 h1' => ?_
    refine K.Wp.bind (K.Wp.index hX) fun a2 h2' => ?_
    refine K.Wp.bind (K.Wp.index hX) fun a3 h3' => ?_
    refine K.Wp.bind (K.Wp.index hX) fun a4 h4' => ?_
    refine K.Wp.bind (K.Wp.index hX) fun a5 h5' => ?_
    refine K.Wp.bind (K.Wp.index hX) fun a6 h6' => ?_
    obtain ⟨hc, hf⟩ := too_wide hs hy h3 h1' h2' h3' h4'
    have no : ¬ S := fun h => hc (hS h).1
    unfold rgb_to_i420_4x
    refine K.Wp.bind (unpack3_wp fun h => (no h).elim) fun _ l1 => ?_
    exact K.Wp.bind (pack_i32_4x_wp fun h => (no h).elim) fun _ l2 => absurd ⟨by omega, by omega⟩ hf

theorem rgb_nv12_far (s : Sampler) (c : Colorimetry) {w h ss ys uvs : Nat} {src : Buf}
    {yp uvp : Dst} (hw : w < 2 ^ 32) (hv0 : 0 < encode_part s.pf.depth w) (h4 : 4 ≤ h)
    (hb : 256 ≤ 2 ^ t.bits) (hs : Near t src.len ss) (hy : Near t yp.len ys) (hu : Near t uvp.len uvs)
    (h3 : 2 ^ t.bits ≤ 3 * ss ∨ 2 ^ t.bits ≤ 3 * ys) (hX : t.checked = true → X)
    (hS : S → t.checked = true ∧ Ext src.len ss (s.pf.depth * (encode_part s.pf.depth w - 4) + 16) 2 ∧
      Ext yp.len ys (encode_part s.pf.depth w) 2 ∧
      Ext uvp.len uvs (encode_part s.pf.depth w) 1) :
    K.Wp S X (rgb_nv12 (wg_index t) s s.pf.depth c w h ss src ys uvs yp uvp)
      (fun _ => False) := by
  have hle := encode_part_le s hw
  exact K.Wp.stuck (c := encode_part s.pf.depth w > 0) hv0 (rgb_to_nv12_sse2_far s c hv0 (hle.2) h4 (by have := hle.1; omega) hs hy hu h3 hX hS)

theorem rgb_i420_far (s : Sampler) (c : Colorimetry) {w h ss ys us vs : Nat} {src : Buf}
    {yp up vp : Dst} (hw : w < 2 ^ 32) (hv0 : 0 < encode_part s.pf.depth w) (h4 : 4 ≤ h)
    (hb : 256 ≤ 2 ^ t.bits) (hs : Near t src.len ss) (hy : Near t yp.len ys) (hu : Near t up.len us) (hv : Near t vp.len vs)
    (h3 : 2 ^ t.bits ≤ 3 * ss ∨ 2 ^ t.bits ≤ 3 * ys) (hX : t.checked = true → X)
    (hS : S → t.checked = true ∧ Ext src.len ss (s.pf.depth * (encode_part s.pf.depth w - 4) + 16) 2 ∧
      Ext yp.len ys (encode_part s.pf.depth w) 2 ∧
      Ext up.len us (encode_part s.pf.depth w / 2) 1 ∧ Ext vp.len vs (encode_part s.pf.depth w / 2) 1) :
    K.Wp S X (rgb_i420 (wg_index t) s s.pf.depth c w h ss src ys us vs yp up vp)
      (fun _ => False) := by
  have hle := encode_part_le s hw
  exact K.Wp.stuck (c := encode_part s.pf.depth w > 0) hv0 (rgb_to_i420_sse2_far s c hv0 (hle.2) h4 (by have := hle.1; omega) hs hy hu hv h3 hX hS)

end Sse2

namespace Avx2

open Verif.Simd

variable {S X : Prop} {t : Target}

theorem rgb_to_nv12_avx2_far (s : Sampler) (c : Colorimetry) {w h ss ys uvs : Nat} {src : Buf}
    {yp uvp : Dst} (hw : 0 < w) (hwk : w % 8 = 0) (h4 : 4 ≤ h) (hb : 256 ≤ 2 ^ t.bits)
    (hs : Near t src.len ss) (hy : Near t yp.len ys) (hu : Near t uvp.len uvs)
    (h3 : 2 ^ t.bits ≤ 3 * ss ∨ 2 ^ t.bits ≤ 3 * ys) (hX : t.checked = true → X)
    (hS : S → t.checked = true ∧ Ext src.len ss (s.pf.depth * (w - 8) + 32) 2 ∧ Ext yp.len ys w 2 ∧
      Ext uvp.len uvs w 1) :
    K.Wp S X (rgb_to_nv12_avx2 (wg_index t) s s.pf.depth c w h ss src ys uvs yp uvp)
      (fun _ => False) := by
  refine K.Wp.second (n := h / 2) (Nat.le_div_iff_mul_le (by omega) |>.2 h4)
    (Q := fun _ => Ext src.len ss (s.pf.depth * (w - 8) + 32) 2 ∧ Ext yp.len ys w 2 ∧
      Ext uvp.len uvs w 1) ?_ (K.Wp.never (Nat.div_pos (by simp only [RGB_TO_YUV_WAVES, LANE_COUNT, Nat.reduceDiv]; omega) (by simp only [RGB_TO_YUV_WAVES, LANE_COUNT, Nat.reduceDiv]; omega)) ?_)
  · have e := rgb_to_nv12_avx2_agrees (t := t) (w := w) s c (h := 2) hb hs.close hy.close hu.close
      (fun h => absurd h (by omega))
    have := rgb_to_nv12_avx2_wp (S := S) (X := X) s c (h := 2) hw (by omega) hwk (by omega)
      (fun h => (hS h).2)
    rw [← e] at this
    exact this
  · simp only [K.liftM_eq]
    refine K.Wp.bind (K.Wp.index hX) fun a1 h1' => ?_
    refine K.Wp.bind (K.Wp.index hX) fun a2 h2' => ?_
    refine K.Wp.bind (K.Wp.index hX) fun a3 h3' => ?_
    refine K.Wp.bind (K.Wp.index hX) fun a4 h4' => ?_
    refine K.Wp.bind (K.Wp.index hX) fun a5 h5' => ?_
    obtain ⟨hc, hf⟩ := too_wide hs hy h3 h1' h2' h3' h4'
    have no : ¬ S := fun h => hc (hS h).1
    unfold rgb_to_yuv_8x
    refine K.Wp.bind (unpack3_wp fun h => (no h).elim) fun _ l1 => ?_
    exact K.Wp.bind (pack_i32_8x_wp fun h => (no h).elim) fun _ l2 => absurd ⟨by omega, by omega⟩ hf

theorem rgb_to_i420_avx2_far (s : Sampler) (c : Colorimetry) {w h ss ys us vs : Nat} {src : Buf}
    {yp up vp : Dst} (hw : 0 < w) (hwk : w % 8 = 0) (h4 : 4 ≤ h) (hb : 256 ≤ 2 ^ t.bits)
    (hs : Near t src.len ss) (hy : Near t yp.len ys) (hu : Near t up.len us) (hv : Near t vp.len vs)
    (h3 : 2 ^ t.bits ≤ 3 * ss ∨ 2 ^ t.bits ≤ 3 * ys) (hX : t.checked = true → X)
    (hS : S → t.checked = true ∧ Ext src.len ss (s.pf.depth * (w - 8) + 32) 2 ∧ Ext yp.len ys w 2 ∧
      Ext up.len us (w / 2) 1 ∧ Ext vp.len vs (w / 2) 1) :
    K.Wp S X (rgb_to_i420_avx2 (wg_index t) s s.pf.depth c w h ss src ys us vs yp up vp)
      (fun _ => False) := by
  refine K.Wp.second (n := h / 2) (Nat.le_div_iff_mul_le (by omega) |>.2 h4)
    (Q := fun _ => Ext src.len ss (s.pf.depth * (w - 8) + 32) 2 ∧ Ext yp.len ys w 2 ∧
      Ext up.len us (w / 2) 1 ∧ Ext vp.len vs (w / 2) 1) ?_ (K.Wp.never (Nat.div_pos (by simp only [RGB_TO_YUV_WAVES, LANE_COUNT, Nat.reduceDiv]; omega) (by simp only [RGB_TO_YUV_WAVES, LANE_COUNT, Nat.reduceDiv]; omega)) ?_)
  · have e := rgb_to_i420_avx2_agrees (t := t) (w := w) s c (h := 2) hb hs.close hy.close hu.close hv.close
      (fun h => absurd h (by omega))
    have := rgb_to_i420_avx2_wp (S := S) (X := X) s c (h := 2) hw (by omega) hwk (by omega)
      (fun h => (hS h).2)
    rw [← e] at this
    exact this
  · simp only [K.liftM_eq]
    refine K.Wp.bind (K.Wp.index hX) fun a1 h1' => ?_
    refine K.Wp.bind (K.Wp.index hX) fun a2 h2' => ?_
    refine K.Wp.bind (K.Wp.index hX) fun a3 h3' => ?_
    refine K.Wp.bind (K.Wp.index hX) fun a4 h4' => ?_
    refine K.Wp.bind (K.Wp.index hX) fun a5 h5' => ?_
    refine K.Wp.bind (K.Wp.index hX) fun a6 h6' => ?_
    obtain ⟨hc, hf⟩ := too_wide hs hy h3 h1' h2' h3' h4'
    have no : ¬ S := fun h => hc (hS h).1
    unfold rgb_to_i420_8x
    refine K.Wp.bind (unpack3_wp fun h => (no h).elim) fun _ l1 => ?_
    exact K.Wp.bind (pack_i32_8x_wp fun h => (no h).elim) fun _ l2 => absurd ⟨by omega, by omega⟩ hf

theorem rgb_nv12_far (s : Sampler) (c : Colorimetry) {w h ss ys uvs : Nat} {src : Buf}
    {yp uvp : Dst} (hw : w < 2 ^ 32) (hv0 : 0 < encode_part s.pf.depth w) (h4 : 4 ≤ h)
    (hb : 256 ≤ 2 ^ t.bits) (hs : Near t src.len ss) (hy : Near t yp.len ys) (hu : Near t uvp.len uvs)
    (h3 : 2 ^ t.bits ≤ 3 * ss ∨ 2 ^ t.bits ≤ 3 * ys) (hX : t.checked = true → X)
    (hS : S → t.checked = true ∧ Ext src.len ss (s.pf.depth * (encode_part s.pf.depth w - 8) + 32) 2 ∧
      Ext yp.len ys (encode_part s.pf.depth w) 2 ∧
      Ext uvp.len uvs (encode_part s.pf.depth w) 1) :
    K.Wp S X (rgb_nv12 (wg_index t) s s.pf.depth c w h ss src ys uvs yp uvp)
      (fun _ => False) := by
  have hle := encode_part_le s hw
  exact K.Wp.stuck (c := encode_part s.pf.depth w > 0) hv0 (rgb_to_nv12_avx2_far s c hv0 (hle.2) h4 (by have := hle.1; omega) hs hy hu h3 hX hS)

theorem rgb_i420_far (s : Sampler) (c : Colorimetry) {w h ss ys us vs : Nat} {src : Buf}
    {yp up vp : Dst} (hw : w < 2 ^ 32) (hv0 : 0 < encode_part s.pf.depth w) (h4 : 4 ≤ h)
    (hb : 256 ≤ 2 ^ t.bits) (hs : Near t src.len ss) (hy : Near t yp.len ys) (hu : Near t up.len us) (hv : Near t vp.len vs)
    (h3 : 2 ^ t.bits ≤ 3 * ss ∨ 2 ^ t.bits ≤ 3 * ys) (hX : t.checked = true → X)
    (hS : S → t.checked = true ∧ Ext src.len ss (s.pf.depth * (encode_part s.pf.depth w - 8) + 32) 2 ∧
      Ext yp.len ys (encode_part s.pf.depth w) 2 ∧
      Ext up.len us (encode_part s.pf.depth w / 2) 1 ∧ Ext vp.len vs (encode_part s.pf.depth w / 2) 1) :
    K.Wp S X (rgb_i420 (wg_index t) s s.pf.depth c w h ss src ys us vs yp up vp)
      (fun _ => False) := by
  have hle := encode_part_le s hw
  exact K.Wp.stuck (c := encode_part s.pf.depth w > 0) hv0 (rgb_to_i420_avx2_far s c hv0 (hle.2) h4 (by have := hle.1; omega) hs hy hu hv h3 hX hS)

end Avx2

namespace Neon

open Verif.Simd

variable {S X : Prop} {t : Target}

theorem rgb_to_nv12_neon_far (s : Sampler) (c : Colorimetry) {w h ss ys uvs : Nat} {src : Buf}
    {yp uvp : Dst} (hw : 0 < w) (hwk : w % 8 = 0) (h4 : 4 ≤ h) (hb : 256 ≤ 2 ^ t.bits)
    (hs : Near t src.len ss) (hy : Near t yp.len ys) (hu : Near t uvp.len uvs)
    (h3 : 2 ^ t.bits ≤ 3 * ss ∨ 2 ^ t.bits ≤ 3 * ys) (hX : t.checked = true → X)
    (hS : S → t.checked = true ∧ Ext src.len ss (w * s.pf.depth) 2 ∧ Ext yp.len ys w 2 ∧
      Ext uvp.len uvs w 1) :
    K.Wp S X (rgb_to_nv12_neon (wg_index t) s s.pf.depth c w h ss src ys uvs yp uvp)
      (fun _ => False) := by
  refine K.Wp.second (n := h / 2) (Nat.le_div_iff_mul_le (by omega) |>.2 h4)
    (Q := fun _ => Ext src.len ss (w * s.pf.depth) 2 ∧ Ext yp.len ys w 2 ∧
      Ext uvp.len uvs w 1) ?_ (K.Wp.never (Nat.div_pos (by simp only [RGB_TO_YUV_WAVES, RGB_TO_YUV_WG_SIZE, LANE_COUNT, Nat.reduceDiv]; omega) (by simp only [RGB_TO_YUV_WAVES, RGB_TO_YUV_WG_SIZE, LANE_COUNT, Nat.reduceDiv]; omega)) ?_)
  · have e := rgb_to_nv12_neon_agrees (t := t) (w := w) s c (h := 2) hb hs.close hy.close hu.close
      (fun h => absurd h (by omega))
    have := rgb_to_nv12_neon_wp (S := S) (X := X) s c (h := 2) hw (by omega) hwk (by omega)
      (fun h => (hS h).2)
    rw [← e] at this
    exact this
  · simp only [K.liftM_eq]
    refine K.Wp.bind (K.Wp.index hX) fun a1 h1' => ?_
    refine K.Wp.bind (K.Wp.index hX) fun a2 h2' => ?_
    refine K.Wp.bind (K.Wp.index hX) fun a3 h3' => ?_
    refine K.Wp.bind (K.Wp.index hX) fun a4 h4' => ?_
    refine K.Wp.bind (K.Wp.index hX) fun a5 h5' => ?_
    obtain ⟨hc, hf⟩ := too_wide hs hy h3 h1' h2' h3' h4'
    have no : ¬ S := fun h => hc (hS h).1
    unfold rgb_to_nv12_8x rgb_to_y_and_avg_uv_8x
    simp only [bind_assoc, pure_bind]
    refine K.Wp.bind (load_rgb_8x_wp fun h => (no h).elim) fun _ l1 => ?_
    exact K.Wp.bind (vst1_u8_wp fun h => (no h).elim) fun _ l2 => absurd ⟨by omega, by omega⟩ hf

theorem rgb_to_i420_neon_far (s : Sampler) (c : Colorimetry) {w h ss ys us vs : Nat} {src : Buf}
    {yp up vp : Dst} (hw : 0 < w) (hwk : w % 8 = 0) (h4 : 4 ≤ h) (hb : 256 ≤ 2 ^ t.bits)
    (hs : Near t src.len ss) (hy : Near t yp.len ys) (hu : Near t up.len us) (hv : Near t vp.len vs)
    (h3 : 2 ^ t.bits ≤ 3 * ss ∨ 2 ^ t.bits ≤ 3 * ys) (hX : t.checked = true → X)
    (hS : S → t.checked = true ∧ Ext src.len ss (w * s.pf.depth) 2 ∧ Ext yp.len ys w 2 ∧
      Ext up.len us (w / 2) 1 ∧ Ext vp.len vs (w / 2) 1) :
    K.Wp S X (rgb_to_i420_neon (wg_index t) s s.pf.depth c w h ss src ys us vs yp up vp)
      (fun _ => False) := by
  refine K.Wp.second (n := h / 2) (Nat.le_div_iff_mul_le (by omega) |>.2 h4)
    (Q := fun _ => Ext src.len ss (w * s.pf.depth) 2 ∧ Ext yp.len ys w 2 ∧
      Ext up.len us (w / 2) 1 ∧ Ext vp.len vs (w / 2) 1) ?_ (K.Wp.never (Nat.div_pos (by simp only [RGB_TO_YUV_WAVES, RGB_TO_YUV_WG_SIZE, LANE_COUNT, Nat.reduceDiv]; omega) (by simp only [RGB_TO_YUV_WAVES, RGB_TO_YUV_WG_SIZE, LANE_COUNT, Nat.reduceDiv]; omega)) ?_)
  · have e := rgb_to_i420_neon_agrees (t := t) (w := w) s c (h := 2) hb hs.close hy.close hu.close hv.close
      (fun h => absurd h (by omega))
    have := rgb_to_i420_neon_wp (S := S) (X := X) s c (h := 2) hw (by omega) hwk (by omega)
      (fun h => (hS h).2)
    rw [← e] at this
    exact this
  · simp only [K.liftM_eq]
    refine K.Wp.bind (K.Wp.index hX) fun a1 h1' => ?_
    refine K.Wp.bind (K.Wp.index hX) fun a2 h2' => ?_
    refine K.Wp.bind (K.Wp.index hX) fun a3 h3' => ?_
    refine K.Wp.bind (K.Wp.index hX) fun a4 h4' => ?_
    refine K.Wp.bind (K.Wp.index hX) fun a5 h5' => ?_
    refine K.Wp.bind (K.Wp.index hX) fun a6 h6' => ?_
    obtain ⟨hc, hf⟩ := too_wide hs hy h3 h1' h2' h3' h4'
    have no : ¬ S := fun h => hc (hS h).1
    unfold rgb_to_i420_8x rgb_to_y_and_avg_uv_8x
    simp only [bind_assoc, pure_bind]
    refine K.Wp.bind (load_rgb_8x_wp fun h => (no h).elim) fun _ l1 => ?_
    exact K.Wp.bind (vst1_u8_wp fun h => (no h).elim) fun _ l2 => absurd ⟨by omega, by omega⟩ hf

theorem rgb_nv12_far (s : Sampler) (c : Colorimetry) {w h ss ys uvs : Nat} {src : Buf}
    {yp uvp : Dst} (hw : w < 2 ^ 32) (hv0 : 0 < lower_multiple_of_pot w RGB_TO_YUV_WAVES) (h4 : 4 ≤ h)
    (hb : 256 ≤ 2 ^ t.bits) (hs : Near t src.len ss) (hy : Near t yp.len ys) (hu : Near t uvp.len uvs)
    (h3 : 2 ^ t.bits ≤ 3 * ss ∨ 2 ^ t.bits ≤ 3 * ys) (hX : t.checked = true → X)
    (hS : S → t.checked = true ∧ Ext src.len ss (lower_multiple_of_pot w RGB_TO_YUV_WAVES * s.pf.depth) 2 ∧
      Ext yp.len ys (lower_multiple_of_pot w RGB_TO_YUV_WAVES) 2 ∧
      Ext uvp.len uvs (lower_multiple_of_pot w RGB_TO_YUV_WAVES) 1) :
    K.Wp S X (rgb_nv12 (wg_index t) s s.pf.depth c w h ss src ys uvs yp uvp)
      (fun _ => False) := by
  have hle : lower_multiple_of_pot w RGB_TO_YUV_WAVES = 8 * (w / 8) :=
    lower_multiple (k := 3) hw (by omega)
  exact K.Wp.stuck (c := lower_multiple_of_pot w RGB_TO_YUV_WAVES > 0) hv0 (rgb_to_nv12_neon_far s c hv0 (by omega) h4 (by omega) hs hy hu h3 hX hS)

theorem rgb_i420_far (s : Sampler) (c : Colorimetry) {w h ss ys us vs : Nat} {src : Buf}
    {yp up vp : Dst} (hw : w < 2 ^ 32) (hv0 : 0 < lower_multiple_of_pot w RGB_TO_YUV_WAVES) (h4 : 4 ≤ h)
    (hb : 256 ≤ 2 ^ t.bits) (hs : Near t src.len ss) (hy : Near t yp.len ys) (hu : Near t up.len us) (hv : Near t vp.len vs)
    (h3 : 2 ^ t.bits ≤ 3 * ss ∨ 2 ^ t.bits ≤ 3 * ys) (hX : t.checked = true → X)
    (hS : S → t.checked = true ∧ Ext src.len ss (lower_multiple_of_pot w RGB_TO_YUV_WAVES * s.pf.depth) 2 ∧
      Ext yp.len ys (lower_multiple_of_pot w RGB_TO_YUV_WAVES) 2 ∧
      Ext up.len us (lower_multiple_of_pot w RGB_TO_YUV_WAVES / 2) 1 ∧ Ext vp.len vs (lower_multiple_of_pot w RGB_TO_YUV_WAVES / 2) 1) :
    K.Wp S X (rgb_i420 (wg_index t) s s.pf.depth c w h ss src ys us vs yp up vp)
      (fun _ => False) := by
  have hle : lower_multiple_of_pot w RGB_TO_YUV_WAVES = 8 * (w / 8) :=
    lower_multiple (k := 3) hw (by omega)
  exact K.Wp.stuck (c := lower_multiple_of_pot w RGB_TO_YUV_WAVES > 0) hv0 (rgb_to_i420_neon_far s c hv0 (by omega) h4 (by omega) hs hy hu hv h3 hX hS)

end Neon

end Verif
