import Verif.Lemmas.WpRgb
/-!
# Vector part and portable remainder: exactly when they stay in bounds

`V` is the vector kernel applied to the first `v` columns. The slices taken for the remainder never
panic, because the vector kernel has touched all bytes before them.
-/

namespace Verif

theorem Ext.le {len stride row row' h : Nat} (e : Ext len stride row h) (h' : row' ≤ row) :
    Ext len stride row' h := by unfold Ext at *; omega

theorem Ext.shift {len stride row h : Nat} {x : Nat} (e : Ext len stride (x + row) h) :
    Ext (len - x) stride row h := by unfold Ext at *; omega

theorem Ext.join {len stride row h : Nat} {x : Nat} (hx : x ≤ len) (e : Ext (len - x) stride row h) :
    Ext len stride (x + row) h := by unfold Ext at *; omega

theorem Ext.row_le {len stride row h : Nat} (e : Ext len stride row h) : row ≤ len := by
  unfold Ext at *; omega

variable {S X : Prop}

theorem K.Wp.bufFrom {b : Buf} {n : Nat} (h : n ≤ b.len) :
    K.Wp S X (K.lift (b.from n)) (fun b' => b'.len = b.len - n) :=
  K.Wp.lift (v := ⟨b.len - n, fun i => b.bytes (n + i)⟩) (by rw [Buf.from, if_pos h]) rfl

theorem K.Wp.dstFrom {b : Dst} {n : Nat} (h : n ≤ b.len) :
    K.Wp S X (K.lift (b.from n)) (fun b' => b'.len = b.len - n) :=
  K.Wp.lift (v := ⟨b.plane, b.off + n, b.len - n⟩) (by rw [Dst.from, if_pos h]) rfl

/-- An optional first part. -/
theorem K.Wp.part {β : Type} {c : Prop} [Decidable c] {V : K Unit} {f : Unit → K β} {P : Prop}
    {Q : β → Prop} (hv : c → K.Wp S X V (fun _ => P)) (hf : (c → P) → K.Wp S X (f ()) Q) :
    K.Wp S X (if c then (do let r ← V; f r) else f ()) Q := by
  split
  · rename_i hc
    exact K.Wp.bind (hv hc) fun _ h => hf fun _ => h
  · rename_i hc
    exact hf fun h => absurd h hc

/-- Bytes of a source line from its beginning to the last byte an encoder reads: `vend` bytes by the
vector kernel, which handles the first `v` columns, then the remaining pixels byte per byte. -/
def encEnd (s : Sampler) (v vend w : Nat) : Nat :=
  max (if 0 < v then vend else 0) (if v < w then s.pf.depth * (w - 1) + s.reads else 0)

theorem encEnd_v {s : Sampler} {v vend w : Nat} (h : 0 < v) : vend ≤ encEnd s v vend w := by
  unfold encEnd; rw [if_pos h]; exact Nat.le_max_left ..

theorem encEnd_w {s : Sampler} {v vend w : Nat} (h : v < w) :
    v * s.pf.depth + (s.pf.depth * (w - v - 1) + s.reads) ≤ encEnd s v vend w := by
  unfold encEnd
  rw [if_pos h]
  refine le_trans ?_ (Nat.le_max_right ..)
  rw [Nat.mul_comm v, ← Nat.add_assoc, ← Nat.mul_add, show v + (w - v - 1) = w - 1 by omega]

theorem encEnd_le {s : Sampler} {v vend w n : Nat} (h1 : 0 < v → vend ≤ n)
    (h2 : v < w → v * s.pf.depth + (s.pf.depth * (w - v - 1) + s.reads) ≤ n) :
    encEnd s v vend w ≤ n := by
  unfold encEnd
  refine max_le ?_ ?_
  · split
    · exact h1 ‹_›
    · omega
  · split
    · have h := h2 ‹_›
      rwa [Nat.mul_comm v, ← Nat.add_assoc, ← Nat.mul_add, show v + (w - v - 1) = w - 1 by omega] at h
    · omega

/-- A line in two parts. -/
theorem ext_parts {len stride h v w : Nat} (hw : 0 < w) (hvw : v ≤ w)
    (h1 : 0 < v → Ext len stride v h)
    (h2 : v < w → Ext len stride (v + (w - v)) h) : Ext len stride w h := by
  rcases Nat.lt_or_ge v w with h | h
  · have := h2 h; rwa [show v + (w - v) = w by omega] at this
  · have := h1 (by omega); rwa [show v = w by omega] at this

theorem tail_rgb_nv12_wp (s : Sampler) (c : Colorimetry) {w h v vend ss ys uvs : Nat} {src : Buf}
    {yp uvp : Dst} {V : K Unit} (hw : 0 < w) (hh : 0 < h) (hw2 : w % 2 = 0) (hh2 : h % 2 = 0)
    (hvw : v ≤ w) (hv2 : v % 2 = 0) (hve : 0 < v → v * s.pf.depth ≤ vend)
    (HV : 0 < v → (S → Ext src.len ss vend h ∧ Ext yp.len ys v h ∧ Ext uvp.len uvs v (h / 2)) →
      K.Wp S X V (fun _ => Ext src.len ss vend h ∧ Ext yp.len ys v h ∧ Ext uvp.len uvs v (h / 2)))
    (o : S → Ext src.len ss (encEnd s v vend w) h ∧ Ext yp.len ys w h ∧ Ext uvp.len uvs w (h / 2)) :
    K.Wp S X (do
      if v > 0 then V
      if w - v > 0 then do
        X86.rgb_to_nv12 exactIx s s.pf.depth c (w - v) h ss (← src.from (v * s.pf.depth)) ys uvs
          (← yp.from v) (← uvp.from v)) (fun _ =>
      Ext src.len ss (encEnd s v vend w) h ∧ Ext yp.len ys w h ∧ Ext uvp.len uvs w (h / 2)) := by
  refine K.Wp.part (P := Ext src.len ss vend h ∧ Ext yp.len ys v h ∧
    Ext uvp.len uvs v (h / 2)) ?_ fun hv => ?_
  · refine fun hpos => HV hpos fun hs => ?_
    obtain ⟨h1, h2, h3⟩ := o hs
    exact ⟨h1.le (encEnd_v hpos), h2.le hvw, h3.le hvw⟩
  · split
    · rename_i hsp
      have b1 : v * s.pf.depth ≤ src.len := by
        rcases Nat.eq_zero_or_pos v with e | e
        · rw [e]; simp
        · exact le_trans (hve e) (hv e).1.row_le
      have b2 : v ≤ yp.len := by
        rcases Nat.eq_zero_or_pos v with e | e
        · omega
        · exact (hv e).2.1.row_le
      have b3 : v ≤ uvp.len := by
        rcases Nat.eq_zero_or_pos v with e | e
        · omega
        · exact (hv e).2.2.row_le
      simp only [K.liftM_eq]
      refine K.Wp.bind (K.Wp.bufFrom b1) fun src' e1 => ?_
      refine K.Wp.bind (K.Wp.dstFrom b2) fun yp' e2 => ?_
      refine K.Wp.bind (K.Wp.dstFrom b3) fun uvp' e3 => ?_
      refine (X86.rgb_to_nv12_wp s c (w := w - v) (by omega) hh (by omega) hh2 ?_).mono ?_
      · intro hs
        rw [e1, e2, e3]
        obtain ⟨h1, h2, h3⟩ := o hs
        refine ⟨(h1.le (encEnd_w (by omega))).shift, (h2.le (by omega)).shift, (h3.le (by omega)).shift⟩
      · intro _ ⟨h1, h2, h3⟩
        rw [e1] at h1
        rw [e2] at h2
        rw [e3] at h3
        have h1 := h1.join b1
        refine ⟨?_, ext_parts hw hvw (fun hp => (hv hp).2.1) fun _ => h2.join b2,
          ext_parts hw hvw (fun hp => (hv hp).2.2) fun _ => h3.join b3⟩
        unfold Ext at h1 ⊢
        have := encEnd_le (s := s) (v := v) (vend := vend) (w := w) (n := src.len - ss * (h - 1))
          (fun hp => by have := (hv hp).1; unfold Ext at this; omega) (fun hp => by omega)
        omega
    · have hv := hv (by omega)
      have e : v = w := by omega
      refine K.Wp.pure ⟨hv.1.le (encEnd_le (fun _ => le_rfl) fun hp => by omega), ?_, ?_⟩
      · rw [← e]; exact hv.2.1
      · rw [← e]; exact hv.2.2

theorem tail_rgb_i420_wp (s : Sampler) (c : Colorimetry) {w h v vend ss ys us vs : Nat} {src : Buf}
    {yp up vp : Dst} {V : K Unit} (hw : 0 < w) (hh : 0 < h) (hw2 : w % 2 = 0) (hh2 : h % 2 = 0)
    (hvw : v ≤ w) (hv2 : v % 2 = 0) (hve : 0 < v → v * s.pf.depth ≤ vend)
    (HV : 0 < v → (S → Ext src.len ss vend h ∧ Ext yp.len ys v h ∧ Ext up.len us (v / 2) (h / 2) ∧
        Ext vp.len vs (v / 2) (h / 2)) →
      K.Wp S X V (fun _ => Ext src.len ss vend h ∧ Ext yp.len ys v h ∧
        Ext up.len us (v / 2) (h / 2) ∧ Ext vp.len vs (v / 2) (h / 2)))
    (o : S → Ext src.len ss (encEnd s v vend w) h ∧ Ext yp.len ys w h ∧
      Ext up.len us (w / 2) (h / 2) ∧ Ext vp.len vs (w / 2) (h / 2)) :
    K.Wp S X (do
      if v > 0 then V
      if w - v > 0 then do
        X86.rgb_to_i420 exactIx s s.pf.depth c (w - v) h ss (← src.from (v * s.pf.depth)) ys us vs
          (← yp.from v) (← up.from (v / 2)) (← vp.from (v / 2))) (fun _ =>
      Ext src.len ss (encEnd s v vend w) h ∧ Ext yp.len ys w h ∧
      Ext up.len us (w / 2) (h / 2) ∧ Ext vp.len vs (w / 2) (h / 2)) := by
  refine K.Wp.part (P := Ext src.len ss vend h ∧ Ext yp.len ys v h ∧
    Ext up.len us (v / 2) (h / 2) ∧ Ext vp.len vs (v / 2) (h / 2)) ?_ fun hv => ?_
  · refine fun hpos => HV hpos fun hs => ?_
    obtain ⟨h1, h2, h3, h4⟩ := o hs
    exact ⟨h1.le (encEnd_v hpos), h2.le hvw, h3.le (by omega), h4.le (by omega)⟩
  · split
    · rename_i hsp
      have b1 : v * s.pf.depth ≤ src.len := by
        rcases Nat.eq_zero_or_pos v with e | e
        · rw [e]; simp
        · exact le_trans (hve e) (hv e).1.row_le
      have b2 : v ≤ yp.len := by
        rcases Nat.eq_zero_or_pos v with e | e
        · omega
        · exact (hv e).2.1.row_le
      have b3 : v / 2 ≤ up.len := by
        rcases Nat.eq_zero_or_pos v with e | e
        · omega
        · exact (hv e).2.2.1.row_le
      have b4 : v / 2 ≤ vp.len := by
        rcases Nat.eq_zero_or_pos v with e | e
        · omega
        · exact (hv e).2.2.2.row_le
      simp only [K.liftM_eq]
      refine K.Wp.bind (K.Wp.bufFrom b1) fun src' e1 => ?_
      refine K.Wp.bind (K.Wp.dstFrom b2) fun yp' e2 => ?_
      refine K.Wp.bind (K.Wp.dstFrom b3) fun up' e3 => ?_
      refine K.Wp.bind (K.Wp.dstFrom b4) fun vp' e4 => ?_
      refine (X86.rgb_to_i420_wp s c (w := w - v) (by omega) hh (by omega) hh2 ?_).mono ?_
      · intro hs
        rw [e1, e2, e3, e4]
        obtain ⟨h1, h2, h3, h4⟩ := o hs
        refine ⟨(h1.le (encEnd_w (by omega))).shift, (h2.le (by omega)).shift, (h3.le (by omega)).shift,
          (h4.le (by omega)).shift⟩
      · intro _ ⟨h1, h2, h3, h4⟩
        rw [e1] at h1
        rw [e2] at h2
        rw [e3] at h3
        rw [e4] at h4
        have h1 := h1.join b1
        refine ⟨?_, ext_parts hw hvw (fun hp => (hv hp).2.1) fun _ => h2.join b2,
          (h3.join b3).le (by omega), (h4.join b4).le (by omega)⟩
        unfold Ext at h1 ⊢
        have := encEnd_le (s := s) (v := v) (vend := vend) (w := w) (n := src.len - ss * (h - 1))
          (fun hp => by have := (hv hp).1; unfold Ext at this; omega) (fun hp => by omega)
        omega
    · have hv := hv (by omega)
      have e : v = w := by omega
      refine K.Wp.pure ⟨hv.1.le (encEnd_le (fun _ => le_rfl) fun hp => by omega), ?_⟩
      rw [← e]; exact hv.2

theorem tail_rgb_i444_wp (s : Sampler) (c : Colorimetry) {w h v vend ss ys us vs : Nat} {src : Buf}
    {yp up vp : Dst} {V : K Unit} (hw : 0 < w) (hh : 0 < h)
    (hvw : v ≤ w) (hve : 0 < v → v * s.pf.depth ≤ vend)
    (HV : 0 < v → (S → Ext src.len ss vend h ∧ Ext yp.len ys v h ∧ Ext up.len us v h ∧
        Ext vp.len vs v h) →
      K.Wp S X V (fun _ => Ext src.len ss vend h ∧ Ext yp.len ys v h ∧
        Ext up.len us v h ∧ Ext vp.len vs v h))
    (o : S → Ext src.len ss (encEnd s v vend w) h ∧ Ext yp.len ys w h ∧
      Ext up.len us w h ∧ Ext vp.len vs w h) :
    K.Wp S X (do
      if v > 0 then V
      if w - v > 0 then do
        X86.rgb_to_i444 exactIx s s.pf.depth c (w - v) h ss (← src.from (v * s.pf.depth)) ys us vs
          (← yp.from v) (← up.from v) (← vp.from v)) (fun _ =>
      Ext src.len ss (encEnd s v vend w) h ∧ Ext yp.len ys w h ∧
      Ext up.len us w h ∧ Ext vp.len vs w h) := by
  refine K.Wp.part (P := Ext src.len ss vend h ∧ Ext yp.len ys v h ∧
    Ext up.len us v h ∧ Ext vp.len vs v h) ?_ fun hv => ?_
  · refine fun hpos => HV hpos fun hs => ?_
    obtain ⟨h1, h2, h3, h4⟩ := o hs
    exact ⟨h1.le (encEnd_v hpos), h2.le hvw, h3.le hvw, h4.le hvw⟩
  · split
    · rename_i hsp
      have b1 : v * s.pf.depth ≤ src.len := by
        rcases Nat.eq_zero_or_pos v with e | e
        · rw [e]; simp
        · exact le_trans (hve e) (hv e).1.row_le
      have b2 : v ≤ yp.len := by
        rcases Nat.eq_zero_or_pos v with e | e
        · omega
        · exact (hv e).2.1.row_le
      have b3 : v ≤ up.len := by
        rcases Nat.eq_zero_or_pos v with e | e
        · omega
        · exact (hv e).2.2.1.row_le
      have b4 : v ≤ vp.len := by
        rcases Nat.eq_zero_or_pos v with e | e
        · omega
        · exact (hv e).2.2.2.row_le
      simp only [K.liftM_eq]
      refine K.Wp.bind (K.Wp.bufFrom b1) fun src' e1 => ?_
      refine K.Wp.bind (K.Wp.dstFrom b2) fun yp' e2 => ?_
      refine K.Wp.bind (K.Wp.dstFrom b3) fun up' e3 => ?_
      refine K.Wp.bind (K.Wp.dstFrom b4) fun vp' e4 => ?_
      refine (X86.rgb_to_i444_wp s c (w := w - v) (by omega) hh ?_).mono ?_
      · intro hs
        rw [e1, e2, e3, e4]
        obtain ⟨h1, h2, h3, h4⟩ := o hs
        refine ⟨(h1.le (encEnd_w (by omega))).shift, (h2.le (by omega)).shift, (h3.le (by omega)).shift,
          (h4.le (by omega)).shift⟩
      · intro _ ⟨h1, h2, h3, h4⟩
        rw [e1] at h1
        rw [e2] at h2
        rw [e3] at h3
        rw [e4] at h4
        have h1 := h1.join b1
        refine ⟨?_, (h2.join b2).le (by omega), (h3.join b3).le (by omega), (h4.join b4).le (by omega)⟩
        unfold Ext at h1 ⊢
        have := encEnd_le (s := s) (v := v) (vend := vend) (w := w) (n := src.len - ss * (h - 1))
          (fun hp => by have := (hv hp).1; unfold Ext at this; omega) (fun hp => by omega)
        omega
    · have hv := hv (by omega)
      have e : v = w := by omega
      refine K.Wp.pure ⟨hv.1.le (encEnd_le (fun _ => le_rfl) fun hp => by omega), ?_⟩
      rw [← e]; exact hv.2

/-! ## Decoders -/

theorem tail_i444_rgb_wp (c : Colorimetry) (rev : Bool) {w h v ys us vs ds : Nat} {yb ub vb : Buf}
    {d : Dst} {V : K Unit} (hw : 0 < w) (hh : 0 < h) (hvw : v ≤ w)
    (HV : 0 < v → (S → Ext yb.len ys v h ∧ Ext ub.len us v h ∧ Ext vb.len vs v h ∧
        Ext d.len ds (v * 4) h) →
      K.Wp S X V (fun _ => Ext yb.len ys v h ∧ Ext ub.len us v h ∧ Ext vb.len vs v h ∧
        Ext d.len ds (v * 4) h))
    (o : S → Ext yb.len ys w h ∧ Ext ub.len us w h ∧ Ext vb.len vs w h ∧ Ext d.len ds (4 * w) h) :
    K.Wp S X (do
      if v > 0 then V
      if w - v > 0 then do
        X86.i444_to_bgra exactIx c rev (w - v) h ys us vs (← yb.from v) (← ub.from v) (← vb.from v) ds
          (← d.from (v * 4))) (fun _ =>
      Ext yb.len ys w h ∧ Ext ub.len us w h ∧ Ext vb.len vs w h ∧ Ext d.len ds (4 * w) h) := by
  refine K.Wp.part (P := Ext yb.len ys v h ∧ Ext ub.len us v h ∧ Ext vb.len vs v h ∧
        Ext d.len ds (v * 4) h) ?_ fun hv => ?_
  · refine fun hpos => HV hpos fun hs => ?_
    obtain ⟨h1, h2, h3, h4⟩ := o hs
    exact ⟨h1.le hvw, h2.le hvw, h3.le hvw, h4.le (by omega)⟩
  · split
    · rename_i hsp
      have b : v ≤ yb.len ∧ v ≤ ub.len ∧ v ≤ vb.len ∧ v * 4 ≤ d.len := by
        rcases Nat.eq_zero_or_pos v with e | e
        · omega
        · exact ⟨(hv e).1.row_le, (hv e).2.1.row_le, (hv e).2.2.1.row_le, (hv e).2.2.2.row_le⟩
      obtain ⟨b1, b2, b3, b4⟩ := b
      simp only [K.liftM_eq]
      refine K.Wp.bind (K.Wp.bufFrom b1) fun _ e1 => ?_
      refine K.Wp.bind (K.Wp.bufFrom b2) fun _ e2 => ?_
      refine K.Wp.bind (K.Wp.bufFrom b3) fun _ e3 => ?_
      refine K.Wp.bind (K.Wp.dstFrom b4) fun _ e4 => ?_
      refine (X86.i444_to_bgra_wp c rev (w := w - v) (by omega) hh ?_).mono ?_
      · intro hs
        rw [e1, e2, e3, e4]
        obtain ⟨h1, h2, h3, h4⟩ := o hs
        exact ⟨(h1.le (by omega)).shift, (h2.le (by omega)).shift, (h3.le (by omega)).shift,
          (h4.le (by omega)).shift⟩
      · intro _ ⟨h1, h2, h3, h4⟩
        rw [e1] at h1
        rw [e2] at h2
        rw [e3] at h3
        rw [e4] at h4
        exact ⟨(h1.join b1).le (by omega), (h2.join b2).le (by omega), (h3.join b3).le (by omega),
          (h4.join b4).le (by omega)⟩
    · have e : v = w := by omega
      have hv := hv (by omega)
      rw [Nat.mul_comm v, e] at hv
      exact K.Wp.pure hv

theorem tail_i420_rgb_wp (c : Colorimetry) (rev : Bool) {w h v ys us vs ds : Nat} {yb ub vb : Buf}
    {d : Dst} {V : K Unit} (hw : 0 < w) (hh : 0 < h) (hw2 : w % 2 = 0) (hh2 : h % 2 = 0) (hvw : v ≤ w)
    (hv2 : v % 2 = 0)
    (HV : 0 < v → (S → Ext yb.len ys v h ∧ Ext ub.len us (v / 2) (h / 2) ∧
        Ext vb.len vs (v / 2) (h / 2) ∧ Ext d.len ds (v * 4) h) →
      K.Wp S X V (fun _ => Ext yb.len ys v h ∧ Ext ub.len us (v / 2) (h / 2) ∧
        Ext vb.len vs (v / 2) (h / 2) ∧ Ext d.len ds (v * 4) h))
    (o : S → Ext yb.len ys w h ∧ Ext ub.len us (w / 2) (h / 2) ∧ Ext vb.len vs (w / 2) (h / 2) ∧
      Ext d.len ds (4 * w) h) :
    K.Wp S X (do
      if v > 0 then V
      if w - v > 0 then do
        X86.i420_to_bgra exactIx c rev (w - v) h ys us vs (← yb.from v) (← ub.from (v / 2))
          (← vb.from (v / 2)) ds (← d.from (v * 4))) (fun _ =>
      Ext yb.len ys w h ∧ Ext ub.len us (w / 2) (h / 2) ∧ Ext vb.len vs (w / 2) (h / 2) ∧
      Ext d.len ds (4 * w) h) := by
  refine K.Wp.part (P := Ext yb.len ys v h ∧ Ext ub.len us (v / 2) (h / 2) ∧
        Ext vb.len vs (v / 2) (h / 2) ∧ Ext d.len ds (v * 4) h) ?_ fun hv => ?_
  · refine fun hpos => HV hpos fun hs => ?_
    obtain ⟨h1, h2, h3, h4⟩ := o hs
    exact ⟨h1.le hvw, h2.le (by omega), h3.le (by omega), h4.le (by omega)⟩
  · split
    · rename_i hsp
      have b : v ≤ yb.len ∧ v / 2 ≤ ub.len ∧ v / 2 ≤ vb.len ∧ v * 4 ≤ d.len := by
        rcases Nat.eq_zero_or_pos v with e | e
        · omega
        · exact ⟨(hv e).1.row_le, (hv e).2.1.row_le, (hv e).2.2.1.row_le, (hv e).2.2.2.row_le⟩
      obtain ⟨b1, b2, b3, b4⟩ := b
      simp only [K.liftM_eq]
      refine K.Wp.bind (K.Wp.bufFrom b1) fun _ e1 => ?_
      refine K.Wp.bind (K.Wp.bufFrom b2) fun _ e2 => ?_
      refine K.Wp.bind (K.Wp.bufFrom b3) fun _ e3 => ?_
      refine K.Wp.bind (K.Wp.dstFrom b4) fun _ e4 => ?_
      refine (X86.i420_to_bgra_wp c rev (w := w - v) (by omega) hh (by omega) hh2 ?_).mono ?_
      · intro hs
        rw [e1, e2, e3, e4]
        obtain ⟨h1, h2, h3, h4⟩ := o hs
        exact ⟨(h1.le (by omega)).shift, (h2.le (by omega)).shift, (h3.le (by omega)).shift,
          (h4.le (by omega)).shift⟩
      · intro _ ⟨h1, h2, h3, h4⟩
        rw [e1] at h1
        rw [e2] at h2
        rw [e3] at h3
        rw [e4] at h4
        exact ⟨(h1.join b1).le (by omega), (h2.join b2).le (by omega), (h3.join b3).le (by omega),
          (h4.join b4).le (by omega)⟩
    · have e : v = w := by omega
      have hv := hv (by omega)
      rw [Nat.mul_comm v, e] at hv
      exact K.Wp.pure hv

theorem tail_nv12_bgra_wp (c : Colorimetry) (rev : Bool) {w h v ys uvs ds : Nat} {yb uvb : Buf}
    {d : Dst} {V : K Unit} (hw : 0 < w) (hh : 0 < h) (hw2 : w % 2 = 0) (hh2 : h % 2 = 0) (hvw : v ≤ w)
    (hv2 : v % 2 = 0)
    (HV : 0 < v → (S → Ext yb.len ys v h ∧ Ext uvb.len uvs v (h / 2) ∧ Ext d.len ds (v * 4) h) →
      K.Wp S X V (fun _ => Ext yb.len ys v h ∧ Ext uvb.len uvs v (h / 2) ∧ Ext d.len ds (v * 4) h))
    (o : S → Ext yb.len ys w h ∧ Ext uvb.len uvs w (h / 2) ∧ Ext d.len ds (4 * w) h) :
    K.Wp S X (do
      if v > 0 then V
      if w - v > 0 then do
        X86.nv12_to_bgra exactIx c rev (w - v) h ys uvs (← yb.from v) (← uvb.from v) ds
          (← d.from (v * 4))) (fun _ =>
      Ext yb.len ys w h ∧ Ext uvb.len uvs w (h / 2) ∧ Ext d.len ds (4 * w) h) := by
  refine K.Wp.part (P := Ext yb.len ys v h ∧ Ext uvb.len uvs v (h / 2) ∧
    Ext d.len ds (v * 4) h) ?_ fun hv => ?_
  · refine fun hpos => HV hpos fun hs => ?_
    obtain ⟨h1, h2, h3⟩ := o hs
    exact ⟨h1.le hvw, h2.le (by omega), h3.le (by omega)⟩
  · split
    · rename_i hsp
      have b : v ≤ yb.len ∧ v ≤ uvb.len ∧ v * 4 ≤ d.len := by
        rcases Nat.eq_zero_or_pos v with e | e
        · omega
        · exact ⟨(hv e).1.row_le, (hv e).2.1.row_le, (hv e).2.2.row_le⟩
      obtain ⟨b1, b2, b4⟩ := b
      simp only [K.liftM_eq]
      refine K.Wp.bind (K.Wp.bufFrom b1) fun _ e1 => ?_
      refine K.Wp.bind (K.Wp.bufFrom b2) fun _ e2 => ?_
      refine K.Wp.bind (K.Wp.dstFrom b4) fun _ e4 => ?_
      refine (X86.nv12_to_bgra_wp c rev (w := w - v) (by omega) hh (by omega) hh2 ?_).mono ?_
      · intro hs
        rw [e1, e2, e4]
        obtain ⟨h1, h2, h4⟩ := o hs
        exact ⟨(h1.le (by omega)).shift, (h2.le (by omega)).shift, (h4.le (by omega)).shift⟩
      · intro _ ⟨h1, h2, h4⟩
        rw [e1] at h1
        rw [e2] at h2
        rw [e4] at h4
        exact ⟨(h1.join b1).le (by omega), (h2.join b2).le (by omega), (h4.join b4).le (by omega)⟩
    · have e : v = w := by omega
      have hv := hv (by omega)
      rw [Nat.mul_comm v, e] at hv
      exact K.Wp.pure hv

theorem tail_nv12_rgb_wp (c : Colorimetry) {w h v ys uvs ds : Nat} {yb uvb : Buf}
    {d : Dst} {V : K Unit} (hw : 0 < w) (hh : 0 < h) (hw2 : w % 2 = 0) (hh2 : h % 2 = 0) (hvw : v ≤ w)
    (hv2 : v % 2 = 0)
    (HV : 0 < v → (S → Ext yb.len ys v h ∧ Ext uvb.len uvs v (h / 2) ∧ Ext d.len ds (v * 3) h) →
      K.Wp S X V (fun _ => Ext yb.len ys v h ∧ Ext uvb.len uvs v (h / 2) ∧ Ext d.len ds (v * 3) h))
    (o : S → Ext yb.len ys w h ∧ Ext uvb.len uvs w (h / 2) ∧ Ext d.len ds (3 * w) h) :
    K.Wp S X (do
      if v > 0 then V
      if w - v > 0 then do
        X86.nv12_to_rgb exactIx c (w - v) h ys uvs (← yb.from v) (← uvb.from v) ds
          (← d.from (v * 3))) (fun _ =>
      Ext yb.len ys w h ∧ Ext uvb.len uvs w (h / 2) ∧ Ext d.len ds (3 * w) h) := by
  refine K.Wp.part (P := Ext yb.len ys v h ∧ Ext uvb.len uvs v (h / 2) ∧
    Ext d.len ds (v * 3) h) ?_ fun hv => ?_
  · refine fun hpos => HV hpos fun hs => ?_
    obtain ⟨h1, h2, h3⟩ := o hs
    exact ⟨h1.le hvw, h2.le (by omega), h3.le (by omega)⟩
  · split
    · rename_i hsp
      have b : v ≤ yb.len ∧ v ≤ uvb.len ∧ v * 3 ≤ d.len := by
        rcases Nat.eq_zero_or_pos v with e | e
        · omega
        · exact ⟨(hv e).1.row_le, (hv e).2.1.row_le, (hv e).2.2.row_le⟩
      obtain ⟨b1, b2, b4⟩ := b
      simp only [K.liftM_eq]
      refine K.Wp.bind (K.Wp.bufFrom b1) fun _ e1 => ?_
      refine K.Wp.bind (K.Wp.bufFrom b2) fun _ e2 => ?_
      refine K.Wp.bind (K.Wp.dstFrom b4) fun _ e4 => ?_
      refine (X86.nv12_to_rgb_wp c (w := w - v) (by omega) hh (by omega) hh2 ?_).mono ?_
      · intro hs
        rw [e1, e2, e4]
        obtain ⟨h1, h2, h4⟩ := o hs
        exact ⟨(h1.le (by omega)).shift, (h2.le (by omega)).shift, (h4.le (by omega)).shift⟩
      · intro _ ⟨h1, h2, h4⟩
        rw [e1] at h1
        rw [e2] at h2
        rw [e4] at h4
        exact ⟨(h1.join b1).le (by omega), (h2.join b2).le (by omega), (h4.join b4).le (by omega)⟩
    · have e : v = w := by omega
      have hv := hv (by omega)
      rw [Nat.mul_comm v, e] at hv
      exact K.Wp.pure hv

/-! ## RGB to RGB -/

/-- A remainder handled by a portable kernel `P`; `send`, `dend` are the bytes of a line from its
beginning to the last one read or written. -/
theorem tail_rgb_rgb_wp {P : Nat → Buf → Dst → K Unit} {w h v sk dk ss ds send : Nat}
    {src : Buf} {d : Dst} {V : K Unit} {rend : Nat → Nat} {A B : Prop} (hw : 0 < w) (hvw : v ≤ w)
    (hsend : v < w → v * sk + rend (w - v) = send) (hsend' : v = w → v * sk = send) (hvs : v * sk ≤ send)
    (HV : 0 < v → (S → Ext src.len ss (v * sk) h ∧ Ext d.len ds (v * dk) h) →
      K.Wp S X V (fun _ => (Ext src.len ss (v * sk) h ∧ Ext d.len ds (v * dk) h) ∧ A))
    (HP : ∀ src' d', src.len = src'.len + v * sk → d'.len ≤ d.len → v < w →
      (0 < v → Ext src.len ss (v * sk) h ∧ Ext d.len ds (v * dk) h) →
      (S → Ext src'.len ss (rend (w - v)) h ∧ Ext d'.len ds ((w - v) * dk) h) →
      K.Wp S X (P (w - v) src' d')
        (fun _ => (Ext src'.len ss (rend (w - v)) h ∧ Ext d'.len ds ((w - v) * dk) h) ∧ B))
    (o : S → Ext src.len ss send h ∧ Ext d.len ds (w * dk) h) :
    K.Wp S X (do
      if v > 0 then V
      if w - v > 0 then do
        P (w - v) (← src.from (v * sk)) (← d.from (v * dk))) (fun _ =>
      (Ext src.len ss send h ∧ Ext d.len ds (w * dk) h) ∧ (0 < v → A) ∧ (v < w → B)) := by
  have hdk : v * dk ≤ w * dk := Nat.mul_le_mul_right _ hvw
  refine K.Wp.part (P := (Ext src.len ss (v * sk) h ∧ Ext d.len ds (v * dk) h) ∧ A) ?_ fun hv => ?_
  · refine fun hpos => HV hpos fun hs => ?_
    obtain ⟨h1, h2⟩ := o hs
    exact ⟨h1.le hvs, h2.le hdk⟩
  · split
    · rename_i hsp
      have b : v * sk ≤ src.len ∧ v * dk ≤ d.len := by
        rcases Nat.eq_zero_or_pos v with e | e
        · rw [e]; simp
        · exact ⟨(hv e).1.1.row_le, (hv e).1.2.row_le⟩
      obtain ⟨b1, b2⟩ := b
      have hs : v * sk + rend (w - v) = send := hsend (by omega)
      have hd : v * dk + (w - v) * dk = w * dk := by
        rw [← Nat.add_mul, show v + (w - v) = w by omega]
      simp only [K.liftM_eq]
      refine K.Wp.bind (K.Wp.bufFrom b1) fun _ e1 => ?_
      refine K.Wp.bind (K.Wp.dstFrom b2) fun _ e2 => ?_
      refine (HP _ _ (by omega) (by omega) (by omega) (fun e => (hv e).1) ?_).mono ?_
      · intro s
        rw [e1, e2]
        obtain ⟨h1, h2⟩ := o s
        rw [← hs] at h1
        rw [← hd] at h2
        exact ⟨h1.shift, h2.shift⟩
      · intro _ ⟨⟨h1, h2⟩, hB⟩
        rw [e1] at h1
        rw [e2] at h2
        rw [← hs, ← hd]
        exact ⟨⟨h1.join b1, h2.join b2⟩, fun e => (hv e).2, fun _ => hB⟩
    · have e : v = w := by omega
      obtain ⟨hv, hA⟩ := hv (by omega)
      rw [hsend' e, e] at hv
      exact K.Wp.pure ⟨hv, fun _ => hA, fun h => by omega⟩

/-- The remainder overflows at once. -/
theorem tail_over_wp {P : Nat → Buf → Dst → K Unit} {w h v sk dk ss ds : Nat}
    {src : Buf} {d : Dst} {V : K Unit} (hvw : v < w)
    (HV : 0 < v → K.Wp S X V fun _ => Ext src.len ss (v * sk) h ∧ Ext d.len ds (v * dk) h)
    (HP : ∀ src' d', K.Wp S X (P (w - v) src' d') fun _ => False) :
    K.Wp S X (do
      if v > 0 then V
      if w - v > 0 then do
        P (w - v) (← src.from (v * sk)) (← d.from (v * dk))) (fun _ => False) := by
  refine K.Wp.part (P := Ext src.len ss (v * sk) h ∧ Ext d.len ds (v * dk) h) HV fun hv => ?_
  rw [if_pos (by omega)]
  have b : v * sk ≤ src.len ∧ v * dk ≤ d.len := by
    rcases Nat.eq_zero_or_pos v with e | e
    · rw [e]; simp
    · exact ⟨(hv e).1.row_le, (hv e).2.row_le⟩
  simp only [K.liftM_eq]
  exact K.Wp.bind (K.Wp.bufFrom b.1) fun _ _ => K.Wp.bind (K.Wp.dstFrom b.2) fun _ _ => HP _ _

end Verif
