import Verif.Lemmas.SimX86
/-! # The remainder of a line, left to the portable kernels -/

namespace Verif

/-- A line apart within a real slice. -/
structure Near (t : Target) (len stride : Nat) : Prop where
  le : stride ≤ len
  twice : 2 * len < 2 ^ t.bits

theorem Near.sum {t : Target} {len stride : Nat} (h : Near t len stride) :
    len + stride < 2 ^ t.bits := by have := h.le; have := h.twice; omega

theorem Near.close {t : Target} {len stride : Nat} (h : Near t len stride) : Close t len stride :=
  ⟨h.sum, h.twice⟩

theorem Near.shorter {t : Target} {len stride n : Nat} (h : Near t len stride) (hn : n ≤ len) :
    Close t n stride := by
  have := h.sum; have := h.twice; exact ⟨by omega, by omega⟩

namespace K.Sim

theorem bufFrom {b : Buf} {n : Nat} : K.Sim (K.lift (b.from n)) (K.lift (b.from n))
    (fun b' => b'.len ≤ b.len) := by
  refine refl fun a ws hr => ?_
  unfold Buf.from at hr
  split at hr
  · cases hr; exact Nat.sub_le _ _
  · cases hr

theorem dstFrom {b : Dst} {n : Nat} : K.Sim (K.lift (b.from n)) (K.lift (b.from n))
    (fun b' => b'.len ≤ b.len) := by
  refine refl fun a ws hr => ?_
  unfold Dst.from at hr
  split at hr
  · cases hr; exact Nat.sub_le _ _
  · cases hr

/-- An optional first part. -/
theorem part {β : Type} {c : Prop} [Decidable c] {V V' : K Unit} {f f' : Unit → K β}
    (hv : c → V = V') (hf : f () = f' ()) :
    (if c then (do let r ← V; f r) else f ()) = if c then (do let r ← V'; f' r) else f' () := by
  split
  · rename_i hc
    rw [hv hc, show f = f' from funext fun _ => hf]
  · exact hf

/-- An optional second part. -/
theorem rest {c : Prop} [Decidable c] {V V' k : K Unit} (hv : c → V = V') :
    (if c then V else k) = if c then V' else k := by
  split
  · rename_i hc; exact hv hc
  · rfl

end K.Sim

variable {t : Target} {w h v : Nat}

theorem tail_rgb_nv12_agrees (s : Sampler) (c : Colorimetry) {ss ys uvs : Nat} {src : Buf}
    {yp uvp : Dst} {V V' : K Unit} (hB : 256 ≤ 2 ^ t.bits) (hs : Near t src.len ss)
    (hy : Near t yp.len ys) (hu : Near t uvp.len uvs) (HV : 0 < v → V = V') :
    (do
      if v > 0 then V
      if w - v > 0 then do
        X86.rgb_to_nv12 (wg_index t) s s.pf.depth c (w - v) h ss (← src.from (v * s.pf.depth)) ys
          uvs (← yp.from v) (← uvp.from v)) =
    (do
      if v > 0 then V'
      if w - v > 0 then do
        X86.rgb_to_nv12 exactIx s s.pf.depth c (w - v) h ss (← src.from (v * s.pf.depth)) ys uvs
          (← yp.from v) (← uvp.from v)) := by
  refine K.Sim.part HV (K.Sim.rest fun _ => ?_)
  simp only [K.liftM_eq]
  refine (K.Sim.bind (Q := fun _ => True) .bufFrom fun a ha => .bind .dstFrom fun b hb =>
    .bind .dstFrom fun d hd => ⟨?_, .any⟩).1
  exact X86.rgb_to_nv12_agrees s c hB (hs.shorter ha) (hy.shorter hb) (hu.shorter hd)

theorem tail_rgb_i420_agrees (s : Sampler) (c : Colorimetry) {ss ys us vs : Nat} {src : Buf}
    {yp up vp : Dst} {V V' : K Unit} (hB : 256 ≤ 2 ^ t.bits) (hs : Near t src.len ss)
    (hy : Near t yp.len ys) (hu : Near t up.len us) (hv : Near t vp.len vs) (HV : 0 < v → V = V') :
    (do
      if v > 0 then V
      if w - v > 0 then do
        X86.rgb_to_i420 (wg_index t) s s.pf.depth c (w - v) h ss (← src.from (v * s.pf.depth)) ys
          us vs (← yp.from v) (← up.from (v / 2)) (← vp.from (v / 2))) =
    (do
      if v > 0 then V'
      if w - v > 0 then do
        X86.rgb_to_i420 exactIx s s.pf.depth c (w - v) h ss (← src.from (v * s.pf.depth)) ys us vs
          (← yp.from v) (← up.from (v / 2)) (← vp.from (v / 2))) := by
  refine K.Sim.part HV (K.Sim.rest fun _ => ?_)
  simp only [K.liftM_eq]
  refine (K.Sim.bind (Q := fun _ => True) .bufFrom fun a ha => .bind .dstFrom fun b hb =>
    .bind .dstFrom fun d hd => .bind .dstFrom fun e he => ⟨?_, .any⟩).1
  exact X86.rgb_to_i420_agrees s c hB (hs.shorter ha) (hy.shorter hb) (hu.shorter hd)
    (hv.shorter he)

theorem tail_rgb_i444_agrees (s : Sampler) (c : Colorimetry) {ss ys us vs : Nat} {src : Buf}
    {yp up vp : Dst} {V V' : K Unit} (hB : 256 ≤ 2 ^ t.bits) (hs : Near t src.len ss)
    (hy : Near t yp.len ys) (hu : Near t up.len us) (hv : Near t vp.len vs) (HV : 0 < v → V = V') :
    (do
      if v > 0 then V
      if w - v > 0 then do
        X86.rgb_to_i444 (wg_index t) s s.pf.depth c (w - v) h ss (← src.from (v * s.pf.depth)) ys
          us vs (← yp.from v) (← up.from v) (← vp.from v)) =
    (do
      if v > 0 then V'
      if w - v > 0 then do
        X86.rgb_to_i444 exactIx s s.pf.depth c (w - v) h ss (← src.from (v * s.pf.depth)) ys us vs
          (← yp.from v) (← up.from v) (← vp.from v)) := by
  refine K.Sim.part HV (K.Sim.rest fun _ => ?_)
  simp only [K.liftM_eq]
  refine (K.Sim.bind (Q := fun _ => True) .bufFrom fun a ha => .bind .dstFrom fun b hb =>
    .bind .dstFrom fun d hd => .bind .dstFrom fun e he => ⟨?_, .any⟩).1
  exact X86.rgb_to_i444_agrees s c hB (hs.shorter ha) (hy.shorter hb) (hu.shorter hd)
    (hv.shorter he)

theorem tail_i444_rgb_agrees (c : Colorimetry) (rev : Bool) {ys us vs ds dx : Nat} {yb ub vb : Buf}
    {d : Dst} {V V' : K Unit} (hB : 256 ≤ 2 ^ t.bits) (hy : Near t yb.len ys)
    (hu : Near t ub.len us) (hv : Near t vb.len vs) (hd : Near t d.len ds) (HV : 0 < v → V = V') :
    (do
      if v > 0 then V
      if w - v > 0 then do
        X86.i444_to_bgra (wg_index t) c rev (w - v) h ys us vs (← yb.from v) (← ub.from v)
          (← vb.from v) ds (← d.from dx)) =
    (do
      if v > 0 then V'
      if w - v > 0 then do
        X86.i444_to_bgra exactIx c rev (w - v) h ys us vs (← yb.from v) (← ub.from v)
          (← vb.from v) ds (← d.from dx)) := by
  refine K.Sim.part HV (K.Sim.rest fun _ => ?_)
  simp only [K.liftM_eq]
  refine (K.Sim.bind (Q := fun _ => True) .bufFrom fun a ha => .bind .bufFrom fun b hb =>
    .bind .bufFrom fun e he => .bind .dstFrom fun f hf => ⟨?_, .any⟩).1
  exact X86.i444_to_bgra_agrees c rev hB (hy.shorter ha) (hu.shorter hb) (hv.shorter he)
    (hd.shorter hf)

theorem tail_i420_rgb_agrees (c : Colorimetry) (rev : Bool) {ys us vs ds dx : Nat} {yb ub vb : Buf}
    {d : Dst} {V V' : K Unit} (hB : 256 ≤ 2 ^ t.bits) (hy : Near t yb.len ys)
    (hu : Near t ub.len us) (hv : Near t vb.len vs) (hd : Near t d.len ds) (HV : 0 < v → V = V') :
    (do
      if v > 0 then V
      if w - v > 0 then do
        X86.i420_to_bgra (wg_index t) c rev (w - v) h ys us vs (← yb.from v) (← ub.from (v / 2))
          (← vb.from (v / 2)) ds (← d.from dx)) =
    (do
      if v > 0 then V'
      if w - v > 0 then do
        X86.i420_to_bgra exactIx c rev (w - v) h ys us vs (← yb.from v) (← ub.from (v / 2))
          (← vb.from (v / 2)) ds (← d.from dx)) := by
  refine K.Sim.part HV (K.Sim.rest fun _ => ?_)
  simp only [K.liftM_eq]
  refine (K.Sim.bind (Q := fun _ => True) .bufFrom fun a ha => .bind .bufFrom fun b hb =>
    .bind .bufFrom fun e he => .bind .dstFrom fun f hf => ⟨?_, .any⟩).1
  exact X86.i420_to_bgra_agrees c rev hB (hy.shorter ha) (hu.shorter hb) (hv.shorter he)
    (hd.shorter hf)

theorem tail_nv12_bgra_agrees (c : Colorimetry) (rev : Bool) {ys uvs ds dx : Nat} {yb uvb : Buf}
    {d : Dst} {V V' : K Unit} (hB : 256 ≤ 2 ^ t.bits) (hy : Near t yb.len ys)
    (hu : Near t uvb.len uvs) (hd : Near t d.len ds) (HV : 0 < v → V = V') :
    (do
      if v > 0 then V
      if w - v > 0 then do
        X86.nv12_to_bgra (wg_index t) c rev (w - v) h ys uvs (← yb.from v) (← uvb.from v) ds
          (← d.from dx)) =
    (do
      if v > 0 then V'
      if w - v > 0 then do
        X86.nv12_to_bgra exactIx c rev (w - v) h ys uvs (← yb.from v) (← uvb.from v) ds
          (← d.from dx)) := by
  refine K.Sim.part HV (K.Sim.rest fun _ => ?_)
  simp only [K.liftM_eq]
  refine (K.Sim.bind (Q := fun _ => True) .bufFrom fun a ha => .bind .bufFrom fun b hb =>
    .bind .dstFrom fun f hf => ⟨?_, .any⟩).1
  exact X86.nv12_to_bgra_agrees c rev hB (hy.shorter ha) (hu.shorter hb) (hd.shorter hf)

theorem tail_nv12_rgb_agrees (c : Colorimetry) {ys uvs ds dx : Nat} {yb uvb : Buf}
    {d : Dst} {V V' : K Unit} (hB : 256 ≤ 2 ^ t.bits) (hy : Near t yb.len ys)
    (hu : Near t uvb.len uvs) (hd : Near t d.len ds) (HV : 0 < v → V = V') :
    (do
      if v > 0 then V
      if w - v > 0 then do
        X86.nv12_to_rgb (wg_index t) c (w - v) h ys uvs (← yb.from v) (← uvb.from v) ds
          (← d.from dx)) =
    (do
      if v > 0 then V'
      if w - v > 0 then do
        X86.nv12_to_rgb exactIx c (w - v) h ys uvs (← yb.from v) (← uvb.from v) ds
          (← d.from dx)) := by
  refine K.Sim.part HV (K.Sim.rest fun _ => ?_)
  simp only [K.liftM_eq]
  refine (K.Sim.bind (Q := fun _ => True) .bufFrom fun a ha => .bind .bufFrom fun b hb =>
    .bind .dstFrom fun f hf => ⟨?_, .any⟩).1
  exact X86.nv12_to_rgb_agrees c hB (hy.shorter ha) (hu.shorter hb) (hd.shorter hf)

end Verif
