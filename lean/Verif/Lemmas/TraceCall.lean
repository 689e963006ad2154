import Verif.Lemmas.TraceSse2
import Verif.Lemmas.TraceAvx2
import Verif.Lemmas.TraceNeon
import Verif.Model.Shared
/-! # Where a call writes -/

namespace Verif

/-- Where the kernels of a module write does not depend on the bytes they read. -/
structure Impl.Oblivious (I : Impl) : Prop where
  nv12_rgb : ∀ t c depth rev w h ys uvs s s' s2 s2' ds d,
    K.Trace (I.nv12_rgb t c depth rev w h ys uvs s s2 ds d) (I.nv12_rgb t c depth rev w h ys uvs s' s2' ds d) Eq
  i420_rgb : ∀ t c depth rev w h ys us vs s s' s2 s2' s3 s3' ds d,
    K.Trace (I.i420_rgb t c depth rev w h ys us vs s s2 s3 ds d)
      (I.i420_rgb t c depth rev w h ys us vs s' s2' s3' ds d) Eq
  i444_rgb : ∀ t c depth rev w h ys us vs s s' s2 s2' s3 s3' ds d,
    K.Trace (I.i444_rgb t c depth rev w h ys us vs s s2 s3 ds d)
      (I.i444_rgb t c depth rev w h ys us vs s' s2' s3' ds d) Eq
  rgb_i444 : ∀ t p depth c w h ss s s' ys us vs y u v,
    K.Trace (I.rgb_i444 t p depth c w h ss s ys us vs y u v) (I.rgb_i444 t p depth c w h ss s' ys us vs y u v) Eq
  rgb_i420 : ∀ t p depth c w h ss s s' ys us vs y u v,
    K.Trace (I.rgb_i420 t p depth c w h ss s ys us vs y u v) (I.rgb_i420 t p depth c w h ss s' ys us vs y u v) Eq
  rgb_nv12 : ∀ t p depth c w h ss s s' ys uvs y uv,
    K.Trace (I.rgb_nv12 t p depth c w h ss s ys uvs y uv) (I.rgb_nv12 t p depth c w h ss s' ys uvs y uv) Eq
  rgb_bgra : ∀ t w h ss s s' ds d, K.Trace (I.rgb_bgra t w h ss s ds d) (I.rgb_bgra t w h ss s' ds d) Eq
  bgra_rgb : ∀ t w h ss s s' ds d, K.Trace (I.bgra_rgb t w h ss s ds d) (I.bgra_rgb t w h ss s' ds d) Eq
  bgr_rgb : ∀ t w h ss s s' ds d, K.Trace (I.bgr_rgb t w h ss s ds d) (I.bgr_rgb t w h ss s' ds d) Eq

theorem X86.nv12_rgb_trace (s s' s2 s2' : Buf) (ix : Index) (c : Colorimetry) (depth : Nat) (rev : Bool)
    (w h ys uvs ds : Nat) (d : Dst) : K.Trace (X86.nv12_rgb ix c depth rev w h ys uvs s s2 ds d)
      (X86.nv12_rgb ix c depth rev w h ys uvs s' s2' ds d) Eq :=
  .ite (X86.nv12_to_bgra_trace ..) (X86.nv12_to_rgb_trace ..)

theorem X86.oblivious : Impl.Oblivious X86.impl where
  nv12_rgb _ _ _ _ _ _ _ _ _ _ _ _ _ _ := X86.nv12_rgb_trace ..
  i420_rgb _ _ _ _ _ _ _ _ _ _ _ _ _ _ _ _ _ := X86.i420_to_bgra_trace ..
  i444_rgb _ _ _ _ _ _ _ _ _ _ _ _ _ _ _ _ _ := X86.i444_to_bgra_trace ..
  rgb_i444 _ _ _ _ _ _ _ _ _ _ _ _ _ _ _ := X86.rgb_to_i444_trace ..
  rgb_i420 _ _ _ _ _ _ _ _ _ _ _ _ _ _ _ := X86.rgb_to_i420_trace ..
  rgb_nv12 _ _ _ _ _ _ _ _ _ _ _ _ _ := X86.rgb_to_nv12_trace ..
  rgb_bgra _ _ _ _ _ _ _ _ := X86.rgb_to_bgra_trace ..
  bgra_rgb _ _ _ _ _ _ _ _ := X86.bgra_to_rgb_trace ..
  bgr_rgb _ _ _ _ _ _ _ _ := X86.bgr_to_rgb_trace ..

theorem Sse2.oblivious : Impl.Oblivious Sse2.impl where
  nv12_rgb _ _ _ _ _ _ _ _ _ _ _ _ _ _ := Sse2.nv12_rgb_trace ..
  i420_rgb _ _ _ _ _ _ _ _ _ _ _ _ _ _ _ _ _ := Sse2.i420_rgb_trace ..
  i444_rgb _ _ _ _ _ _ _ _ _ _ _ _ _ _ _ _ _ := Sse2.i444_rgb_trace ..
  rgb_i444 _ _ _ _ _ _ _ _ _ _ _ _ _ _ _ := Sse2.rgb_i444_trace ..
  rgb_i420 _ _ _ _ _ _ _ _ _ _ _ _ _ _ _ := Sse2.rgb_i420_trace ..
  rgb_nv12 _ _ _ _ _ _ _ _ _ _ _ _ _ := Sse2.rgb_nv12_trace ..
  rgb_bgra _ _ _ _ _ _ _ _ := Sse2.rgb_bgra_trace ..
  bgra_rgb := X86.oblivious.bgra_rgb
  bgr_rgb := X86.oblivious.bgr_rgb

theorem Avx2.oblivious : Impl.Oblivious Avx2.impl where
  nv12_rgb _ _ _ _ _ _ _ _ _ _ _ _ _ _ := Avx2.nv12_rgb_trace ..
  i420_rgb _ _ _ _ _ _ _ _ _ _ _ _ _ _ _ _ _ := Avx2.i420_rgb_trace ..
  i444_rgb _ _ _ _ _ _ _ _ _ _ _ _ _ _ _ _ _ := Avx2.i444_rgb_trace ..
  rgb_i444 _ _ _ _ _ _ _ _ _ _ _ _ _ _ _ := Avx2.rgb_i444_trace ..
  rgb_i420 _ _ _ _ _ _ _ _ _ _ _ _ _ _ _ := Avx2.rgb_i420_trace ..
  rgb_nv12 _ _ _ _ _ _ _ _ _ _ _ _ _ := Avx2.rgb_nv12_trace ..
  rgb_bgra _ _ _ _ _ _ _ _ := Avx2.rgb_bgra_trace ..
  bgra_rgb _ _ _ _ _ _ _ _ := Avx2.bgra_rgb_trace ..
  bgr_rgb _ _ _ _ _ _ _ _ := Avx2.bgr_rgb_trace ..

theorem Neon.oblivious : Impl.Oblivious Neon.impl where
  nv12_rgb := X86.oblivious.nv12_rgb
  i420_rgb := X86.oblivious.i420_rgb
  i444_rgb := X86.oblivious.i444_rgb
  rgb_i444 _ _ _ _ _ _ _ _ _ _ _ _ _ _ _ := Neon.rgb_i444_trace ..
  rgb_i420 _ _ _ _ _ _ _ _ _ _ _ _ _ _ _ := Neon.rgb_i420_trace ..
  rgb_nv12 _ _ _ _ _ _ _ _ _ _ _ _ _ := Neon.rgb_nv12_trace ..
  rgb_bgra _ _ _ _ _ _ _ _ := Neon.rgb_bgra_trace ..
  bgra_rgb _ _ _ _ _ _ _ _ := Neon.bgra_rgb_trace ..
  bgr_rgb _ _ _ _ _ _ _ _ := Neon.bgr_rgb_trace ..

theorem crate_oblivious (set : InstructionSet) : Impl.Oblivious (crate set) := by
  cases set
  · exact X86.oblivious
  · exact Sse2.oblivious
  · exact Avx2.oblivious
  · exact Neon.oblivious

/-! ## The wrappers -/

/-- The same buffer of two lists of equal lengths. -/
theorem K.Trace.idx {a b : List Buf} (h : a.map Buf.len = b.map Buf.len) (i : Nat) :
    K.Trace (liftM (Verif.idx a i) : K Buf) (liftM (Verif.idx b i)) (fun x y => x.len = y.len) := by
  refine ⟨fun x ws y ws' e e' => ?_⟩
  rw [K.liftM_eq] at e e'
  have hi := congrArg (fun l : List Nat => l[i]?) h
  simp only [List.getElem?_map] at hi
  unfold Verif.idx at e e'
  rcases ha : a[i]? with _ | x'
  · rw [ha] at e; cases e
  rcases hb : b[i]? with _ | y'
  · rw [hb] at e'; cases e'
  rw [ha] at e
  rw [hb] at e'
  cases e
  cases e'
  rw [ha, hb] at hi
  exact ⟨Option.some.inj hi, rfl⟩

namespace Wrap

variable {t : Target} {depth : Nat} {width height : UInt32} {ss : List Nat} {sb sb' : List Buf}
  {ds : List Nat} {db : List Dst}

theorem i420_rgb_trace (h : sb.map Buf.len = sb'.map Buf.len) {k : PlanarRgbKernel}
    (hk : ∀ w h ys us vs s s' s2 s2' s3 s3' ds d,
      K.Trace (k w h ys us vs s s2 s3 ds d) (k w h ys us vs s' s2' s3' ds d) Eq) :
    K.Trace (i420_rgb t depth k width height ss sb ds db) (i420_rgb t depth k width height ss sb' ds db)
      Eq := by
  have hl : sb.length = sb'.length := by simpa using congrArg List.length h
  unfold i420_rgb
  rw [hl]
  refine .ite (.refl _) (.ite (.refl _) ?_)
  refine .after fun _ => .after fun _ => .after fun _ => .after fun _ => .after fun _ =>
    (K.Trace.idx h 0).bind fun _ _ e0 => (K.Trace.idx h 1).bind fun _ _ e1 =>
    (K.Trace.idx h 2).bind fun _ _ e2 => .after fun _ => .after fun _ => .after fun _ => ?_
  rw [e0, e1, e2]
  exact .ite (.refl _) ((hk ..).seq fun _ _ => .refl _)

theorem i444_rgb_trace (h : sb.map Buf.len = sb'.map Buf.len) {k : PlanarRgbKernel}
    (hk : ∀ w h ys us vs s s' s2 s2' s3 s3' ds d,
      K.Trace (k w h ys us vs s s2 s3 ds d) (k w h ys us vs s' s2' s3' ds d) Eq) :
    K.Trace (i444_rgb t depth k width height ss sb ds db) (i444_rgb t depth k width height ss sb' ds db)
      Eq := by
  have hl : sb.length = sb'.length := by simpa using congrArg List.length h
  unfold i444_rgb
  rw [hl]
  refine .ite (.refl _) (.ite (.refl _) ?_)
  refine .after fun _ => .after fun _ => .after fun _ => .after fun _ => .after fun _ =>
    (K.Trace.idx h 0).bind fun _ _ e0 => (K.Trace.idx h 1).bind fun _ _ e1 =>
    (K.Trace.idx h 2).bind fun _ _ e2 => .after fun _ => .after fun _ => ?_
  rw [e0, e1, e2]
  exact .ite (.refl _) ((hk ..).seq fun _ _ => .refl _)

theorem rgb_i444_trace (h : sb.map Buf.len = sb'.map Buf.len) {k : RgbPlanarKernel}
    (hk : ∀ w h ss s s' ys us vs y u v,
      K.Trace (k w h ss s ys us vs y u v) (k w h ss s' ys us vs y u v) Eq) :
    K.Trace (rgb_i444 t depth k width height ss sb ds db) (rgb_i444 t depth k width height ss sb' ds db)
      Eq := by
  have hl : sb.length = sb'.length := by simpa using congrArg List.length h
  unfold rgb_i444
  rw [hl]
  refine .ite (.refl _) (.ite (.refl _) ?_)
  refine .after fun _ => .after fun _ => .after fun _ => .after fun _ => .after fun _ =>
    (K.Trace.idx h 0).bind fun _ _ e0 => .after fun _ => .after fun _ => .after fun _ =>
    .after fun _ => ?_
  rw [e0]
  exact .ite (.refl _) ((hk ..).seq fun _ _ => .refl _)

theorem rgb_i420_trace (h : sb.map Buf.len = sb'.map Buf.len) {k : RgbPlanarKernel}
    (hk : ∀ w h ss s s' ys us vs y u v,
      K.Trace (k w h ss s ys us vs y u v) (k w h ss s' ys us vs y u v) Eq) :
    K.Trace (rgb_i420 t depth k width height ss sb ds db) (rgb_i420 t depth k width height ss sb' ds db)
      Eq := by
  have hl : sb.length = sb'.length := by simpa using congrArg List.length h
  unfold rgb_i420
  rw [hl]
  refine .ite (.refl _) (.ite (.refl _) ?_)
  refine .after fun _ => .after fun _ => .after fun _ => .after fun _ => .after fun _ =>
    (K.Trace.idx h 0).bind fun _ _ e0 => .after fun _ => .after fun _ => .after fun _ =>
    .after fun _ => .after fun _ => ?_
  rw [e0]
  exact .ite (.refl _) ((hk ..).seq fun _ _ => .refl _)

theorem rgb_rgb_trace {sd dd : Nat} (h : sb.map Buf.len = sb'.map Buf.len) {k : RgbRgbKernel}
    (hk : ∀ w h ss s s' ds d, K.Trace (k w h ss s ds d) (k w h ss s' ds d) Eq) :
    K.Trace (rgb_rgb t sd dd k width height ss sb ds db) (rgb_rgb t sd dd k width height ss sb' ds db)
      Eq := by
  have hl : sb.length = sb'.length := by simpa using congrArg List.length h
  unfold rgb_rgb
  rw [hl]
  refine .ite (.refl _) (.ite (.refl _) ?_)
  refine .after fun _ => .after fun _ => .after fun _ => .after fun _ =>
    (K.Trace.idx h 0).bind fun _ _ e0 => .after fun _ => .after fun _ => ?_
  rw [e0]
  exact .ite (.refl _) ((hk ..).seq fun _ _ => .refl _)

theorem rgb_nv12_trace {l : Nat} (h : sb.map Buf.len = sb'.map Buf.len) {k : RgbNv12Kernel}
    (hk : ∀ w h ss s s' ys uvs y uv,
      K.Trace (k w h ss s ys uvs y uv) (k w h ss s' ys uvs y uv) Eq) :
    K.Trace (rgb_nv12 t depth k width height ss sb l ds db)
      (rgb_nv12 t depth k width height ss sb' l ds db) Eq := by
  have hl : sb.length = sb'.length := by simpa using congrArg List.length h
  unfold rgb_nv12
  rw [hl]
  refine .ite (.refl _) (.ite (.refl _) ?_)
  refine .after fun _ => .after fun _ => .after fun _ => .after fun _ =>
    (K.Trace.idx h 0).bind fun a b e0 => .after fun _ => ?_
  simp only [e0]
  refine .ite (.after fun _ => .ite (.after fun sp => ?_) (.after fun _ => .after fun _ =>
    .after fun sp => ?_)) (.after fun _ => .after fun sp => ?_)
  all_goals
    rcases sp with _ | ⟨x, y⟩
    · exact .refl _
    · exact .after fun _ => .after fun _ => .ite (.refl _) ((hk ..).seq fun _ _ => .refl _)

/-- Two pairs of buffers of the same lengths. -/
def LensEq (p q : Option (Buf × Buf)) : Prop :=
  match p, q with
  | none, none => True
  | some a, some b => a.1.len = b.1.len ∧ a.2.len = b.2.len
  | _, _ => False

theorem pair_trace {a b a' b' : Buf} (e : a.len = a'.len) (e' : b.len = b'.len) :
    K.Trace (pure (some (a, b)) : K (Option (Buf × Buf))) (pure (some (a', b'))) LensEq := .pure ⟨e, e'⟩

theorem from_trace {a b : Buf} (e : a.len = b.len) (n : Nat) :
    K.Trace (liftM (a.from n) : K Buf) (liftM (b.from n)) (fun x y => x.len = y.len) := by
  refine ⟨fun x ws y ws' h h' => ?_⟩
  rw [K.liftM_eq] at h h'
  unfold Buf.from at h h'
  split at h
  · split at h'
    · cases h; cases h'; exact ⟨by simp only [e], rfl⟩
    · cases h'
  · cases h

theorem upto_trace {a b : Buf} (n : Nat) :
    K.Trace (liftM (a.upto n) : K Buf) (liftM (b.upto n)) (fun x y => x.len = y.len) := by
  refine ⟨fun x ws y ws' h h' => ?_⟩
  rw [K.liftM_eq] at h h'
  unfold Buf.upto at h h'
  split at h
  · split at h'
    · cases h; cases h'; exact ⟨rfl, rfl⟩
    · cases h'
  · cases h

theorem nv12_rgb_trace {l : Nat} (h : sb.map Buf.len = sb'.map Buf.len) {k : Nv12RgbKernel}
    (hk : ∀ w h ys uvs s s' s2 s2' ds d,
      K.Trace (k w h ys uvs s s2 ds d) (k w h ys uvs s' s2' ds d) Eq) :
    K.Trace (nv12_rgb t depth k width height l ss sb ds db)
      (nv12_rgb t depth k width height l ss sb' ds db) Eq := by
  have hl : sb.length = sb'.length := by simpa using congrArg List.length h
  unfold nv12_rgb
  rw [hl]
  refine .ite (.refl _) (.ite (.refl _) ?_)
  refine .after fun _ => .after fun _ => .after fun _ => .after fun _ =>
    (K.Trace.idx h 0).bind fun a b e0 => (K.Trace.idx h l).bind fun a' b' e1 => ?_
  simp only [e0]
  refine .ite (.after fun _ => .ite
    ((K.Trace.pure (Q := LensEq) (a := none) (b := none) trivial).bind fun sp sp' e => ?_)
    ((upto_trace _).bind fun _ _ f0 => (from_trace e0 _).bind fun _ _ f1 =>
      (pair_trace f0 f1).bind fun sp sp' e => ?_))
    ((pair_trace e0 e1).bind fun sp sp' e => ?_)
  all_goals
    rcases sp with _ | ⟨x, y⟩ <;> rcases sp' with _ | ⟨x', y'⟩
    · exact .refl _
    · exact e.elim
    · exact e.elim
    · obtain ⟨g0, g1⟩ : x.len = x'.len ∧ y.len = y'.len := e
      simp only [g0, g1]
      exact .after fun _ => .after fun _ => .after fun _ => .ite (.refl _) ((hk ..).seq fun _ _ => .refl _)

end Wrap

/-! ## The call -/

theorem Routine.exec_trace {I : Impl} (hI : I.Oblivious) (t : Target) (r : Routine)
    {width height lsp ldp : UInt32} {ss : List Nat} {sb sb' : List Buf} {ds : List Nat} {db : List Dst}
    (h : sb.map Buf.len = sb'.map Buf.len) :
    K.Trace (r.exec t I width height lsp ss sb ldp ds db)
      (r.exec t I width height lsp ss sb' ldp ds db) Eq := by
  rcases r with ⟨s, d, c⟩ | ⟨s, c, d⟩ | r
  · cases d
    · exact Wrap.rgb_i420_trace h (hI.rgb_i420 _ _ _ _)
    · exact Wrap.rgb_i444_trace h (hI.rgb_i444 _ _ _ _)
    · exact Wrap.rgb_nv12_trace h (hI.rgb_nv12 _ _ _ _)
  · cases s
    · exact Wrap.i420_rgb_trace h (hI.i420_rgb _ _ _ _)
    · exact Wrap.i444_rgb_trace h (hI.i444_rgb _ _ _ _)
    · exact Wrap.nv12_rgb_trace h (hI.nv12_rgb _ _ _ _)
  · cases r
    · exact Wrap.rgb_rgb_trace h (hI.bgr_rgb _)
    · exact Wrap.rgb_rgb_trace h (hI.bgra_rgb _)
    · exact Wrap.rgb_rgb_trace h (hI.rgb_bgra _)

theorem convert_image_with_trace {impls : InstructionSet → Impl} (hI : ∀ s, (impls s).Oblivious)
    (t : Target) (tb : DispatchTable) {width height : UInt32} {sf df : ImageFormat}
    {ss ds : Option (List Nat)} {sb sb' : List Buf} {db : List Dst}
    (h : sb.map Buf.len = sb'.map Buf.len) :
    K.Trace (convert_image_with t impls tb width height sf ss sb df ds db)
      (convert_image_with t impls tb width height sf ss sb' df ds db) Eq := by
  unfold convert_image_with
  refine .ite (.refl _) (.after fun _ => .ite (.refl _) (.after fun _ => .ite (.refl _)
    (.ite (.refl _) ?_)))
  split
  · exact .refl _
  · exact (Routine.exec_trace (hI _) t _ h).bind fun _ _ e => e ▸ .refl _

end Verif
