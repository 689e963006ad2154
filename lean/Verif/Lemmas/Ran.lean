import Verif.Lemmas.Crate
import Verif.Lemmas.NoEffect
import Verif.Lemmas.WpCall
/-!
# What follows from a run without fault

A kernel that completes has performed all its loads; in particular the last one.
-/

namespace Verif

/-- The routine completes. -/
def K.Ran {α : Type} (k : K α) : Prop := ∃ r, k.run = .ok r

namespace K.Ran

theorem left {α β : Type} {k : K α} {f : α → K β} (h : (k >>= f).Ran) : k.Ran := by
  obtain ⟨r, h⟩ := h
  rw [K.bind_def, K.bind] at h
  rcases k with ⟨_ | r⟩
  · cases h
  · exact ⟨r, rfl⟩

end K.Ran

/-- A call that returns has found the room its vector loads need. -/
theorem room_of_ok {t : Target} {cpu : Cpu} {c : Call} (hv : Spec.Valid t c)
    {r : Except ErrorKind Unit × List Buf} (ho : convert t crate cpu c = .ok r) :
    Spec.VectorRoom cpu.set c := by
  intro hb hy b hb0
  have hdim := dim_of hv.width_ne hv.height_ne
  have eb : bufAt c.src_buffers 0 = b := by
    unfold bufAt; rw [List.getD_eq_getElem?_getD, hb0]; rfl
  obtain ⟨tb, hT, e⟩ := convert_table t crate cpu
  have h0 := u32_pos hv.height_ne
  obtain ⟨q, hk, hq, e1⟩ := convert_checked (t := t) (impls := crate) hT hv.src_legal hv.dst_legal
    hv.supported hv.width_ne hv.height_ne (present_of_fits hv.src_fits) (present_of_fits hv.dst_fits)
    (small_of_fits hv.bits_pos hv.src_legal h0 hv.src_fits hv.src_real)
    (small_of_fits hv.bits_pos hv.dst_legal h0 hv.dst_fits hv.dst_real)
  rw [if_pos ⟨acc_image_of_fits hv.src_legal h0 hv.src_fits _,
    acc_image_of_fits hv.dst_legal h0 hv.dst_fits _⟩] at e1
  have hran : (convert_image_with t crate tb c.width c.height c.src_format c.src_strides
      c.src_buffers c.dst_format c.dst_strides (dstSlices c.dst_buffers)).Ran := by
    rw [e, convert_image] at ho
    cases e2 : (convert_image_with t crate tb c.width c.height c.src_format c.src_strides
      c.src_buffers c.dst_format c.dst_strides (dstSlices c.dst_buffers)).run with
    | error f => rw [e2] at ho; cases ho
    | ok r => exact ⟨r, e2⟩
  rw [e1] at hran
  obtain ⟨⟨⟨⟩, ws⟩, hker⟩ := hran.left
  have wp := (kcall_wp hv.bits_pos (crate_safe t (byte_fits hv.bits) cpu.set) (S := False)
    (X := True) hk hq hv.src_legal
    hv.dst_legal hv.width_ne hv.height_ne hv.src_real hv.dst_real
    (acc_image_of_fits hv.src_legal h0 hv.src_fits _)
    (acc_image_of_fits hv.dst_legal h0 hv.dst_fits _)
    (fun _ _ => trivial) (fun _ _ _ _ => trivial)
    (fun _ _ _ => trivial) False.elim).post hker
  have ht := wp.1.1.1
  rw [touch_rgb (by rw [hb]; rfl), hb, eb] at ht
  unfold Ext Spec.readEnd at ht
  simp only [hy, Bool.false_eq_true, if_false, PixelFormat.depth] at ht
  revert ht
  cases cpu.set with
  | x86 => exact fun _ => trivial
  | neon => exact fun _ => trivial
  | sse2 =>
    intro ht hw
    simp only [hw, if_true] at ht
    omega
  | avx2 =>
    intro ht hw
    simp only [hw, if_true] at ht
    omega

/-- A call that stores has found the room its vector loads need. -/
theorem Stores.room {t : Target} {cpu : Cpu} {c : Call} {out : List Buf} (hv : Spec.Valid t c)
    (ho : Stores t crate cpu c out) : Spec.VectorRoom cpu.set c := room_of_ok hv ho

/-! ## Rejections do not depend on the kernels -/

/-- Both routines answer `false` or neither does. -/
def K.SameFalse (k k' : K Bool) : Prop := ∀ ws, k.run = .ok (false, ws) ↔ k'.run = .ok (false, ws)

namespace K.SameFalse

theorem refl (k : K Bool) : K.SameFalse k k := fun _ => .rfl

theorem lift {α : Type} {r : R α} {f g : α → K Bool} (h : ∀ a, K.SameFalse (f a) (g a)) :
    K.SameFalse (K.lift r >>= f) (K.lift r >>= g) := by
  cases r with
  | error e => rw [K.lift_error, K.throw_bind, K.throw_bind]; exact .refl _
  | ok a => rw [K.lift_ok, pure_bind, pure_bind]; exact h a

theorem ite {P : Prop} [Decidable P] {a a' b b' : K Bool} (h : K.SameFalse a b)
    (h' : K.SameFalse a' b') : K.SameFalse (if P then a else a') (if P then b else b') := by
  split <;> assumption

theorem kernel (k k' : K Unit) :
    K.SameFalse (k >>= fun _ => Pure.pure true) (k' >>= fun _ => Pure.pure true) := by
  have : ∀ (k : K Unit) ws, ¬ (k >>= fun _ => (Pure.pure true : K Bool)).run = .ok (false, ws) := by
    intro k ws h
    rw [K.bind_def, K.bind] at h
    rcases k with ⟨_ | ⟨a, w⟩⟩
    · cases h
    · simp [K.pure_def] at h
  exact fun ws => ⟨fun h => absurd h (this _ _), fun h => absurd h (this _ _)⟩

end K.SameFalse

theorem same_false_exec (t : Target) (I I' : Impl) (r : Routine) (w h a : UInt32) (ss : List Nat)
    (sb : List Buf) (b : UInt32) (ds : List Nat) (db : List Dst) :
    K.SameFalse (r.exec t I w h a ss sb b ds db) (r.exec t I' w h a ss sb b ds db) := by
  rcases r with ⟨s, _ | _ | _, c⟩ | ⟨_ | _ | _, c, d⟩ | _ | _ | _ <;>
  simp only [Routine.exec, Wrap.rgb_i420, Wrap.rgb_i444, Wrap.rgb_nv12, Wrap.i420_rgb,
    Wrap.i444_rgb, Wrap.nv12_rgb, Wrap.rgb_rgb, K.liftM_eq]
  all_goals
    repeat' first
      | exact K.SameFalse.refl (Pure.pure _)
      | exact K.SameFalse.kernel _ _
      | apply K.SameFalse.ite
      | (apply K.SameFalse.lift; intro _)
      | rw [pure_bind, pure_bind]

/-- An error of a conversion does not depend on the kernels nor on the processor. -/
theorem error_indep {t : Target} {impls impls' : InstructionSet → Impl} {set set' : InstructionSet}
    {tb tb' : DispatchTable} (hT : TableFor set tb) (hT' : TableFor set' tb') {w h : UInt32}
    {sf df : ImageFormat} {ss ds : Option (List Nat)} {sb db out : List Buf} {e : ErrorKind}
    (hc : convert_image t impls tb w h sf ss sb df ds db = .ok (.error e, out)) :
    convert_image t impls' tb' w h sf ss sb df ds db = .ok (.error e, out) := by
  have hout := error_no_effect hT hc
  subst hout
  by_cases hl : Spec.Legal sf w h ∧ Spec.Legal df w h
  · by_cases hs : Spec.Supported sf.pixel_format df.pixel_format
    · obtain ⟨r, hk, hr, e1⟩ := convert_supported (t := t) (impls := impls) (ss := ss) (sb := sb)
        (ds := ds) (dl := dstSlices out) hT hl.1 hl.2 hs
      obtain ⟨r', hk', hr', e1'⟩ := convert_supported (t := t) (impls := impls') (ss := ss)
        (sb := sb) (ds := ds) (dl := dstSlices out) hT' hl.1 hl.2 hs
      have : r' = r := key_inj _ _ (hk'.trans hk.symm)
      subst this
      have q := same_false_exec t (impls set) (impls' set') r' w h (sf.num_planes - 1)
        (ss.getD PixFmt.DEFAULT_STRIDES) sb (df.num_planes - 1)
        (ds.getD PixFmt.DEFAULT_STRIDES) (dstSlices out)
      rw [convert_image, e1, K.bind_def, K.bind] at hc
      rw [convert_image, e1', K.bind_def, K.bind]
      revert hc q
      generalize r'.exec t (impls set) w h (sf.num_planes - 1)
        (ss.getD PixFmt.DEFAULT_STRIDES) sb (df.num_planes - 1)
        (ds.getD PixFmt.DEFAULT_STRIDES) (dstSlices out) = k
      generalize r'.exec t (impls' set') w h (sf.num_planes - 1)
        (ss.getD PixFmt.DEFAULT_STRIDES) sb (df.num_planes - 1)
        (ds.getD PixFmt.DEFAULT_STRIDES) (dstSlices out) = k'
      rcases k with ⟨_ | ⟨b, ws⟩⟩
      · intro hc _; cases hc
      · intro hc q
        cases b
        · rw [(q ws).1 rfl]
          exact hc
        · simp [K.pure_def] at hc
    · rw [convert_of_pure (convert_unsupported hT hl.1 hl.2 hs)] at hc
      rw [convert_of_pure (convert_unsupported hT' hl.1 hl.2 hs)]
      exact hc
  · have hl' : ¬ Spec.Legal sf w h ∨ ¬ Spec.Legal df w h := by
      by_cases h1 : Spec.Legal sf w h
      · exact .inr fun h2 => hl ⟨h1, h2⟩
      · exact .inl h1
    rw [convert_of_pure (convert_invalid hl')] at hc
    rw [convert_of_pure (convert_invalid hl')]
    exact hc

end Verif
