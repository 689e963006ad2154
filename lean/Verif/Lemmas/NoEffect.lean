import Verif.Lemmas.Api
/-! # A converter that answers `false` has not written anything -/

namespace Verif

/-- `false` is only ever returned before the first write. -/
def Quiet (k : K Bool) : Prop := ∀ ws, k.run = .ok (false, ws) → ws = []

namespace Quiet

theorem pure (b : Bool) : Quiet (Pure.pure b) := by
  intro ws h
  simp only [K.pure_def, Except.ok.injEq, Prod.mk.injEq] at h
  exact h.2.symm

theorem lift {α : Type} {r : R α} {f : α → K Bool} (h : ∀ a, Quiet (f a)) :
    Quiet (K.lift r >>= f) := by
  cases r with
  | error e => intro ws hw; rw [K.lift_error, K.throw_bind] at hw; cases hw
  | ok a => rw [K.lift_ok, pure_bind]; exact h a

theorem kernel (k : K Unit) : Quiet (k >>= fun _ => Pure.pure true) := by
  intro ws h
  rw [K.bind_def, K.bind] at h
  rcases k with ⟨_ | ⟨a, w⟩⟩
  · cases h
  · simp [K.pure_def] at h

end Quiet

theorem quiet_exec (t : Target) (I : Impl) (r : Routine) (w h a : UInt32) (ss : List Nat)
    (sb : List Buf) (b : UInt32) (ds : List Nat) (db : List Dst) :
    Quiet (r.exec t I w h a ss sb b ds db) := by
  rcases r with ⟨s, _ | _ | _, c⟩ | ⟨_ | _ | _, c, d⟩ | _ | _ | _ <;>
  simp only [Routine.exec, Wrap.rgb_i420, Wrap.rgb_i444, Wrap.rgb_nv12, Wrap.i420_rgb,
    Wrap.i444_rgb, Wrap.nv12_rgb, Wrap.rgb_rgb, K.liftM_eq]
  all_goals
    split
    · exact Quiet.pure _
    · split
      · exact Quiet.pure _
      · repeat' first
          | exact Quiet.pure _
          | exact Quiet.kernel _
          | (apply Quiet.lift; intro _)
          | rw [pure_bind]
          | split

/-- Whatever the arguments and the table: an error means that nothing was written. -/
theorem error_no_effect {t : Target} {impls : InstructionSet → Impl} {set : InstructionSet}
    {tb : DispatchTable} (hT : TableFor set tb) {w h : UInt32} {sf df : ImageFormat}
    {ss ds : Option (List Nat)} {sb db out : List Buf} {e : ErrorKind}
    (hc : convert_image t impls tb w h sf ss sb df ds db = .ok (.error e, out)) : out = db := by
  by_cases hl : Spec.Legal sf w h ∧ Spec.Legal df w h
  · by_cases hs : Spec.Supported sf.pixel_format df.pixel_format
    · obtain ⟨r, -, -, e1⟩ := convert_supported (t := t) (impls := impls) (ss := ss) (sb := sb)
        (ds := ds) (dl := dstSlices db) hT hl.1 hl.2 hs
      have q := quiet_exec t (impls set) r w h (sf.num_planes - 1)
        (ss.getD PixFmt.DEFAULT_STRIDES) sb (df.num_planes - 1)
        (ds.getD PixFmt.DEFAULT_STRIDES) (dstSlices db)
      rw [convert_image, e1, K.bind_def, K.bind] at hc
      revert hc q
      generalize r.exec t (impls set) w h (sf.num_planes - 1)
        (ss.getD PixFmt.DEFAULT_STRIDES) sb (df.num_planes - 1)
        (ds.getD PixFmt.DEFAULT_STRIDES) (dstSlices db) = k
      rcases k with ⟨_ | ⟨b, ws⟩⟩
      · intro hc _; cases hc
      · intro hc q
        cases b
        · have := q ws rfl
          subst this
          simp only [Bool.false_eq_true, if_false, K.pure_def, List.append_nil,
            Except.ok.injEq, Prod.mk.injEq] at hc
          rw [← hc.2]
          exact withMem_nil db
        · simp [K.pure_def] at hc
    · rw [convert_of_pure (convert_unsupported hT hl.1 hl.2 hs)] at hc
      cases hc; rfl
  · rw [convert_of_pure (convert_invalid (by
      by_cases h1 : Spec.Legal sf w h
      · exact .inr fun h2 => hl ⟨h1, h2⟩
      · exact .inl h1))] at hc
    cases hc; rfl

end Verif
