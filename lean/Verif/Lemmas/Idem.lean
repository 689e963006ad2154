import Verif.Lemmas.Shared
/-! # Applying the writes of a call twice -/

namespace Verif

/-- Locations written. -/
def Hits (ws : List Write) (p i : Nat) : Prop := ∃ w ∈ ws, w.plane = p ∧ w.idx = i

theorem apply_cons (m : Mem) (w : Write) (ws : List Write) :
    m.apply (w :: ws) = (m.set w).apply ws := rfl

theorem apply_miss {ws : List Write} {p i : Nat} (h : ¬ Hits ws p i) (m : Mem) :
    m.apply ws p i = m p i := by
  induction ws generalizing m with
  | nil => rfl
  | cons w ws ih =>
    rw [apply_cons, ih fun ⟨v, hv, e⟩ => h ⟨v, List.mem_cons_of_mem _ hv, e⟩, Mem.set, if_neg]
    rintro ⟨rfl, rfl⟩
    exact h ⟨w, List.mem_cons_self, rfl, rfl⟩

/-- What is stored where a write goes does not depend on what was there before. -/
theorem apply_hit {ws : List Write} {p i : Nat} (h : Hits ws p i) (m m' : Mem) :
    m.apply ws p i = m'.apply ws p i := by
  induction ws generalizing m m' with
  | nil => obtain ⟨w, hw, -⟩ := h; cases hw
  | cons w ws ih =>
    rw [apply_cons, apply_cons]
    by_cases hh : Hits ws p i
    · exact ih hh _ _
    · rw [apply_miss hh, apply_miss hh]
      obtain ⟨v, hv, rfl, rfl⟩ := h
      rcases List.mem_cons.1 hv with rfl | hv
      · simp [Mem.set]
      · exact absurd ⟨v, hv, rfl, rfl⟩ hh

theorem apply_idem {m m' : Mem} {ws : List Write} {p i : Nat}
    (h : m' p i = m.apply ws p i) : m'.apply ws p i = m.apply ws p i := by
  by_cases hh : Hits ws p i
  · exact apply_hit hh _ _
  · rw [apply_miss hh, h]

theorem withMem_congr {bufs : List Buf} {m m' : Mem}
    (h : ∀ p i, p < bufs.length → m p i = m' p i) : withMem bufs m = withMem bufs m' := by
  unfold withMem
  apply List.ext_getElem?
  intro p
  simp only [List.getElem?_mapIdx]
  cases hb : bufs[p]? with
  | none => rfl
  | some b =>
    have hp := (List.getElem?_eq_some_iff.1 hb).1
    simp only [Option.map_some, Option.some.injEq, Buf.mk.injEq, true_and]
    funext i
    exact h p i hp

theorem withMem_lens (bufs : List Buf) (m m' : Mem) :
    withMem (withMem bufs m) m' = withMem bufs m' := by
  unfold withMem
  apply List.ext_getElem?
  intro p
  simp only [List.getElem?_mapIdx]
  cases bufs[p]? <;> rfl

theorem dstSlices_withMem (bufs : List Buf) (m : Mem) :
    dstSlices (withMem bufs m) = dstSlices bufs := by
  unfold dstSlices withMem
  apply List.ext_getElem?
  intro p
  simp only [List.getElem?_mapIdx]
  cases bufs[p]? <;> rfl

theorem memOf_withMem {bufs : List Buf} {m : Mem} {p : Nat} (h : p < bufs.length) (i : Nat) :
    memOf (withMem bufs m) p i = m p i := by
  unfold memOf withMem
  simp only [List.getElem?_mapIdx, List.getElem?_eq_getElem h, Option.map_some]

/-- Running `convert_image` again on its own output changes nothing. -/
theorem convert_image_idem {t : Target} {impls : InstructionSet → Impl} {tb : DispatchTable}
    {w h : UInt32} {sf df : ImageFormat} {ss ds : Option (List Nat)} {sb db out : List Buf}
    {r : Except ErrorKind Unit}
    (hc : convert_image t impls tb w h sf ss sb df ds db = .ok (r, out)) :
    convert_image t impls tb w h sf ss sb df ds out = .ok (r, out) := by
  unfold convert_image at hc ⊢
  split at hc
  · cases hc
  · rename_i r' ws hw
    cases hc
    rw [dstSlices_withMem, hw]
    simp only [withMem_lens]
    congr 2
    apply withMem_congr
    intro p i hp
    exact apply_idem (memOf_withMem hp i)

end Verif
