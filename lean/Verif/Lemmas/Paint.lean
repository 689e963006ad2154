import Verif.Lemmas.Wrap
import Verif.Lemmas.X86Yuv
import Verif.Lemmas.X86Dec
/-! # From sets of writes to final buffer contents -/

namespace Verif

/-- Union over the planes of the writes that store the given planes. -/
def PlaneWrites (dims : List (Nat × Nat)) (stride : Nat → Nat → Nat) (planes : List Spec.Plane)
    (p : Write) : Prop :=
  ∃ rc f, dims[p.plane]? = some rc ∧ planes[p.plane]? = some f ∧
    ∃ y, y < rc.2 ∧ ∃ j, j < rc.1 ∧ p.idx = stride p.plane rc.1 * y + j ∧ p.val = f j y

theorem paint_hit {old : Nat → UInt8} {stride row rows y j : Nat} {f : Spec.Plane}
    (hr : row ≤ stride) (hy : y < rows) (hj : j < row) :
    Spec.paint old stride row rows f (stride * y + j) = f j y := by
  have hs : 0 < stride := by omega
  have e1 : (stride * y + j) / stride = y := by
    rw [Nat.mul_add_div hs, Nat.div_eq_of_lt (by omega)]; rfl
  have e2 : (stride * y + j) % stride = j := by
    rw [Nat.mul_add_mod, Nat.mod_eq_of_lt (by omega)]
  rw [Spec.paint, e1, e2, if_pos ⟨hj, hy⟩]

theorem paint_miss {old : Nat → UInt8} {stride row rows i : Nat} {f : Spec.Plane}
    (h : ∀ y, y < rows → ∀ j, j < row → i ≠ stride * y + j) :
    Spec.paint old stride row rows f i = old i := by
  rw [Spec.paint, if_neg]
  rintro ⟨h1, h2⟩
  exact h _ h2 _ h1 (Nat.div_add_mod i stride).symm

/-- Final buffers of a run that stores the given planes. -/
theorem withMem_painted {f : ImageFormat} {w h : UInt32} {strides : Option (List Nat)}
    {planes : List Spec.Plane} {db : List Buf} {ws : List Write}
    (hf : ∀ i b rc, db[i]? = some b →
      (Spec.dims f.pixel_format f.num_planes.toNat w.toNat h.toNat)[i]? = some rc →
      rc.1 ≤ Spec.strideOf strides i rc.1)
    (hw : ∀ p, p ∈ ws ↔ PlaneWrites
      (Spec.dims f.pixel_format f.num_planes.toNat w.toNat h.toNat)
      (Spec.strideOf strides) planes p) :
    withMem db ((memOf db).apply ws) = Spec.painted f w h strides planes db := by
  unfold withMem Spec.painted
  apply List.ext_getElem?
  intro i
  rw [List.getElem?_mapIdx, List.getElem?_mapIdx]
  cases hb : db[i]? with
  | none => rfl
  | some b =>
    simp only [Option.map_some, Option.some.injEq]
    have hm : memOf db i = b.bytes := by funext k; simp only [memOf, hb]
    have hold : (∀ v k, (⟨i, k, v⟩ : Write) ∉ ws) →
        (⟨b.len, (memOf db).apply ws i⟩ : Buf) = b := by
      intro hn
      have : (memOf db).apply ws i = b.bytes := by
        funext k
        rw [Mem.apply_not_mem _ _ _ _ (fun v => hn v k), hm]
      rw [this]
    split
    · rename_i rc g hrc hg
      have hr := hf i b rc hb hrc
      congr 1
      funext k
      by_cases hk : ∃ y, y < rc.2 ∧ ∃ j, j < rc.1 ∧ k = Spec.strideOf strides i rc.1 * y + j
      · obtain ⟨y, hy, j, hj, rfl⟩ := hk
        rw [paint_hit hr hy hj]
        apply Mem.apply_mem
        · rw [hw]
          exact ⟨rc, g, hrc, hg, y, hy, j, hj, rfl, rfl⟩
        · intro v' hv'
          rw [hw] at hv'
          obtain ⟨rc', g', hrc', hg', y', hy', j', hj', he, hv⟩ := hv'
          simp only [hrc, hg, Option.some.injEq] at hrc' hg' he hv
          subst hrc' hg'
          obtain ⟨rfl, rfl⟩ := addr_inj hr hj hj' he
          exact hv
      · rw [paint_miss (fun y hy j hj e => hk ⟨y, hy, j, hj, e⟩)]
        rw [Mem.apply_not_mem, hm]
        intro v hv
        rw [hw] at hv
        obtain ⟨rc', g', hrc', hg', y', hy', j', hj', he, hv⟩ := hv
        simp only [hrc, Option.some.injEq] at hrc' he
        subst hrc'
        exact hk ⟨y', hy', j', hj', he⟩
    · rename_i hno
      apply hold
      intro v k hv
      rw [hw] at hv
      obtain ⟨rc', g', hrc', hg', _⟩ := hv
      exact hno rc' g' hrc' hg'

/-- A rectangle starting at the beginning of plane `i`. -/
theorem rect_plane {i len stride row rows : Nat} {f : Spec.Plane} (p : Write) :
    Rect ⟨i, 0, len⟩ stride row rows f p ↔ p.plane = i ∧
      ∃ y, y < rows ∧ ∃ j, j < row ∧ p.idx = stride * y + j ∧ p.val = f j y := by
  rcases p with ⟨pl, ix, v⟩
  unfold Rect
  constructor
  · rintro ⟨y, hy, j, hj, h⟩
    simp only [Write.mk.injEq, Nat.zero_add] at h
    exact ⟨h.1, y, hy, j, hj, h.2.1, h.2.2⟩
  · rintro ⟨h1, y, hy, j, hj, h2, h3⟩
    exact ⟨y, hy, j, hj, by simp only [Write.mk.injEq, Nat.zero_add]; exact ⟨h1, h2, h3⟩⟩

theorem planeWrites_one {rc : Nat × Nat} {st : Nat → Nat → Nat} {f : Spec.Plane} {len : Nat}
    (p : Write) :
    Rect ⟨0, 0, len⟩ (st 0 rc.1) rc.1 rc.2 f p ↔ PlaneWrites [rc] st [f] p := by
  rw [rect_plane, PlaneWrites]
  constructor
  · rintro ⟨h, h'⟩
    exact ⟨rc, f, by rw [h]; rfl, by rw [h]; rfl, by rwa [h]⟩
  · rintro ⟨rc', f', h1, h2, h3⟩
    have hp : p.plane = 0 := by
      have := (List.getElem?_eq_some_iff.1 h1).1
      simpa using this
    rw [hp] at h1 h2 h3
    simp only [List.getElem?_cons_zero, Option.some.injEq] at h1 h2
    subst h1 h2
    exact ⟨hp, h3⟩

theorem planeWrites_two {rc0 rc1 : Nat × Nat} {st : Nat → Nat → Nat} {f0 f1 : Spec.Plane}
    {l0 l1 : Nat} (p : Write) :
    (Rect ⟨0, 0, l0⟩ (st 0 rc0.1) rc0.1 rc0.2 f0 p ∨
      Rect ⟨1, 0, l1⟩ (st 1 rc1.1) rc1.1 rc1.2 f1 p) ↔ PlaneWrites [rc0, rc1] st [f0, f1] p := by
  rw [rect_plane, rect_plane, PlaneWrites]
  constructor
  · rintro (⟨h, h'⟩ | ⟨h, h'⟩)
    · exact ⟨rc0, f0, by rw [h]; rfl, by rw [h]; rfl, by rwa [h]⟩
    · exact ⟨rc1, f1, by rw [h]; rfl, by rw [h]; rfl, by rwa [h]⟩
  · rintro ⟨rc', f', h1, h2, h3⟩
    have hp : p.plane < 2 := (List.getElem?_eq_some_iff.1 h1).1
    rcases (by omega : p.plane = 0 ∨ p.plane = 1) with hp | hp <;>
    · rw [hp] at h1 h2 h3
      simp at h1 h2
      subst h1 h2
      first | exact .inl ⟨hp, h3⟩ | exact .inr ⟨hp, h3⟩

theorem planeWrites_three {rc0 rc1 rc2 : Nat × Nat} {st : Nat → Nat → Nat}
    {f0 f1 f2 : Spec.Plane} {l0 l1 l2 : Nat} (p : Write) :
    (Rect ⟨0, 0, l0⟩ (st 0 rc0.1) rc0.1 rc0.2 f0 p ∨
      Rect ⟨1, 0, l1⟩ (st 1 rc1.1) rc1.1 rc1.2 f1 p ∨
      Rect ⟨2, 0, l2⟩ (st 2 rc2.1) rc2.1 rc2.2 f2 p) ↔
      PlaneWrites [rc0, rc1, rc2] st [f0, f1, f2] p := by
  rw [rect_plane, rect_plane, rect_plane, PlaneWrites]
  constructor
  · rintro (⟨h, h'⟩ | ⟨h, h'⟩ | ⟨h, h'⟩)
    · exact ⟨rc0, f0, by rw [h]; rfl, by rw [h]; rfl, by rwa [h]⟩
    · exact ⟨rc1, f1, by rw [h]; rfl, by rw [h]; rfl, by rwa [h]⟩
    · exact ⟨rc2, f2, by rw [h]; rfl, by rw [h]; rfl, by rwa [h]⟩
  · rintro ⟨rc', f', h1, h2, h3⟩
    have hp : p.plane < 3 := (List.getElem?_eq_some_iff.1 h1).1
    rcases (by omega : p.plane = 0 ∨ p.plane = 1 ∨ p.plane = 2) with hp | hp | hp <;>
    · rw [hp] at h1 h2 h3
      simp at h1 h2
      subst h1 h2
      first
      | exact .inl ⟨hp, h3⟩
      | exact .inr (.inl ⟨hp, h3⟩)
      | exact .inr (.inr ⟨hp, h3⟩)

/-- Two stacked rectangles with the same stride. -/
theorem rect_stack {l0 l1 l stride row h0 h1 : Nat} {f0 f1 : Spec.Plane} (p : Write) :
    (Rect ⟨0, 0, l0⟩ stride row h0 f0 p ∨ Rect ⟨0, 0 + stride * h0, l1⟩ stride row h1 f1 p) ↔
      Rect ⟨0, 0, l⟩ stride row (h0 + h1)
        (fun j y => if y < h0 then f0 j y else f1 j (y - h0)) p := by
  have hif : ∀ y j, y < h0 →
      (fun j y => if y < h0 then f0 j y else f1 j (y - h0)) j y = f0 j y :=
    fun y j h => if_pos h
  have hnf : ∀ y j, ¬ y < h0 →
      (fun j y => if y < h0 then f0 j y else f1 j (y - h0)) j y = f1 j (y - h0) :=
    fun y j h => if_neg h
  unfold Rect
  constructor
  · rintro (⟨y, hy, j, hj, e⟩ | ⟨y, hy, j, hj, e⟩)
    · exact ⟨y, by omega, j, hj, by rw [e, hif y j hy]⟩
    · refine ⟨h0 + y, by omega, j, hj, ?_⟩
      rw [e, hnf _ _ (by omega), show h0 + y - h0 = y by omega, Nat.mul_add]
      simp only [Nat.zero_add, Nat.add_assoc]
  · rintro ⟨y, hy, j, hj, e⟩
    by_cases hlt : y < h0
    · exact .inl ⟨y, hlt, j, hj, by rw [e, hif y j hlt]⟩
    · refine .inr ⟨y - h0, by omega, j, hj, ?_⟩
      rw [e, hnf _ _ hlt]
      congr 1
      have : stride * y = stride * h0 + stride * (y - h0) := by
        rw [← Nat.mul_add, show h0 + (y - h0) = y by omega]
      show 0 + (stride * y + j) = 0 + stride * h0 + (stride * (y - h0) + j)
      omega

end Verif
