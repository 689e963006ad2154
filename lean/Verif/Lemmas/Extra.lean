import Verif.Lemmas.Convert
/-!
# Elements of the arrays beyond the planes of an image have no influence
-/

namespace Verif

/-- Two lists agree on their first `n` elements, which both have. -/
structure Agree {α : Type} (n : Nat) (l l' : List α) : Prop where
  left : n ≤ l.length
  right : n ≤ l'.length
  eq : ∀ i, i < n → l[i]? = l'[i]?

theorem Agree.idx {α : Type} {n : Nat} {l l' : List α} (h : Agree n l l') {i : Nat} (hi : i < n) :
    idx l i = idx l' i := by
  unfold Verif.idx
  rw [h.eq i hi]

theorem Agree.refl {α : Type} {n : Nat} {l : List α} (h : n ≤ l.length) : Agree n l l :=
  ⟨h, h, fun _ _ => rfl⟩

section
variable {t : Target} {depth : Nat} {w h : UInt32} {sl sl' dsl dsl' : List Nat}
  {sb sb' : List Buf} {dl dl' : List Dst}

theorem Wrap.rgb_i420_agree {k} (a : Agree 1 sl sl') (b : Agree 1 sb sb') (c : Agree 3 dsl dsl')
    (d : Agree 3 dl dl') :
    Wrap.rgb_i420 t depth k w h sl sb dsl dl = Wrap.rgb_i420 t depth k w h sl' sb' dsl' dl' := by
  have e1 : ¬ (sl.length = 0 ∨ sb.length = 0 ∨ dsl.length < 3 ∨ dl.length < 3) := by
    have := a.left; have := b.left; have := c.left; have := d.left; omega
  have e2 : ¬ (sl'.length = 0 ∨ sb'.length = 0 ∨ dsl'.length < 3 ∨ dl'.length < 3) := by
    have := a.right; have := b.right; have := c.right; have := d.right; omega
  unfold Wrap.rgb_i420
  rw [if_neg e1, if_neg e2]
  simp only [a.idx (by omega : 0 < 1), b.idx (by omega : 0 < 1), c.idx (by omega : 0 < 3),
    c.idx (by omega : 1 < 3), c.idx (by omega : 2 < 3), d.idx (by omega : 0 < 3),
    d.idx (by omega : 1 < 3), d.idx (by omega : 2 < 3)]

theorem Wrap.rgb_i444_agree {k} (a : Agree 1 sl sl') (b : Agree 1 sb sb') (c : Agree 3 dsl dsl')
    (d : Agree 3 dl dl') :
    Wrap.rgb_i444 t depth k w h sl sb dsl dl = Wrap.rgb_i444 t depth k w h sl' sb' dsl' dl' := by
  have e1 : ¬ (sl.length = 0 ∨ sb.length = 0 ∨ dsl.length < 3 ∨ dl.length < 3) := by
    have := a.left; have := b.left; have := c.left; have := d.left; omega
  have e2 : ¬ (sl'.length = 0 ∨ sb'.length = 0 ∨ dsl'.length < 3 ∨ dl'.length < 3) := by
    have := a.right; have := b.right; have := c.right; have := d.right; omega
  unfold Wrap.rgb_i444
  rw [if_neg e1, if_neg e2]
  simp only [a.idx (by omega : 0 < 1), b.idx (by omega : 0 < 1), c.idx (by omega : 0 < 3),
    c.idx (by omega : 1 < 3), c.idx (by omega : 2 < 3), d.idx (by omega : 0 < 3),
    d.idx (by omega : 1 < 3), d.idx (by omega : 2 < 3)]

theorem Wrap.rgb_nv12_agree {k} {n : Nat} (a : Agree 1 sl sl') (b : Agree 1 sb sb')
    (c : Agree (n + 1) dsl dsl') (d : Agree (n + 1) dl dl') :
    Wrap.rgb_nv12 t depth k w h sl sb n dsl dl = Wrap.rgb_nv12 t depth k w h sl' sb' n dsl' dl' := by
  have e1 : ¬ (sl.length = 0 ∨ sb.length = 0 ∨ n ≥ dsl.length ∨ n ≥ dl.length) := by
    have := a.left; have := b.left; have := c.left; have := d.left; omega
  have e2 : ¬ (sl'.length = 0 ∨ sb'.length = 0 ∨ n ≥ dsl'.length ∨ n ≥ dl'.length) := by
    have := a.right; have := b.right; have := c.right; have := d.right; omega
  unfold Wrap.rgb_nv12
  rw [if_neg e1, if_neg e2]
  simp only [a.idx (by omega : 0 < 1), b.idx (by omega : 0 < 1), c.idx (by omega : 0 < n + 1),
    c.idx (by omega : n < n + 1), d.idx (by omega : 0 < n + 1), d.idx (by omega : n < n + 1)]

theorem Wrap.i420_rgb_agree {k} (a : Agree 3 sl sl') (b : Agree 3 sb sb') (c : Agree 1 dsl dsl')
    (d : Agree 1 dl dl') :
    Wrap.i420_rgb t depth k w h sl sb dsl dl = Wrap.i420_rgb t depth k w h sl' sb' dsl' dl' := by
  have e1 : ¬ (sl.length < 3 ∨ sb.length < 3 ∨ dsl.length = 0 ∨ dl.length = 0) := by
    have := a.left; have := b.left; have := c.left; have := d.left; omega
  have e2 : ¬ (sl'.length < 3 ∨ sb'.length < 3 ∨ dsl'.length = 0 ∨ dl'.length = 0) := by
    have := a.right; have := b.right; have := c.right; have := d.right; omega
  unfold Wrap.i420_rgb
  rw [if_neg e1, if_neg e2]
  simp only [c.idx (by omega : 0 < 1), d.idx (by omega : 0 < 1), a.idx (by omega : 0 < 3),
    a.idx (by omega : 1 < 3), a.idx (by omega : 2 < 3), b.idx (by omega : 0 < 3),
    b.idx (by omega : 1 < 3), b.idx (by omega : 2 < 3)]

theorem Wrap.i444_rgb_agree {k} (a : Agree 3 sl sl') (b : Agree 3 sb sb') (c : Agree 1 dsl dsl')
    (d : Agree 1 dl dl') :
    Wrap.i444_rgb t depth k w h sl sb dsl dl = Wrap.i444_rgb t depth k w h sl' sb' dsl' dl' := by
  have e1 : ¬ (sl.length < 3 ∨ sb.length < 3 ∨ dsl.length = 0 ∨ dl.length = 0) := by
    have := a.left; have := b.left; have := c.left; have := d.left; omega
  have e2 : ¬ (sl'.length < 3 ∨ sb'.length < 3 ∨ dsl'.length = 0 ∨ dl'.length = 0) := by
    have := a.right; have := b.right; have := c.right; have := d.right; omega
  unfold Wrap.i444_rgb
  rw [if_neg e1, if_neg e2]
  simp only [c.idx (by omega : 0 < 1), d.idx (by omega : 0 < 1), a.idx (by omega : 0 < 3),
    a.idx (by omega : 1 < 3), a.idx (by omega : 2 < 3), b.idx (by omega : 0 < 3),
    b.idx (by omega : 1 < 3), b.idx (by omega : 2 < 3)]

theorem Wrap.nv12_rgb_agree {k} {n : Nat} (a : Agree (n + 1) sl sl') (b : Agree (n + 1) sb sb')
    (c : Agree 1 dsl dsl') (d : Agree 1 dl dl') :
    Wrap.nv12_rgb t depth k w h n sl sb dsl dl = Wrap.nv12_rgb t depth k w h n sl' sb' dsl' dl' := by
  have e1 : ¬ (n ≥ sl.length ∨ n ≥ sb.length ∨ dsl.length = 0 ∨ dl.length = 0) := by
    have := a.left; have := b.left; have := c.left; have := d.left; omega
  have e2 : ¬ (n ≥ sl'.length ∨ n ≥ sb'.length ∨ dsl'.length = 0 ∨ dl'.length = 0) := by
    have := a.right; have := b.right; have := c.right; have := d.right; omega
  unfold Wrap.nv12_rgb
  rw [if_neg e1, if_neg e2]
  simp only [c.idx (by omega : 0 < 1), d.idx (by omega : 0 < 1), a.idx (by omega : 0 < n + 1),
    a.idx (by omega : n < n + 1), b.idx (by omega : 0 < n + 1), b.idx (by omega : n < n + 1)]

theorem Wrap.rgb_rgb_agree {k} {depth' : Nat} (a : Agree 1 sl sl') (b : Agree 1 sb sb')
    (c : Agree 1 dsl dsl') (d : Agree 1 dl dl') :
    Wrap.rgb_rgb t depth depth' k w h sl sb dsl dl =
      Wrap.rgb_rgb t depth depth' k w h sl' sb' dsl' dl' := by
  have e1 : ¬ (sl.length = 0 ∨ sb.length = 0 ∨ dsl.length = 0 ∨ dl.length = 0) := by
    have := a.left; have := b.left; have := c.left; have := d.left; omega
  have e2 : ¬ (sl'.length = 0 ∨ sb'.length = 0 ∨ dsl'.length = 0 ∨ dl'.length = 0) := by
    have := a.right; have := b.right; have := c.right; have := d.right; omega
  unfold Wrap.rgb_rgb
  rw [if_neg e1, if_neg e2]
  simp only [a.idx (by omega : 0 < 1), b.idx (by omega : 0 < 1), c.idx (by omega : 0 < 1),
    d.idx (by omega : 0 < 1)]

/-- A routine looks at the planes of its images only. -/
theorem exec_agree (t : Target) (I : Impl) (r : Routine) {sf df : ImageFormat}
    (hk : r.key = ((sf.pixel_format, sf.color_space), (df.pixel_format, df.color_space)))
    (h1 : Spec.PlanesOk sf.pixel_format sf.num_planes.toNat)
    (h2 : Spec.PlanesOk df.pixel_format df.num_planes.toNat)
    (a : Agree sf.num_planes.toNat sl sl') (b : Agree sf.num_planes.toNat sb sb')
    (c : Agree df.num_planes.toNat dsl dsl') (d : Agree df.num_planes.toNat dl dl') :
    r.exec t I w h (sf.num_planes - 1) sl sb (df.num_planes - 1) dsl dl =
      r.exec t I w h (sf.num_planes - 1) sl' sb' (df.num_planes - 1) dsl' dl' := by
  rcases sf with ⟨spf, scs, sn⟩
  rcases df with ⟨dpf, dcs, dn⟩
  simp only at *
  have pred : ∀ n : UInt32, n.toNat = 1 ∨ n.toNat = 2 → (n - 1).toNat + 1 = n.toNat := by
    intro n hn
    rcases hn with e | e
    · rw [u32_pred_toNat (k := 0) e, e]
    · rw [u32_pred_toNat (k := 1) e, e]
  rcases r with ⟨s, _ | _ | _, cs⟩ | ⟨_ | _ | _, cs, s⟩ | _ | _ | _ <;>
    simp only [Routine.key, Prod.mk.injEq] at hk <;>
    obtain ⟨⟨k1, -⟩, k2, -⟩ := hk <;> subst k1 k2
  · cases s <;> rw [show sn.toNat = 1 from h1] at a b <;> rw [show dn.toNat = 3 from h2] at c d <;>
      exact Wrap.rgb_i420_agree a b c d
  · cases s <;> rw [show sn.toNat = 1 from h1] at a b <;> rw [show dn.toNat = 3 from h2] at c d <;>
      exact Wrap.rgb_i444_agree a b c d
  · have := pred dn h2
    rw [← this] at c d
    cases s <;> rw [show sn.toNat = 1 from h1] at a b <;> exact Wrap.rgb_nv12_agree a b c d
  · cases s <;> rw [show sn.toNat = 3 from h1] at a b <;> rw [show dn.toNat = 1 from h2] at c d <;>
      exact Wrap.i420_rgb_agree a b c d
  · cases s <;> rw [show sn.toNat = 3 from h1] at a b <;> rw [show dn.toNat = 1 from h2] at c d <;>
      exact Wrap.i444_rgb_agree a b c d
  · have := pred sn h1
    rw [← this] at a b
    cases s <;> rw [show dn.toNat = 1 from h2] at c d <;> exact Wrap.nv12_rgb_agree a b c d
  all_goals
    rw [show sn.toNat = 1 from h1] at a b
    rw [show dn.toNat = 1 from h2] at c d
    exact Wrap.rgb_rgb_agree a b c d

end

/-- `convert_image` looks at the planes of its images only. -/
theorem convert_image_with_agree {t : Target} {impls : InstructionSet → Impl}
    {set : InstructionSet} {tb : DispatchTable} (hT : TableFor set tb) {w h : UInt32}
    {sf df : ImageFormat} {ss ss' ds ds' : Option (List Nat)} {sb sb' : List Buf}
    {dl dl' : List Dst} (a : Agree sf.num_planes.toNat (ss.getD PixFmt.DEFAULT_STRIDES)
      (ss'.getD PixFmt.DEFAULT_STRIDES)) (b : Agree sf.num_planes.toNat sb sb')
    (c : Agree df.num_planes.toNat (ds.getD PixFmt.DEFAULT_STRIDES)
      (ds'.getD PixFmt.DEFAULT_STRIDES)) (d : Agree df.num_planes.toNat dl dl') :
    convert_image_with t impls tb w h sf ss sb df ds dl =
      convert_image_with t impls tb w h sf ss' sb' df ds' dl' := by
  by_cases hl : Spec.Legal sf w h ∧ Spec.Legal df w h
  · by_cases hs : Spec.Supported sf.pixel_format df.pixel_format
    · obtain ⟨r, k1, -, e1⟩ := convert_supported (t := t) (impls := impls) (ss := ss)
        (sb := sb) (ds := ds) (dl := dl) hT hl.1 hl.2 hs
      obtain ⟨r', k2, -, e2⟩ := convert_supported (t := t) (impls := impls) (ss := ss')
        (sb := sb') (ds := ds') (dl := dl') hT hl.1 hl.2 hs
      cases key_inj _ _ (k1.trans k2.symm)
      rw [e1, e2, exec_agree t (impls set) r k1 hl.1.planes hl.2.planes a b c d]
    · rw [convert_unsupported hT hl.1 hl.2 hs, convert_unsupported hT hl.1 hl.2 hs]
  · have hl' : ¬ Spec.Legal sf w h ∨ ¬ Spec.Legal df w h := by
      by_cases h1 : Spec.Legal sf w h
      · exact .inr fun h2 => hl ⟨h1, h2⟩
      · exact .inl h1
    rw [convert_invalid hl', convert_invalid hl']

end Verif
