import Verif.Spec.Arguments
import Verif.Lemmas.Api
import Verif.Lemmas.Convert
/-! # Which arguments a routine looks at -/

namespace Verif

/-- The first `n` elements exist in both lists and are the same. -/
structure SameFirst {α : Type} (n : Nat) (l l' : List α) : Prop where
  len : n ≤ l.length
  len' : n ≤ l'.length
  same : ∀ i, i < n → l[i]? = l'[i]?

/-- The first `n` strides exist in both lists and denote the same distance between lines, where
`row i` is the packed line. -/
structure SameLines (n : Nat) (row : Nat → R Nat) (l l' : List Nat) : Prop where
  len : n ≤ l.length
  len' : n ≤ l'.length
  same : ∀ i a a', i < n → l[i]? = some a → l'[i]? = some a' → ∀ r, row i = .ok r →
    compute_stride a r = compute_stride a' r

theorem idx_some {α : Type} {l : List α} {i : Nat} {a : α} (h : l[i]? = some a) : idx l i = .ok a := by
  unfold idx; rw [h]

theorem SameFirst.idx {α : Type} {n : Nat} {l l' : List α} (h : SameFirst n l l') {i : Nat}
    (hi : i < n) : ∃ a, Verif.idx l i = .ok a ∧ Verif.idx l' i = .ok a := by
  have h1 : i < l.length := Nat.lt_of_lt_of_le hi h.len
  have e := h.same i hi
  rw [List.getElem?_eq_getElem h1] at e
  exact ⟨l[i], idx_some (List.getElem?_eq_getElem h1), idx_some e.symm⟩

theorem SameLines.idx {n : Nat} {row : Nat → R Nat} {l l' : List Nat} (h : SameLines n row l l')
    {i : Nat} (hi : i < n) : ∃ a a', Verif.idx l i = .ok a ∧ Verif.idx l' i = .ok a' ∧
      ∀ r, row i = .ok r → compute_stride a r = compute_stride a' r := by
  have h1 : i < l.length := Nat.lt_of_lt_of_le hi h.len
  have h2 : i < l'.length := Nat.lt_of_lt_of_le hi h.len'
  exact ⟨l[i], l'[i], idx_some (List.getElem?_eq_getElem h1), idx_some (List.getElem?_eq_getElem h2),
    h.same i _ _ hi (List.getElem?_eq_getElem h1) (List.getElem?_eq_getElem h2)⟩

namespace Wrap

variable {t : Target} {depth : Nat} {w h : UInt32} {ss ss' ds ds' : List Nat} {sb sb' : List Buf}
  {db db' : List Dst}

theorem rgb_i444_congr {kernel : RgbPlanarKernel}
    (hs : SameLines 1 (fun _ => t.mul depth w.toNat) ss ss') (hb : SameFirst 1 sb sb')
    (hd : SameLines 3 (fun _ => .ok w.toNat) ds ds') (hp : SameFirst 3 db db') :
    rgb_i444 t depth kernel w h ss sb ds db = rgb_i444 t depth kernel w h ss' sb' ds' db' := by
  unfold rgb_i444
  have c1 : ¬ (ss.length = 0 ∨ sb.length = 0 ∨ ds.length < 3 ∨ db.length < 3) := by
    have := hs.len; have := hb.len; have := hd.len; have := hp.len; omega
  have c2 : ¬ (ss'.length = 0 ∨ sb'.length = 0 ∨ ds'.length < 3 ∨ db'.length < 3) := by
    have := hs.len'; have := hb.len'; have := hd.len'; have := hp.len'; omega
  rw [if_neg c1, if_neg c2]
  obtain ⟨a, a', e1, e1', f1⟩ := hs.idx (i := 0) (by omega)
  obtain ⟨b, b', e2, e2', f2⟩ := hd.idx (i := 0) (by omega)
  obtain ⟨c, c', e3, e3', f3⟩ := hd.idx (i := 1) (by omega)
  obtain ⟨d, d', e4, e4', f4⟩ := hd.idx (i := 2) (by omega)
  obtain ⟨p, g1, g1'⟩ := hb.idx (i := 0) (by omega)
  obtain ⟨q, g2, g2'⟩ := hp.idx (i := 0) (by omega)
  obtain ⟨r, g3, g3'⟩ := hp.idx (i := 1) (by omega)
  obtain ⟨s, g4, g4'⟩ := hp.idx (i := 2) (by omega)
  cases hm : t.mul depth w.toNat with
  | error e => simp only [hm, K.liftM_eq, K.lift_error, K.throw_bind]
  | ok m =>
    simp only [e1, e1', e2, e2', e3, e3', e4, e4', g1, g1', g2, g2', g3, g3', g4, g4', K.liftM_eq,
      K.lift_ok, pure_bind, hm, f1 m hm, f2 _ rfl, f3 _ rfl, f4 _ rfl]

theorem rgb_i420_congr {kernel : RgbPlanarKernel}
    (hs : SameLines 1 (fun _ => t.mul depth w.toNat) ss ss') (hb : SameFirst 1 sb sb')
    (hd : SameLines 3 (fun i => .ok (if i = 0 then w.toNat else w.toNat / 2)) ds ds')
    (hp : SameFirst 3 db db') :
    rgb_i420 t depth kernel w h ss sb ds db = rgb_i420 t depth kernel w h ss' sb' ds' db' := by
  unfold rgb_i420
  have c1 : ¬ (ss.length = 0 ∨ sb.length = 0 ∨ ds.length < 3 ∨ db.length < 3) := by
    have := hs.len; have := hb.len; have := hd.len; have := hp.len; omega
  have c2 : ¬ (ss'.length = 0 ∨ sb'.length = 0 ∨ ds'.length < 3 ∨ db'.length < 3) := by
    have := hs.len'; have := hb.len'; have := hd.len'; have := hp.len'; omega
  rw [if_neg c1, if_neg c2]
  obtain ⟨a, a', e1, e1', f1⟩ := hs.idx (i := 0) (by omega)
  obtain ⟨b, b', e2, e2', f2⟩ := hd.idx (i := 0) (by omega)
  obtain ⟨c, c', e3, e3', f3⟩ := hd.idx (i := 1) (by omega)
  obtain ⟨d, d', e4, e4', f4⟩ := hd.idx (i := 2) (by omega)
  obtain ⟨p, g1, g1'⟩ := hb.idx (i := 0) (by omega)
  obtain ⟨q, g2, g2'⟩ := hp.idx (i := 0) (by omega)
  obtain ⟨r, g3, g3'⟩ := hp.idx (i := 1) (by omega)
  obtain ⟨s, g4, g4'⟩ := hp.idx (i := 2) (by omega)
  have f2 := f2 w.toNat rfl
  have f3 := f3 (w.toNat / 2) rfl
  have f4 := f4 (w.toNat / 2) rfl
  cases hm : t.mul depth w.toNat with
  | error e => simp only [hm, K.liftM_eq, K.lift_error, K.throw_bind]
  | ok m =>
    simp only [e1, e1', e2, e2', e3, e3', e4, e4', g1, g1', g2, g2', g3, g3', g4, g4', K.liftM_eq,
      K.lift_ok, pure_bind, hm, f1 m hm, f2, f3, f4]

theorem rgb_nv12_congr {kernel : RgbNv12Kernel} {lp : Nat}
    (hs : SameLines 1 (fun _ => t.mul depth w.toNat) ss ss') (hb : SameFirst 1 sb sb')
    (hd : SameLines (lp + 1) (fun _ => .ok w.toNat) ds ds') (hp : SameFirst (lp + 1) db db') :
    rgb_nv12 t depth kernel w h ss sb lp ds db = rgb_nv12 t depth kernel w h ss' sb' lp ds' db' := by
  unfold rgb_nv12
  have c1 : ¬ (ss.length = 0 ∨ sb.length = 0 ∨ lp ≥ ds.length ∨ lp ≥ db.length) := by
    have := hs.len; have := hb.len; have := hd.len; have := hp.len; omega
  have c2 : ¬ (ss'.length = 0 ∨ sb'.length = 0 ∨ lp ≥ ds'.length ∨ lp ≥ db'.length) := by
    have := hs.len'; have := hb.len'; have := hd.len'; have := hp.len'; omega
  rw [if_neg c1, if_neg c2]
  obtain ⟨a, a', e1, e1', f1⟩ := hs.idx (i := 0) (by omega)
  obtain ⟨b, b', e2, e2', f2⟩ := hd.idx (i := 0) (by omega)
  obtain ⟨c, c', e3, e3', f3⟩ := hd.idx (i := lp) (by omega)
  obtain ⟨p, g1, g1'⟩ := hb.idx (i := 0) (by omega)
  obtain ⟨q, g2, g2'⟩ := hp.idx (i := 0) (by omega)
  obtain ⟨r, g3, g3'⟩ := hp.idx (i := lp) (by omega)
  cases hm : t.mul depth w.toNat with
  | error e => simp only [hm, K.liftM_eq, K.lift_error, K.throw_bind]
  | ok m =>
    simp only [e1, e1', e2, e2', e3, e3', g1, g1', g2, g2', g3, g3', K.liftM_eq,
      K.lift_ok, pure_bind, hm, f1 m hm, f2 _ rfl, f3 _ rfl]

theorem i444_rgb_congr {kernel : PlanarRgbKernel}
    (hs : SameLines 3 (fun _ => .ok w.toNat) ss ss') (hb : SameFirst 3 sb sb')
    (hd : SameLines 1 (fun _ => t.mul depth w.toNat) ds ds') (hp : SameFirst 1 db db') :
    i444_rgb t depth kernel w h ss sb ds db = i444_rgb t depth kernel w h ss' sb' ds' db' := by
  unfold i444_rgb
  have c1 : ¬ (ss.length < 3 ∨ sb.length < 3 ∨ ds.length = 0 ∨ db.length = 0) := by
    have := hs.len; have := hb.len; have := hd.len; have := hp.len; omega
  have c2 : ¬ (ss'.length < 3 ∨ sb'.length < 3 ∨ ds'.length = 0 ∨ db'.length = 0) := by
    have := hs.len'; have := hb.len'; have := hd.len'; have := hp.len'; omega
  rw [if_neg c1, if_neg c2]
  obtain ⟨a, a', e1, e1', f1⟩ := hd.idx (i := 0) (by omega)
  obtain ⟨b, b', e2, e2', f2⟩ := hs.idx (i := 0) (by omega)
  obtain ⟨c, c', e3, e3', f3⟩ := hs.idx (i := 1) (by omega)
  obtain ⟨d, d', e4, e4', f4⟩ := hs.idx (i := 2) (by omega)
  obtain ⟨p, g1, g1'⟩ := hp.idx (i := 0) (by omega)
  obtain ⟨q, g2, g2'⟩ := hb.idx (i := 0) (by omega)
  obtain ⟨r, g3, g3'⟩ := hb.idx (i := 1) (by omega)
  obtain ⟨s, g4, g4'⟩ := hb.idx (i := 2) (by omega)
  cases hm : t.mul depth w.toNat with
  | error e => simp only [hm, K.liftM_eq, K.lift_error, K.throw_bind]
  | ok m =>
    simp only [e1, e1', e2, e2', e3, e3', e4, e4', g1, g1', g2, g2', g3, g3', g4, g4', K.liftM_eq,
      K.lift_ok, pure_bind, hm, f1 m hm, f2 _ rfl, f3 _ rfl, f4 _ rfl]

theorem i420_rgb_congr {kernel : PlanarRgbKernel}
    (hs : SameLines 3 (fun i => .ok (if i = 0 then w.toNat else w.toNat / 2)) ss ss')
    (hb : SameFirst 3 sb sb')
    (hd : SameLines 1 (fun _ => t.mul depth w.toNat) ds ds') (hp : SameFirst 1 db db') :
    i420_rgb t depth kernel w h ss sb ds db = i420_rgb t depth kernel w h ss' sb' ds' db' := by
  unfold i420_rgb
  have c1 : ¬ (ss.length < 3 ∨ sb.length < 3 ∨ ds.length = 0 ∨ db.length = 0) := by
    have := hs.len; have := hb.len; have := hd.len; have := hp.len; omega
  have c2 : ¬ (ss'.length < 3 ∨ sb'.length < 3 ∨ ds'.length = 0 ∨ db'.length = 0) := by
    have := hs.len'; have := hb.len'; have := hd.len'; have := hp.len'; omega
  rw [if_neg c1, if_neg c2]
  obtain ⟨a, a', e1, e1', f1⟩ := hd.idx (i := 0) (by omega)
  obtain ⟨b, b', e2, e2', f2⟩ := hs.idx (i := 0) (by omega)
  obtain ⟨c, c', e3, e3', f3⟩ := hs.idx (i := 1) (by omega)
  obtain ⟨d, d', e4, e4', f4⟩ := hs.idx (i := 2) (by omega)
  obtain ⟨p, g1, g1'⟩ := hp.idx (i := 0) (by omega)
  obtain ⟨q, g2, g2'⟩ := hb.idx (i := 0) (by omega)
  obtain ⟨r, g3, g3'⟩ := hb.idx (i := 1) (by omega)
  obtain ⟨s, g4, g4'⟩ := hb.idx (i := 2) (by omega)
  have f2 := f2 w.toNat rfl
  have f3 := f3 (w.toNat / 2) rfl
  have f4 := f4 (w.toNat / 2) rfl
  cases hm : t.mul depth w.toNat with
  | error e => simp only [hm, K.liftM_eq, K.lift_error, K.throw_bind]
  | ok m =>
    simp only [e1, e1', e2, e2', e3, e3', e4, e4', g1, g1', g2, g2', g3, g3', g4, g4', K.liftM_eq,
      K.lift_ok, pure_bind, hm, f1 m hm, f2, f3, f4]

theorem nv12_rgb_congr {kernel : Nv12RgbKernel} {lp : Nat}
    (hs : SameLines (lp + 1) (fun _ => .ok w.toNat) ss ss') (hb : SameFirst (lp + 1) sb sb')
    (hd : SameLines 1 (fun _ => t.mul depth w.toNat) ds ds') (hp : SameFirst 1 db db') :
    nv12_rgb t depth kernel w h lp ss sb ds db = nv12_rgb t depth kernel w h lp ss' sb' ds' db' := by
  unfold nv12_rgb
  have c1 : ¬ (lp ≥ ss.length ∨ lp ≥ sb.length ∨ ds.length = 0 ∨ db.length = 0) := by
    have := hs.len; have := hb.len; have := hd.len; have := hp.len; omega
  have c2 : ¬ (lp ≥ ss'.length ∨ lp ≥ sb'.length ∨ ds'.length = 0 ∨ db'.length = 0) := by
    have := hs.len'; have := hb.len'; have := hd.len'; have := hp.len'; omega
  rw [if_neg c1, if_neg c2]
  obtain ⟨a, a', e1, e1', f1⟩ := hd.idx (i := 0) (by omega)
  obtain ⟨b, b', e2, e2', f2⟩ := hs.idx (i := 0) (by omega)
  obtain ⟨c, c', e3, e3', f3⟩ := hs.idx (i := lp) (by omega)
  obtain ⟨p, g1, g1'⟩ := hp.idx (i := 0) (by omega)
  obtain ⟨q, g2, g2'⟩ := hb.idx (i := 0) (by omega)
  obtain ⟨r, g3, g3'⟩ := hb.idx (i := lp) (by omega)
  cases hm : t.mul depth w.toNat with
  | error e => simp only [hm, K.liftM_eq, K.lift_error, K.throw_bind]
  | ok m =>
    simp only [e1, e1', e2, e2', e3, e3', g1, g1', g2, g2', g3, g3', K.liftM_eq,
      K.lift_ok, pure_bind, hm, f1 m hm, f2 _ rfl, f3 _ rfl]

theorem rgb_rgb_congr {kernel : RgbRgbKernel} {sd dd : Nat}
    (hs : SameLines 1 (fun _ => t.mul sd w.toNat) ss ss') (hb : SameFirst 1 sb sb')
    (hd : SameLines 1 (fun _ => t.mul dd w.toNat) ds ds') (hp : SameFirst 1 db db') :
    rgb_rgb t sd dd kernel w h ss sb ds db = rgb_rgb t sd dd kernel w h ss' sb' ds' db' := by
  unfold rgb_rgb
  have c1 : ¬ (ss.length = 0 ∨ sb.length = 0 ∨ ds.length = 0 ∨ db.length = 0) := by
    have := hs.len; have := hb.len; have := hd.len; have := hp.len; omega
  have c2 : ¬ (ss'.length = 0 ∨ sb'.length = 0 ∨ ds'.length = 0 ∨ db'.length = 0) := by
    have := hs.len'; have := hb.len'; have := hd.len'; have := hp.len'; omega
  rw [if_neg c1, if_neg c2]
  obtain ⟨a, a', e1, e1', f1⟩ := hs.idx (i := 0) (by omega)
  obtain ⟨b, b', e2, e2', f2⟩ := hd.idx (i := 0) (by omega)
  obtain ⟨p, g1, g1'⟩ := hb.idx (i := 0) (by omega)
  obtain ⟨q, g2, g2'⟩ := hp.idx (i := 0) (by omega)
  simp only [e1, e1', e2, e2', g1, g1', g2, g2', K.liftM_eq, K.lift_ok, pure_bind]
  cases hm : t.mul sd w.toNat with
  | error e => simp only [K.lift_error, K.throw_bind]
  | ok m =>
    cases hm' : t.mul dd w.toNat with
    | error e => simp only [K.lift_ok, pure_bind, K.lift_error, K.throw_bind]
    | ok m' => simp only [K.lift_ok, pure_bind, f1 m hm, f2 m' hm']

end Wrap

/-- Equal distances between lines, as the routines compute them. -/
theorem SameStrides.lines {t : Target} {f : ImageFormat} {w h : UInt32} {s s' : Option (List Nat)}
    (hS : Spec.SameStrides t f w h s s') {n : Nat} {row : Nat → R Nat}
    (hn : n = f.num_planes.toNat) (hn4 : n ≤ 4)
    (hl : ∀ l, s = some l → n ≤ l.length) (hl' : ∀ l, s' = some l → n ≤ l.length)
    (hr : ∀ i, i < n → ∃ rc, (Spec.dims f.pixel_format f.num_planes.toNat w.toNat h.toNat)[i]? =
      some rc ∧ ∀ r, row i = .ok r → r = rc.1 ∨ 2 ^ t.bits ≤ rc.1) :
    SameLines n row (s.getD PixFmt.DEFAULT_STRIDES) (s'.getD PixFmt.DEFAULT_STRIDES) := by
  refine ⟨?_, ?_, ?_⟩
  · cases s with
    | none => exact hn4
    | some l => exact hl l rfl
  · cases s' with
    | none => exact hn4
    | some l => exact hl' l rfl
  · intro i a a' hi ea ea' r hrow
    obtain ⟨b, eb, hb⟩ := stride_at hl hi hn4
    obtain ⟨b', eb', hb'⟩ := stride_at hl' hi hn4
    rw [ea] at eb
    rw [ea'] at eb'
    obtain rfl : a = b := by simpa using eb
    obtain rfl : a' = b' := by simpa using eb'
    obtain ⟨rc, hd, hrc⟩ := hr i hi
    have key := hS.same i rc hd
    rw [← hb, ← hb'] at key
    rcases hrc r hrow with e | e
    · rw [e]; exact key
    · have ha : a < 2 ^ t.bits := by
        cases s with
        | none =>
          have : a = 0 := by
            have : i < 4 := by omega
            rcases (by omega : i = 0 ∨ i = 1 ∨ i = 2 ∨ i = 3) with q | q | q | q <;> subst q <;>
              exact (Option.some.inj ea).symm
          rw [this]; exact Nat.two_pow_pos _
        | some l => exact hS.usize l rfl a (List.mem_of_getElem? ea)
      have ha' : a' < 2 ^ t.bits := by
        cases s' with
        | none =>
          have : a' = 0 := by
            have : i < 4 := by omega
            rcases (by omega : i = 0 ∨ i = 1 ∨ i = 2 ∨ i = 3) with q | q | q | q <;> subst q <;>
              exact (Option.some.inj ea').symm
          rw [this]; exact Nat.two_pow_pos _
        | some l => exact hS.usize' l rfl a' (List.mem_of_getElem? ea')
      unfold compute_stride at key ⊢
      split at key <;> split at key <;> rename_i p q
      · rw [if_pos p, if_pos q]
      · omega
      · omega
      · rw [if_neg p, if_neg q]; exact key

section
variable {t : Target} {impls : InstructionSet → Impl} {set : InstructionSet} {tb : DispatchTable}
  {w h : UInt32} {sf df : ImageFormat} {ss ss' ds ds' : Option (List Nat)} {sb sb' db db' : List Buf}

theorem SameFirst.of_buffers {n : Nat} {l l' : List Buf} (h : ∀ i, i < n → l[i]? = l'[i]?)
    (hl : n ≤ l.length) : SameFirst n l l' := by
  refine ⟨hl, ?_, h⟩
  by_contra hc
  have := h l'.length (by omega)
  rw [List.getElem?_eq_none (Nat.le_refl _), List.getElem?_eq_getElem (by omega)] at this
  cases this

theorem SameFirst.slices {n : Nat} {l l' : List Buf} (h : SameFirst n l l') :
    SameFirst n (dstSlices l) (dstSlices l') := by
  refine ⟨by simpa [dstSlices] using h.len, by simpa [dstSlices] using h.len', fun i hi => ?_⟩
  rw [dstSlices, dstSlices, List.getElem?_mapIdx, List.getElem?_mapIdx, h.same i hi]

theorem mul_row {t : Target} {a b : Nat} : ∀ r, t.mul a b = .ok r → r = a * b ∨ 2 ^ t.bits ≤ a * b := by
  intro r e
  unfold Target.mul at e
  split at e
  · injection e with e; exact Or.inl e.symm
  · right; omega

/-- A routine looks only at the distances between lines and at the first buffers. -/
theorem exec_congr (r : Routine) {I : Impl}
    (hkey : r.key = ((sf.pixel_format, sf.color_space), (df.pixel_format, df.color_space)))
    (hl : Spec.Legal sf w h) (hl' : Spec.Legal df w h)
    (hs : Spec.SameStrides t sf w h ss ss') (hd : Spec.SameStrides t df w h ds ds')
    (ps : Present sf ss sb) (ps' : Present sf ss' sb') (pd : Present df ds db)
    (pd' : Present df ds' db')
    (bs : SameFirst sf.num_planes.toNat sb sb') (bd : SameFirst df.num_planes.toNat db db') :
    r.exec t I w h (sf.num_planes - 1) (ss.getD PixFmt.DEFAULT_STRIDES) sb (df.num_planes - 1)
      (ds.getD PixFmt.DEFAULT_STRIDES) (dstSlices db) =
    r.exec t I w h (sf.num_planes - 1) (ss'.getD PixFmt.DEFAULT_STRIDES) sb' (df.num_planes - 1)
      (ds'.getD PixFmt.DEFAULT_STRIDES) (dstSlices db') := by
  have n1 := planes_le hl.planes
  have n2 := planes_le hl'.planes
  have bd := bd.slices
  rcases sf with ⟨spf, scs, sn⟩
  rcases df with ⟨dpf, dcs, dn⟩
  obtain ⟨-, -, hpl⟩ := hl
  obtain ⟨-, -, hpl'⟩ := hl'
  obtain ⟨ps, -⟩ := ps
  obtain ⟨ps', -⟩ := ps'
  obtain ⟨pd, -⟩ := pd
  obtain ⟨pd', -⟩ := pd'
  simp only at *
  have ls := fun row hr => SameStrides.lines (row := row) hs rfl (by simp only; omega) ps ps' hr
  have ld := fun row hr => SameStrides.lines (row := row) hd rfl (by simp only; omega) pd pd' hr
  simp only at ls ld
  cases r with
  | rgbYuv s y c =>
    simp only [Routine.key, Prod.mk.injEq] at hkey
    obtain ⟨⟨rfl, -⟩, rfl, -⟩ := hkey
    have hsn : sn.toNat = 1 := by cases s <;> exact hpl
    rw [hsn] at bs ls
    have ls := ls (fun _ => t.mul s.pf.depth w.toNat) (by
      intro i hi
      obtain rfl : i = 0 := by omega
      refine ⟨(Spec.bpp s.pf * w.toNat, h.toNat), by cases s <;> rfl, ?_⟩
      have : s.pf.depth = Spec.bpp s.pf := by cases s <;> rfl
      rw [this]
      exact mul_row)
    cases y with
    | i420 =>
      have hdn : dn.toNat = 3 := hpl'
      rw [hdn] at bd ld
      exact Wrap.rgb_i420_congr ls bs (ld _ (by
        intro i hi
        rcases (by omega : i = 0 ∨ i = 1 ∨ i = 2) with e | e | e <;> subst e <;>
          exact ⟨_, rfl, fun r e => Or.inl (Except.ok.inj e).symm⟩)) bd
    | i444 =>
      have hdn : dn.toNat = 3 := hpl'
      rw [hdn] at bd ld
      exact Wrap.rgb_i444_congr ls bs (ld _ (by
        intro i hi
        rcases (by omega : i = 0 ∨ i = 1 ∨ i = 2) with e | e | e <;> subst e <;>
          exact ⟨_, rfl, fun r e => Or.inl (Except.ok.inj e).symm⟩)) bd
    | nv12 =>
      have hz : (dn - 1).toNat = dn.toNat - 1 := u32_pred_toNat (by omega)
      have hd2 : dn.toNat = (dn - 1).toNat + 1 := by omega
      have hp12 : dn.toNat = 1 ∨ dn.toNat = 2 := hpl'
      refine Wrap.rgb_nv12_congr ls bs (hd2 ▸ ld _ ?_) (hd2 ▸ bd)
      intro i hi
      rcases hp12 with q | q <;> rw [q] at hi ⊢
      · obtain rfl : i = 0 := by omega
        exact ⟨_, rfl, fun r e => Or.inl (Except.ok.inj e).symm⟩
      · rcases (by omega : i = 0 ∨ i = 1) with e | e <;> subst e <;>
          exact ⟨_, rfl, fun r e => Or.inl (Except.ok.inj e).symm⟩
  | yuvRgb y c d =>
    simp only [Routine.key, Prod.mk.injEq] at hkey
    obtain ⟨⟨rfl, -⟩, rfl, -⟩ := hkey
    have hdn : dn.toNat = 1 := by cases d <;> exact hpl'
    rw [hdn] at bd ld
    have ld := ld (fun _ => t.mul d.pf.depth w.toNat) (by
      intro i hi
      obtain rfl : i = 0 := by omega
      refine ⟨(Spec.bpp d.pf * w.toNat, h.toNat), by cases d <;> rfl, ?_⟩
      have : d.pf.depth = Spec.bpp d.pf := by cases d <;> rfl
      rw [this]
      exact mul_row)
    cases y with
    | i420 =>
      have hsn : sn.toNat = 3 := hpl
      rw [hsn] at bs ls
      exact Wrap.i420_rgb_congr (ls _ (by
        intro i hi
        rcases (by omega : i = 0 ∨ i = 1 ∨ i = 2) with e | e | e <;> subst e <;>
          exact ⟨_, rfl, fun r e => Or.inl (Except.ok.inj e).symm⟩)) bs ld bd
    | i444 =>
      have hsn : sn.toNat = 3 := hpl
      rw [hsn] at bs ls
      exact Wrap.i444_rgb_congr (ls _ (by
        intro i hi
        rcases (by omega : i = 0 ∨ i = 1 ∨ i = 2) with e | e | e <;> subst e <;>
          exact ⟨_, rfl, fun r e => Or.inl (Except.ok.inj e).symm⟩)) bs ld bd
    | nv12 =>
      have hz : (sn - 1).toNat = sn.toNat - 1 := u32_pred_toNat (by omega)
      have hd2 : sn.toNat = (sn - 1).toNat + 1 := by omega
      have hp12 : sn.toNat = 1 ∨ sn.toNat = 2 := hpl
      refine Wrap.nv12_rgb_congr (hd2 ▸ ls _ ?_) (hd2 ▸ bs) ld bd
      intro i hi
      rcases hp12 with q | q <;> rw [q] at hi ⊢
      · obtain rfl : i = 0 := by omega
        exact ⟨_, rfl, fun r e => Or.inl (Except.ok.inj e).symm⟩
      · rcases (by omega : i = 0 ∨ i = 1) with e | e <;> subst e <;>
          exact ⟨_, rfl, fun r e => Or.inl (Except.ok.inj e).symm⟩
  | rgbRgb q =>
    cases q <;> simp only [Routine.key, Prod.mk.injEq] at hkey <;>
      obtain ⟨⟨rfl, -⟩, rfl, -⟩ := hkey <;>
      (have hsn : sn.toNat = 1 := hpl
       have hdn : dn.toNat = 1 := hpl'
       rw [hsn] at bs ls
       rw [hdn] at bd ld
       refine Wrap.rgb_rgb_congr (ls _ ?_) bs (ld _ ?_) bd <;>
        (intro i hi
         obtain rfl : i = 0 := by omega
         exact ⟨_, rfl, mul_row⟩))

/-- `convert_image` looks only at the distances between lines and at the first buffers. -/
theorem convert_congr (hT : TableFor set tb)
    (hs : Spec.SameStrides t sf w h ss ss') (hd : Spec.SameStrides t df w h ds ds')
    (bs : ∀ i, i < sf.num_planes.toNat → sb[i]? = sb'[i]?)
    (bd : ∀ i, i < df.num_planes.toNat → db[i]? = db'[i]?) :
    convert_image_with t impls tb w h sf ss sb df ds (dstSlices db) =
      convert_image_with t impls tb w h sf ss' sb' df ds' (dstSlices db') := by
  by_cases h1 : Spec.Legal sf w h
  swap
  · rw [convert_invalid (Or.inl h1), convert_invalid (Or.inl h1)]
  by_cases h2 : Spec.Legal df w h
  swap
  · rw [convert_invalid (Or.inr h2), convert_invalid (Or.inr h2)]
  by_cases h3 : Spec.Supported sf.pixel_format df.pixel_format
  swap
  · rw [convert_unsupported hT h1 h2 h3, convert_unsupported hT h1 h2 h3]
  obtain ⟨r, hk, hr, e⟩ := convert_supported (t := t) (impls := impls) (ss := ss) (sb := sb)
    (ds := ds) (dl := dstSlices db) hT h1 h2 h3
  obtain ⟨r', hk', hr', e'⟩ := convert_supported (t := t) (impls := impls) (ss := ss') (sb := sb')
    (ds := ds') (dl := dstSlices db') hT h1 h2 h3
  obtain rfl : r = r' := key_inj _ _ (hk.trans hk'.symm)
  rw [e, e']
  congr 1
  by_cases hw : w = 0
  · rw [exec_empty r (Or.inl hw), exec_empty r (Or.inl hw)]
  by_cases hh : h = 0
  · rw [exec_empty r (Or.inr hh), exec_empty r (Or.inr hh)]
  have len_iff : ∀ {n : Nat} {l l' : List Buf}, (∀ i, i < n → l[i]? = l'[i]?) →
      n ≤ l.length → n ≤ l'.length := fun g k => (SameFirst.of_buffers g k).len'
  have i1 : Present sf ss sb ↔ Present sf ss' sb' :=
    ⟨fun g => ⟨hs.enough.1 g.1, len_iff bs g.2⟩,
      fun g => ⟨hs.enough.2 g.1, len_iff (fun i hi => (bs i hi).symm) g.2⟩⟩
  have i2 : Present df ds db ↔ Present df ds' db' :=
    ⟨fun g => ⟨hd.enough.1 g.1, len_iff bd g.2⟩,
      fun g => ⟨hd.enough.2 g.1, len_iff (fun i hi => (bd i hi).symm) g.2⟩⟩
  by_cases p1 : Present sf ss sb
  swap
  · rw [exec_short r hk h1 h2 hw hh (Or.inl p1),
      exec_short r hk h1 h2 hw hh (Or.inl (fun g => p1 (i1.2 g)))]
  by_cases p2 : Present df ds db
  swap
  · rw [exec_short r hk h1 h2 hw hh (Or.inr p2),
      exec_short r hk h1 h2 hw hh (Or.inr (fun g => p2 (i2.2 g)))]
  exact exec_congr r hk h1 h2 hs hd p1 (i1.1 p1) p2 (i2.1 p2) (SameFirst.of_buffers bs p1.2)
    (SameFirst.of_buffers bd p2.2)

end

end Verif
