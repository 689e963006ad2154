import Verif.Lemmas.Call
/-! # `convert_image`, case by case -/

namespace Verif

section
variable {t : Target} {impls : InstructionSet → Impl} {set : InstructionSet} {tb : DispatchTable}
  {w h : UInt32} {sf df : ImageFormat} {ss ds : Option (List Nat)} {sb : List Buf} {dl : List Dst}

theorem compat_eq (f : ImageFormat) (w h : UInt32) :
    PixFmt.is_compatible f.pixel_format.toU32 w h (f.num_planes - 1) =
      .ok (decide (Spec.SizeOk f.pixel_format w.toNat h.toNat ∧
        Spec.PlanesOk f.pixel_format f.num_planes.toNat)) :=
  is_compatible_eq f.pixel_format w h f.num_planes

theorem legal_iff (f : ImageFormat) (w h : UInt32) : Spec.Legal f w h ↔
    Spec.CsOk f ∧ Spec.SizeOk f.pixel_format w.toNat h.toNat ∧
      Spec.PlanesOk f.pixel_format f.num_planes.toNat :=
  ⟨fun h => ⟨h.1, h.2, h.3⟩, fun h => ⟨h.1, h.2.1, h.2.2⟩⟩

instance (f : ImageFormat) (w h : UInt32) : Decidable (Spec.Legal f w h) :=
  decidable_of_iff _ (legal_iff f w h).symm

/-- Invalid arguments. -/
theorem convert_invalid (h1 : ¬ Spec.Legal sf w h ∨ ¬ Spec.Legal df w h) :
    convert_image_with t impls tb w h sf ss sb df ds dl = pure (.error .invalidValue) := by
  unfold convert_image_with
  simp only [mode_xor, compat_eq, K.liftM_eq, K.lift_ok, pure_bind]
  rw [legal_iff, legal_iff] at h1
  by_cases a : Spec.CsOk sf
  · by_cases b : Spec.CsOk df
    · simp only [a, b, true_and, decide_true, Bool.not_true, Bool.or_self, Bool.false_eq_true,
        if_false] at *
      by_cases c : Spec.SizeOk sf.pixel_format w.toNat h.toNat ∧
        Spec.PlanesOk sf.pixel_format sf.num_planes.toNat
      · have d : ¬ (Spec.SizeOk df.pixel_format w.toNat h.toNat ∧
          Spec.PlanesOk df.pixel_format df.num_planes.toNat) := by
          rcases h1 with h1 | h1
          · exact absurd c h1
          · exact h1
        simp only [c, d, decide_true, Bool.not_true, decide_false, Bool.not_false, if_true,
          Bool.false_eq_true, if_false, and_self]
      · simp only [c, decide_false, Bool.not_false, if_true]
    · simp only [b, decide_false, Bool.not_false, Bool.or_true, if_true]
  · simp only [a, decide_false, Bool.not_false, Bool.true_or, if_true]

/-- Valid arguments: the table is consulted. -/
theorem convert_lookup (h1 : Spec.Legal sf w h) (h2 : Spec.Legal df w h) :
    convert_image_with t impls tb w h sf ss sb df ds dl =
      match tb (slot (sf.pixel_format, sf.color_space) (df.pixel_format, df.color_space)) with
      | none => pure (.error .invalidOperation)
      | some conv => (do
        let ok ← conv.routine.exec t (impls conv.set) w h (sf.num_planes - 1)
          (ss.getD PixFmt.DEFAULT_STRIDES) sb (df.num_planes - 1)
          (ds.getD PixFmt.DEFAULT_STRIDES) dl
        if ok then pure (.ok ()) else pure (.error .notEnoughData)) := by
  have hlt := slot_lt (sf.pixel_format, sf.color_space) (df.pixel_format, df.color_space)
    ((legalPair_iff sf).2 h1.cs) ((legalPair_iff df).2 h2.cs)
  unfold convert_image_with
  simp only [mode_xor, compat_eq, K.liftM_eq, K.lift_ok, pure_bind]
  simp only [h1.cs, h2.cs, h1.size, h2.size, h1.planes, h2.planes, and_self, decide_true,
    Bool.not_true, Bool.or_self, Bool.false_eq_true, if_false]
  exact if_neg (Nat.not_le.2 hlt)

/-- Unsupported conversion. -/
theorem convert_unsupported (hT : TableFor set tb) (h1 : Spec.Legal sf w h)
    (h2 : Spec.Legal df w h) (h3 : ¬ Spec.Supported sf.pixel_format df.pixel_format) :
    convert_image_with t impls tb w h sf ss sb df ds dl = pure (.error .invalidOperation) := by
  have l1 := (legalPair_iff sf).2 h1.cs
  have l2 := (legalPair_iff df).2 h2.cs
  rw [convert_lookup h1 h2, hT.missing _ _ l1 l2]
  intro r hr hk
  exact h3 ((registered_iff _ _ l1 l2).1 ⟨r, hr, hk⟩)

/-- Supported conversion. -/
theorem convert_supported (hT : TableFor set tb) (h1 : Spec.Legal sf w h)
    (h2 : Spec.Legal df w h) (h3 : Spec.Supported sf.pixel_format df.pixel_format) :
    ∃ r, r.key = ((sf.pixel_format, sf.color_space), (df.pixel_format, df.color_space)) ∧
      r ∈ registered ∧
      convert_image_with t impls tb w h sf ss sb df ds dl = (do
        let ok ← r.exec t (impls set) w h (sf.num_planes - 1)
          (ss.getD PixFmt.DEFAULT_STRIDES) sb (df.num_planes - 1)
          (ds.getD PixFmt.DEFAULT_STRIDES) dl
        if ok then pure (.ok ()) else pure (.error .notEnoughData)) := by
  have l1 := (legalPair_iff sf).2 h1.cs
  have l2 := (legalPair_iff df).2 h2.cs
  obtain ⟨r, hr, hk⟩ := (registered_iff (sf.pixel_format, sf.color_space)
    (df.pixel_format, df.color_space) l1 l2).2 h3
  refine ⟨r, hk, hr, ?_⟩
  have := hT.found r hr
  rw [hk] at this
  rw [convert_lookup h1 h2, this]

/-- A routine applied to an empty image does nothing. -/
theorem exec_empty (r : Routine) {I : Impl} {a b : UInt32} {sl dsl : List Nat}
    (he : w = 0 ∨ h = 0) : r.exec t I w h a sl sb b dsl dl = pure true := by
  cases r with
  | rgbYuv s y c =>
    cases y
    · exact Wrap.rgb_i420_empty he
    · exact Wrap.rgb_i444_empty he
    · exact Wrap.rgb_nv12_empty he
  | yuvRgb y c d =>
    cases y
    · exact Wrap.i420_rgb_empty he
    · exact Wrap.i444_rgb_empty he
    · exact Wrap.nv12_rgb_empty he
  | rgbRgb q => cases q <;> exact Wrap.rgb_rgb_empty he

theorem present_iff (f : ImageFormat) (st : Option (List Nat)) (bufs : List Buf)
    (hn : f.num_planes.toNat ≤ 4) :
    Present f st bufs ↔ f.num_planes.toNat ≤ (st.getD PixFmt.DEFAULT_STRIDES).length ∧
      f.num_planes.toNat ≤ bufs.length := by
  constructor
  · rintro ⟨h1, h2⟩
    refine ⟨?_, h2⟩
    cases st with
    | none => exact hn
    | some l => exact h1 l rfl
  · rintro ⟨h1, h2⟩
    exact ⟨fun l e => by subst e; exact h1, h2⟩

theorem planes_le {pf : PixelFormat} {n : Nat} (h : Spec.PlanesOk pf n) : 1 ≤ n ∧ n ≤ 3 := by
  cases pf <;> simp only [Spec.PlanesOk] at h <;> omega

/-- Missing strides or buffers. -/
theorem exec_short (r : Routine) {I : Impl} {db : List Buf}
    (hkey : r.key = ((sf.pixel_format, sf.color_space), (df.pixel_format, df.color_space)))
    (hl : Spec.Legal sf w h) (hl' : Spec.Legal df w h) (hw : w ≠ 0) (hh : h ≠ 0)
    (hp : ¬ Present sf ss sb ∨ ¬ Present df ds db) :
    r.exec t I w h (sf.num_planes - 1) (ss.getD PixFmt.DEFAULT_STRIDES) sb (df.num_planes - 1)
      (ds.getD PixFmt.DEFAULT_STRIDES) (dstSlices db) = pure false := by
  have n1 := planes_le hl.planes
  have n2 := planes_le hl'.planes
  rw [present_iff _ _ _ (by omega), present_iff _ _ _ (by omega)] at hp
  have hld : (dstSlices db).length = db.length := by simp [dstSlices]
  rcases sf with ⟨spf, scs, sn⟩
  rcases df with ⟨dpf, dcs, dn⟩
  obtain ⟨-, -, hpl⟩ := hl
  obtain ⟨-, -, hpl'⟩ := hl'
  simp only at *
  cases r with
  | rgbYuv s y c =>
    simp only [Routine.key, Prod.mk.injEq] at hkey
    obtain ⟨⟨rfl, -⟩, rfl, -⟩ := hkey
    have hsn : sn.toNat = 1 := by cases s <;> exact hpl
    cases y with
    | i420 =>
      have hdn : dn.toNat = 3 := hpl'
      exact Wrap.rgb_i420_short hw hh (by omega)
    | i444 =>
      have hdn : dn.toNat = 3 := hpl'
      exact Wrap.rgb_i444_short hw hh (by omega)
    | nv12 =>
      have hz : (dn - 1).toNat = dn.toNat - 1 := u32_pred_toNat (by omega)
      exact Wrap.rgb_nv12_short hw hh (by omega)
  | yuvRgb y c d =>
    simp only [Routine.key, Prod.mk.injEq] at hkey
    obtain ⟨⟨rfl, -⟩, rfl, -⟩ := hkey
    have hdn : dn.toNat = 1 := by cases d <;> exact hpl'
    cases y with
    | i420 =>
      have hsn : sn.toNat = 3 := hpl
      exact Wrap.i420_rgb_short hw hh (by omega)
    | i444 =>
      have hsn : sn.toNat = 3 := hpl
      exact Wrap.i444_rgb_short hw hh (by omega)
    | nv12 =>
      have hz : (sn - 1).toNat = sn.toNat - 1 := u32_pred_toNat (by omega)
      exact Wrap.nv12_rgb_short hw hh (by omega)
  | rgbRgb q =>
    have hsn : sn.toNat = 1 := by
      cases q <;> simp only [Routine.key, Prod.mk.injEq] at hkey <;>
      obtain ⟨⟨rfl, -⟩, rfl, -⟩ := hkey <;> exact hpl
    have hdn : dn.toNat = 1 := by
      cases q <;> simp only [Routine.key, Prod.mk.injEq] at hkey <;>
      obtain ⟨⟨rfl, -⟩, rfl, -⟩ := hkey <;> exact hpl'
    cases q <;> exact Wrap.rgb_rgb_short hw hh (by omega)

end

section
variable {t : Target} {impls : InstructionSet → Impl} {set : InstructionSet} {tb : DispatchTable}
  {w h : UInt32} {sf df : ImageFormat} {ss ds : Option (List Nat)} {sb db : List Buf}

theorem withMem_nil (db : List Buf) : withMem db ((memOf db).apply []) = db := by
  unfold withMem
  apply List.ext_getElem?
  intro i
  rw [List.getElem?_mapIdx]
  cases hb : db[i]? with
  | none => rfl
  | some b =>
    simp only [Option.map_some, Option.some.injEq, Mem.apply, List.foldl_nil]
    have : memOf db i = b.bytes := by funext k; simp only [memOf, hb]
    rw [this]

theorem convert_of_pure {r : Except ErrorKind Unit}
    (e : convert_image_with t impls tb w h sf ss sb df ds (dstSlices db) = pure r) :
    convert_image t impls tb w h sf ss sb df ds db = .ok (r, db) := by
  rw [convert_image, e]
  show Except.ok (r, withMem db ((memOf db).apply [])) = _
  rw [withMem_nil]

theorem convert_of_emits {k : K Unit} {planes : List Spec.Plane}
    (e : convert_image_with t impls tb w h sf ss sb df ds (dstSlices db) =
      k >>= fun _ => pure (.ok ()))
    (hf : ∀ i b rc, db[i]? = some b →
      (Spec.dims df.pixel_format df.num_planes.toNat w.toNat h.toNat)[i]? = some rc →
      rc.1 ≤ Spec.strideOf ds i rc.1)
    (hk : Emits k () (PlaneWrites
      (Spec.dims df.pixel_format df.num_planes.toNat w.toNat h.toNat)
      (Spec.strideOf ds) planes)) :
    convert_image t impls tb w h sf ss sb df ds db =
      .ok (.ok (), Spec.painted df w h ds planes db) := by
  obtain ⟨ws, h1, h2⟩ := hk.then_pure (b := (.ok () : Except ErrorKind Unit))
  rw [convert_image, e, h1]
  show Except.ok (_, withMem db ((memOf db).apply ws)) = _
  rw [withMem_painted hf h2]

/-- Empty image. -/
theorem convert_empty (hT : TableFor set tb) (h1 : Spec.Legal sf w h)
    (h2 : Spec.Legal df w h) (h3 : Spec.Supported sf.pixel_format df.pixel_format)
    (he : w = 0 ∨ h = 0) :
    convert_image t impls tb w h sf ss sb df ds db = .ok (.ok (), db) := by
  obtain ⟨r, -, -, e⟩ := convert_supported (t := t) (impls := impls) (ss := ss) (sb := sb)
    (ds := ds) (dl := dstSlices db) hT h1 h2 h3
  rw [exec_empty r he, pure_bind] at e
  exact convert_of_pure e

/-- Missing strides or buffers. -/
theorem convert_short (hT : TableFor set tb) (h1 : Spec.Legal sf w h)
    (h2 : Spec.Legal df w h) (h3 : Spec.Supported sf.pixel_format df.pixel_format)
    (hw : w ≠ 0) (hh : h ≠ 0) (hp : ¬ Present sf ss sb ∨ ¬ Present df ds db) :
    convert_image t impls tb w h sf ss sb df ds db = .ok (.error .notEnoughData, db) := by
  obtain ⟨r, hk, -, e⟩ := convert_supported (t := t) (impls := impls) (ss := ss) (sb := sb)
    (ds := ds) (dl := dstSlices db) hT h1 h2 h3
  rw [exec_short r hk h1 h2 hw hh hp, pure_bind] at e
  exact convert_of_pure e

/-- RGB to RGB pair. -/
def pxPair (s d : PixelFormat) : Bool := Spec.isRgb s && Spec.isRgb d

theorem px_eq (r : Routine) {a b : PixelFormat} {x y : ColorSpace} (hk : r.key = ((a, x), (b, y))) :
    r.px = pxPair a b := by
  cases r with
  | rgbYuv s d c =>
    simp only [Routine.key, Prod.mk.injEq] at hk
    obtain ⟨⟨rfl, -⟩, rfl, -⟩ := hk
    cases s <;> cases d <;> rfl
  | yuvRgb s c d =>
    simp only [Routine.key, Prod.mk.injEq] at hk
    obtain ⟨⟨rfl, -⟩, rfl, -⟩ := hk
    cases s <;> cases d <;> rfl
  | rgbRgb q =>
    cases q <;> simp only [Routine.key, Prod.mk.injEq] at hk <;>
    obtain ⟨⟨rfl, -⟩, rfl, -⟩ := hk <;> rfl

/-- Everything else: the bounds checks decide between a kernel call and `NotEnoughData`. -/
theorem convert_checked (hT : TableFor set tb) (h1 : Spec.Legal sf w h)
    (h2 : Spec.Legal df w h) (h3 : Spec.Supported sf.pixel_format df.pixel_format)
    (hw : w ≠ 0) (hh : h ≠ 0) (hp : Present sf ss sb) (hp' : Present df ds db)
    (hm : Small t sf w h ss sb) (hm' : Small t df w h ds db) :
    ∃ r, r.key = ((sf.pixel_format, sf.color_space), (df.pixel_format, df.color_space)) ∧
      r ∈ registered ∧
      convert_image_with t impls tb w h sf ss sb df ds (dstSlices db) =
      if AccImage (pxPair sf.pixel_format df.pixel_format) sf.pixel_format sf.num_planes.toNat
          w.toNat h.toNat ss sb ∧
         AccImage (pxPair sf.pixel_format df.pixel_format) df.pixel_format df.num_planes.toNat
          w.toNat h.toNat ds db
      then kcall t (impls set) w.toNat h.toNat sf.num_planes.toNat ss sb df.num_planes.toNat ds db r
        >>= fun _ => pure (.ok ())
      else pure (.error .notEnoughData) := by
  obtain ⟨r, hk, hr, e⟩ := convert_supported (t := t) (impls := impls) (ss := ss) (sb := sb)
    (ds := ds) (dl := dstSlices db) hT h1 h2 h3
  refine ⟨r, hk, hr, ?_⟩
  rw [e, exec_eq t (impls set) r hk h1 h2 hw hh hp hp' hm hm', px_eq r hk]
  split
  · rw [bind_assoc]
    simp only [pure_bind, if_true]
  · rw [pure_bind]
    rfl

end

end Verif
