import Verif.Spec.Reported
import Verif.Props.Sizes
import Verif.Props.Bounds
import Verif.Props.Exact
/-!
# C83: the result of `get_buffers_size`, exactly
-/

namespace Verif

open PixFmt

variable {t : Target} {w h : UInt32} {f : ImageFormat} {strides : Option (List Nat)}
  {sizes : List Nat}

/-- A computation that fails at most with an overflow. -/
def OnlyOverflow {α : Type} (x : R α) : Prop := ∀ e, x = .error e → e = .overflow

theorem OnlyOverflow.ok {α : Type} (a : α) : OnlyOverflow (.ok a) := fun _ h => by cases h

theorem OnlyOverflow.bind {α β : Type} {x : R α} {g : α → R β} (hx : OnlyOverflow x)
    (hg : ∀ a, x = .ok a → OnlyOverflow (g a)) : OnlyOverflow (x >>= g) := by
  intro e h
  cases x with
  | error e' => cases h; exact hx _ rfl
  | ok a => exact hg a rfl e h

theorem tmul_only (a b : Nat) : OnlyOverflow (t.mul a b) := by
  intro e h
  unfold Target.mul at h
  split at h
  · cases h
  · split at h <;> cases h; rfl

theorem tadd_only (a b : Nat) : OnlyOverflow (t.add a b) := by
  intro e h
  unfold Target.add at h
  split at h
  · cases h
  · split at h <;> cases h; rfl

theorem tmul_wrap (hc : t.checked = false) (a b : Nat) : t.mul a b = .ok (a * b % 2 ^ t.bits) := by
  unfold Target.mul
  split
  · rw [Nat.mod_eq_of_lt ‹_›]
  · rw [hc]; rfl

theorem tadd_wrap (hc : t.checked = false) (a b : Nat) : t.add a b = .ok ((a + b) % 2 ^ t.bits) := by
  unfold Target.add
  split
  · rw [Nat.mod_eq_of_lt ‹_›]
  · rw [hc]; rfl

theorem plane_sizes_only {stride : List Nat} {hs h : UInt32} {i n : Nat} {bs : List Nat}
    (hn : i + n ≤ stride.length) : OnlyOverflow (plane_sizes t stride hs h i n bs) := by
  induction n generalizing i bs with
  | zero => exact .ok _
  | succ n ih =>
    rw [plane_sizes]
    refine .bind ?_ fun s _ => .bind (tmul_only _ _) fun v _ => ih (by omega)
    have : idx stride i = .ok stride[i] := by
      unfold idx
      rw [List.getElem?_eq_getElem (by omega)]
    rw [this]
    exact .ok _

theorem OnlyOverflow.result {x : R (Bool × List Nat)} (hx : OnlyOverflow x) :
    OnlyOverflow (gbsResult x) := by
  intro e h
  rcases x with e' | ⟨_ | _, bs⟩
  · cases h; exact hx _ rfl
  · cases h
  · cases h

/-- `get_buffers_size` panics at most because of an overflow. -/
theorem gbs_only (hb : 32 ≤ t.bits) (hs : Spec.Shape f w h) (hr : Room f strides sizes) :
    OnlyOverflow (get_buffers_size t w h f strides sizes) := by
  have hr' := (room_iff hs.planes).1 hr
  have hl := last_toNat hs.planes
  have hle := planes_le hs.planes
  obtain ⟨sp, e1⟩ := stride_spec_ok f.pixel_format
  obtain ⟨hp, e2⟩ := height_spec_ok f.pixel_format
  rw [gbs_eq hs, PixFmt.get_buffers_size]
  rw [if_neg hr']
  simp only [e1, e2, ok_bind, entry_ok hb f.pixel_format w _ (i := 0) (by omega) e1,
    entry_ok hb f.pixel_format w _ (i := 1) (by omega) e1,
    entry_ok hb f.pixel_format w _ (i := 2) (by omega) e1,
    entry_ok hb f.pixel_format w _ (i := 3) (by omega) e1]
  refine .result ?_
  split
  · exact .bind (tmul_only _ _) fun _ _ => .bind (tmul_only _ _) fun _ _ =>
      .bind (tadd_only _ _) fun _ _ => .bind (tmul_only _ _) fun _ _ =>
      .bind (tmul_only _ _) fun _ _ => .bind (tadd_only _ _) fun _ _ =>
      .bind (tadd_only _ _) fun _ _ => .ok _
  · refine .bind (plane_sizes_only ?_) fun _ _ => .ok _
    simp only [List.length_cons, List.length_nil]
    omega

/-- Without overflow checks sizes wrap. -/
theorem gbs_wrap (hb : 32 ≤ t.bits) (hc : t.checked = false) (hs : Spec.Shape f w h)
    (hr : Room f strides sizes) :
    let z := sizeB f.pixel_format w.toNat h.toNat (strides.getD DEFAULT_STRIDES)
    get_buffers_size t w h f strides sizes = .ok (.ok (),
      if f.num_planes.toNat = 1 then sizes.set 0 ((z 0 + z 1 + (z 2 + z 3)) % 2 ^ t.bits)
      else setAll (fun i => z i % 2 ^ t.bits) 0 f.num_planes.toNat sizes) := by
  intro z
  have hr' := (room_iff hs.planes).1 hr
  have hl := last_toNat hs.planes
  have hle := planes_le hs.planes
  obtain ⟨sp, e1⟩ := stride_spec_ok f.pixel_format
  obtain ⟨hp, e2⟩ := height_spec_ok f.pixel_format
  rw [gbs_eq hs, PixFmt.get_buffers_size]
  rw [if_neg hr']
  simp only [e1, e2, ok_bind, entry_ok hb f.pixel_format w _ (i := 0) (by omega) e1,
    entry_ok hb f.pixel_format w _ (i := 1) (by omega) e1,
    entry_ok hb f.pixel_format w _ (i := 2) (by omega) e1,
    entry_ok hb f.pixel_format w _ (i := 3) (by omega) e1]
  by_cases hn : f.num_planes.toNat = 1
  · have hl0 : (f.num_planes - 1).toNat = 0 := by omega
    simp only [hl0, hn, if_true, tmul_wrap hc, tadd_wrap hc, ok_bind,
      spec_rows f.pixel_format h (i := 0) (by omega) e2,
      spec_rows f.pixel_format h (i := 1) (by omega) e2,
      spec_rows f.pixel_format h (i := 2) (by omega) e2,
      spec_rows f.pixel_format h (i := 3) (by omega) e2]
    show Except.ok _ = _
    simp only [← Nat.add_mod]
    rfl
  · have hl0 : ¬ (f.num_planes - 1).toNat = 0 := by omega
    simp only [hl0, hn, if_false, hl]
    have := plane_sizes_eq (t := t) (stride := [entB (strides.getD DEFAULT_STRIDES) 0
      (rowB f.pixel_format 0 w.toNat), entB (strides.getD DEFAULT_STRIDES) 1
      (rowB f.pixel_format 1 w.toNat), entB (strides.getD DEFAULT_STRIDES) 2
      (rowB f.pixel_format 2 w.toNat), entB (strides.getD DEFAULT_STRIDES) 3
      (rowB f.pixel_format 3 w.toNat)]) (hs := hp) (h := h) (g := fun i => z i % 2 ^ t.bits) (i := 0)
      (n := f.num_planes.toNat) (bs := sizes) (by
        intro j _ hj
        refine ⟨entB (strides.getD DEFAULT_STRIDES) j (rowB f.pixel_format j w.toNat), ?_, ?_⟩
        · rcases (by omega : j = 0 ∨ j = 1 ∨ j = 2) with e | e | e <;> subst e <;> rfl
        · rw [spec_rows _ _ (by omega) e2]
          exact tmul_wrap hc _ _)
    show gbsResult (do
      let bs ← plane_sizes t _ hp h 0 f.num_planes.toNat sizes
      Except.ok (true, bs)) = _
    rw [this]
    rfl

/-- Writing the first `n` entries. -/
theorem setAll_overwrite (g : Nat → Nat) {n : Nat} {vs : List Nat} (hn : n ≤ sizes.length)
    (hl : vs.length = n) (hv : ∀ i v, vs[i]? = some v → v = g i) :
    setAll g 0 n sizes = Spec.overwrite vs sizes := by
  apply List.ext_getElem?
  intro i
  rw [setAll_get, Spec.overwrite]
  by_cases hi : i < n
  · rw [if_pos ⟨by omega, by omega, by omega⟩, List.getElem?_append_left (by omega)]
    have := List.getElem?_eq_getElem (l := vs) (i := i) (by omega)
    rw [this, hv i _ this]
  · rw [if_neg (by omega), List.getElem?_append_right (by omega), List.getElem?_drop]
    congr 1
    omega

/-- The reported sizes are those of the pseudo planes. -/
theorem reported_eq (hp : Spec.PlanesOk f.pixel_format f.num_planes.toNat) :
    let z := sizeB f.pixel_format w.toNat h.toNat (strides.getD DEFAULT_STRIDES)
    (f.num_planes.toNat = 1 → Spec.reported f w.toNat h.toNat strides = [z 0 + z 1 + (z 2 + z 3)]) ∧
    (f.num_planes.toNat ≠ 1 →
      (Spec.reported f w.toNat h.toNat strides).length = f.num_planes.toNat ∧
      ∀ i v, (Spec.reported f w.toNat h.toNat strides)[i]? = some v → v = z i) := by
  intro z
  have z0 : ∀ i, i < 4 → z i = Spec.strideOf strides i (rowB f.pixel_format i w.toNat) *
      rowsB f.pixel_format i h.toNat := fun i hi => by
    show entB _ _ _ * _ = _
    rw [ent_eq _ _ _ hi]
  have h1 : f.num_planes = 1 ↔ f.num_planes.toNat = 1 :=
    ⟨fun h => by rw [h]; rfl, fun h => UInt32.toNat_inj.1 h⟩
  unfold Spec.reported
  rw [z0 0 (by omega), z0 1 (by omega), z0 2 (by omega), z0 3 (by omega)]
  refine ⟨fun hn => ?_, fun hn => ?_⟩
  · rw [if_pos (h1.2 hn)]
    rw [hn] at hp
    revert hp
    cases f.pixel_format <;> simp [Spec.PlanesOk, Spec.lineSizes, Spec.summands, rowB, rowsB] <;>
      omega
  · rw [if_neg (fun h => hn (h1.1 h))]
    have hz : ∀ i, i < 4 → z i = Spec.strideOf strides i (rowB f.pixel_format i w.toNat) *
      rowsB f.pixel_format i h.toNat := z0
    revert hp hz
    generalize f.num_planes.toNat = n at *
    cases f.pixel_format <;> simp only [Spec.PlanesOk] <;> intro hp hz
    all_goals try omega
    all_goals
      have hz0 := hz 0 (by omega)
      have hz1 := hz 1 (by omega)
      have hz2 := hz 2 (by omega)
      first
      | subst hp
      | obtain rfl : n = 2 := by omega
      refine ⟨by simp [Spec.lineSizes, Spec.dims], fun i v hv => ?_⟩
      rcases i with _ | _ | _ | i <;>
        simp [Spec.lineSizes, Spec.dims] at hv <;> rw [← hv] <;>
        first
        | exact hz0.symm
        | exact hz1.symm
        | exact hz2.symm

/-- **C83.** For legal sizes and plane counts and long enough arrays: the sizes are those of
`Spec.reported` if all of them are representable; otherwise `get_buffers_size` panics in builds with
overflow checks and reports them modulo `usize` in builds without. -/
theorem C83_exact (hb : 32 ≤ t.bits) (hs : Spec.Shape f w h) (ha : Spec.ArraysOk f strides sizes) :
    get_buffers_size t w h f strides sizes =
      if ∀ z, z ∈ Spec.reported f w.toNat h.toNat strides → z < 2 ^ t.bits then
        .ok (.ok (), Spec.overwrite (Spec.reported f w.toNat h.toNat strides) sizes)
      else if t.checked then .error .overflow
      else .ok (.ok (), Spec.overwrite
        ((Spec.reported f w.toNat h.toNat strides).map (· % 2 ^ t.bits)) sizes) := by
  have hr := (room_iff_arrays f strides sizes).2 ha
  have hlen := ha.2
  have hle := planes_le hs.planes
  obtain ⟨r1, r2⟩ := reported_eq (w := w) (h := h) (strides := strides) hs.planes
  have key : ∀ vs, get_buffers_size t w h f strides sizes = .ok (.ok (), vs) →
      (∀ z, z ∈ Spec.reported f w.toNat h.toNat strides → z < 2 ^ t.bits) ∨ t.checked = false := by
    intro vs e
    by_cases hc : t.checked = true
    · refine .inl fun z hz => ?_
      obtain ⟨-, -, g1, g2⟩ := gbs_checked hb hc e
      by_cases hn : f.num_planes.toNat = 1
      · rw [r1 hn, List.mem_singleton] at hz
        rw [hz]
        exact (g1 hn).1
      · obtain ⟨l, v⟩ := r2 hn
        obtain ⟨i, hi, rfl⟩ := List.mem_iff_getElem.1 hz
        rw [v i _ (List.getElem?_eq_getElem hi)]
        exact (g2 (by omega)).1 i (by omega)
    · exact .inr (by simpa using hc)
  split
  · rename_i hz
    by_cases hn : f.num_planes.toNat = 1
    · rw [r1 hn] at hz ⊢
      rw [gbs_single hb hs hr hn (hz _ (by simp)), overwrite_one (by omega)]
    · obtain ⟨l, v⟩ := r2 hn
      rw [gbs_multi hb hs hr (by omega) ?_, setAll_overwrite _ hlen l v]
      intro i hi
      have hi' : i < (Spec.reported f w.toNat h.toNat strides).length := by omega
      rw [← v i _ (List.getElem?_eq_getElem hi')]
      exact hz _ (List.getElem_mem hi')
  · rename_i hz
    by_cases hc : t.checked = true
    · rw [if_pos hc]
      cases e : get_buffers_size t w h f strides sizes with
      | error x => rw [gbs_only hb hs hr x e]
      | ok p =>
        obtain ⟨r, out⟩ := p
        have := (gbs_frame hs hr e).1
        subst this
        rcases key _ e with h1 | h1
        · exact absurd h1 hz
        · rw [hc] at h1; cases h1
    · rw [if_neg hc]
      have hc' : t.checked = false := by simpa using hc
      rw [gbs_wrap hb hc' hs hr]
      by_cases hn : f.num_planes.toNat = 1
      · rw [if_pos hn, r1 hn, List.map_singleton, overwrite_one (by omega)]
      · obtain ⟨l, v⟩ := r2 hn
        rw [if_neg hn, setAll_overwrite _ hlen (vs := (Spec.reported f w.toNat h.toNat strides).map
          (· % 2 ^ t.bits)) (by rw [List.length_map, l])]
        intro i z hz
        rw [List.getElem?_map, Option.map_eq_some_iff] at hz
        obtain ⟨y, hy, rfl⟩ := hz
        rw [v i _ hy]

theorem surplus_stride (hx : Spec.NoSurplus f strides) {i row : Nat}
    (hi : f.num_planes.toNat ≤ i) : Spec.strideOf strides i row = row := by
  cases strides with
  | none => rfl
  | some l =>
    have := hx l rfl
    have : l.getD i 0 = 0 := by
      rw [List.getD_eq_getElem?_getD, List.getElem?_eq_none (by omega)]; rfl
    simp only [Spec.strideOf, this, if_true]

/-- The first stride of an RGB image is given or not. -/
theorem rgb_stride (strides : Option (List Nat)) (a b : Nat) :
    (Spec.strideOf strides 0 a = a ∧ Spec.strideOf strides 0 b = b) ∨
      Spec.strideOf strides 0 a = Spec.strideOf strides 0 b := by
  cases strides with
  | none => exact .inl ⟨rfl, rfl⟩
  | some l =>
    unfold Spec.strideOf
    by_cases h : l.getD 0 0 = 0
    · exact .inl (by simp only [h, if_true, and_self])
    · exact .inr (by simp only [h, if_false])

/-- The size reported for an image in one buffer. -/
theorem reported_single (hp : Spec.PlanesOk f.pixel_format f.num_planes.toNat)
    (hx : Spec.NoSurplus f strides) (h1 : f.num_planes.toNat = 1) (w h : Nat) :
    Spec.reported f w h strides = [if Spec.isRgb f.pixel_format then
        Spec.strideOf strides 0 w * h + (Spec.bpp f.pixel_format - 1) * (w * h)
      else Spec.strideOf strides 0 w * h + w * (h / 2)] := by
  have e : f.num_planes = 1 := UInt32.toNat_inj.1 h1
  unfold Spec.reported
  rw [if_pos e]
  rw [h1] at hp
  have s1 := fun row => surplus_stride hx (i := 1) (row := row) (by omega)
  have s2 := fun row => surplus_stride hx (i := 2) (row := row) (by omega)
  have s3 := fun row => surplus_stride hx (i := 3) (row := row) (by omega)
  revert hp
  cases f.pixel_format <;>
    simp [Spec.PlanesOk, Spec.lineSizes, Spec.summands, Spec.isRgb, Spec.bpp, s1, s2, s3] <;> omega

/-- Sizes of the planes. -/
theorem reported_multi (h1 : f.num_planes.toNat ≠ 1) (w h : Nat) {i : Nat} {rc : Nat × Nat}
    (hd : (Spec.dims f.pixel_format f.num_planes.toNat w h)[i]? = some rc) :
    (Spec.reported f w h strides)[i]? = some (Spec.strideOf strides i rc.1 * rc.2) := by
  have e : ¬ f.num_planes = 1 := fun h => h1 (by rw [h]; rfl)
  unfold Spec.reported Spec.lineSizes
  rw [if_neg e, List.getElem?_mapIdx, hd]
  rfl

theorem rgb_takes {len S S' d w h : Nat} (hd : 2 ≤ d) (hh : 1 ≤ h)
    (hS : (S = w ∧ S' = d * w) ∨ S = S') (hl : len = S * h + (d - 1) * (w * h)) :
    (S' + d * w * (h - 1) ≤ len ↔ w * h ≤ S' * (h - 1) + d * w) ∧
    S' + w * (h - 1) ≤ len ∧
    (S' * (h - 1) + d * w ≤ len ↔ 2 ≤ h ∨ w ≤ S') := by
  obtain ⟨k, rfl⟩ : ∃ k, h = k + 1 := ⟨h - 1, by omega⟩
  obtain ⟨e, rfl⟩ : ∃ e, d = e + 1 := ⟨d - 1, by omega⟩
  simp only [Nat.add_sub_cancel] at *
  have e1 : (e + 1) * w * k = e * (w * k) + w * k := by ring
  have e2 : (e + 1) * w = e * w + w := by ring
  have e3 : len = S * k + S + (e * (w * k) + e * w) := by rw [hl]; ring
  have e4 : w * (k + 1) = w * k + w := by ring
  have e5 : w * k ≤ e * (w * k) := Nat.le_mul_of_pos_left _ (by omega)
  have e6 : k = 0 ∨ w ≤ w * k := by
    rcases Nat.eq_zero_or_pos k with h | h
    · exact .inl h
    · exact .inr (Nat.le_mul_of_pos_right _ h)
  rw [e1, e2, e3, e4]
  rcases hS with ⟨rfl, rfl⟩ | rfl
  · rw [e1, e2]
    omega
  · have e7 : k = 0 → w * k = 0 := fun h => by rw [h, Nat.mul_zero]
    have e8 : k = 0 → e * (w * k) = 0 := fun h => by rw [h, Nat.mul_zero, Nat.mul_zero]
    omega

theorem one_dims (hr : Spec.isRgb f.pixel_format = true) (w h : Nat) :
    Spec.dims f.pixel_format f.num_planes.toNat w h = [(Spec.bpp f.pixel_format * w, h)] := by
  revert hr
  cases f.pixel_format <;> simp [Spec.isRgb, Spec.dims]

theorem nv12_takes {len S w h : Nat} (hh : 1 ≤ h) (he : h % 2 = 0)
    (hl : len = S * h + w * (h / 2)) :
    ((w ≤ S ∧ S * (h + 1) + w * (h / 2 - 1) ≤ len) ↔ S = w) ∧
    (S * (h + h / 2 - 1) + w ≤ len ↔ h = 2 ∨ S ≤ w) := by
  obtain ⟨k, rfl⟩ : ∃ k, h = 2 * (k + 1) := ⟨h / 2 - 1, by omega⟩
  have e0 : 2 * (k + 1) / 2 = k + 1 := by omega
  rw [e0] at hl ⊢
  simp only [Nat.add_sub_cancel]
  have e1 : S * (2 * (k + 1) + 1) = S * (2 * (k + 1)) + S := by ring
  have e2 : w * (k + 1) = w * k + w := by ring
  have e3 : 2 * (k + 1) + (k + 1) - 1 = 2 * (k + 1) + k := by omega
  have e4 : S * (2 * (k + 1) + k) = S * (2 * (k + 1)) + S * k := by ring
  rw [e1, e3, e4, hl, e2]
  refine ⟨by omega, ?_⟩
  constructor
  · intro h
    rcases Nat.eq_zero_or_pos k with h0 | h0
    · exact .inl (by omega)
    · exact .inr (Nat.le_of_mul_le_mul_right (by omega) h0)
  · rintro (h | h)
    · have : k = 0 := by omega
      subst this
      omega
    · have := Nat.mul_le_mul_right k h
      omega

theorem plane_takes {len S row rows : Nat} (hh : 1 ≤ rows) (hl : len = S * rows) :
    (S + row * (rows - 1) ≤ len ↔ rows = 1 ∨ row ≤ S) ∧
    (S * (rows - 1) + row ≤ len ↔ row ≤ S) := by
  obtain ⟨k, rfl⟩ : ∃ k, rows = k + 1 := ⟨rows - 1, by omega⟩
  simp only [Nat.add_sub_cancel]
  have e1 : S * (k + 1) = S * k + S := by ring
  rw [hl, e1]
  refine ⟨?_, by omega⟩
  constructor
  · intro h
    rcases Nat.eq_zero_or_pos k with h0 | h0
    · exact .inl (by omega)
    · exact .inr (Nat.le_of_mul_le_mul_right (by omega) h0)
  · rintro (h | h)
    · have : k = 0 := by omega
      subst this
      omega
    · have := Nat.mul_le_mul_right k h
      omega

theorem bpp_rgb {pf : PixelFormat} (hr : Spec.isRgb pf = true) : 2 ≤ Spec.bpp pf := by
  revert hr
  cases pf <;> simp [Spec.isRgb, Spec.bpp]

theorem single_nv12 (hp : Spec.PlanesOk f.pixel_format f.num_planes.toNat)
    (hr : ¬ Spec.isRgb f.pixel_format = true) (h1 : f.num_planes.toNat = 1) :
    f.pixel_format = .nv12 := by
  rw [h1] at hp
  revert hr hp
  cases f.pixel_format <;> simp [Spec.isRgb, Spec.PlanesOk]

/-- Whether buffers of exactly the reported size pass the check. -/
theorem takes_iff {px : Bool} {bufs : List Buf} (hs : Spec.Shape f w h) (hh : h ≠ 0)
    (hx : Spec.NoSurplus f strides) (hl : ∀ l, strides = some l → f.num_planes.toNat ≤ l.length)
    (he : Spec.ExactlyAllocated f (Spec.reported f w.toNat h.toNat strides) bufs)
    (hpx : px = true → Spec.isRgb f.pixel_format = true) :
    Spec.AcceptsImage px f w h strides bufs ↔
      (px = true ∨ Spec.TakesReported f w.toNat h.toNat strides) := by
  have hp := hs.planes
  have hn := planes_le hp
  have hh0 := u32_pos hh
  have hbl : f.num_planes.toNat ≤ bufs.length := by
    obtain ⟨b, hb, -⟩ := he (f.num_planes.toNat - 1) (by omega)
    have := (List.getElem?_eq_some_iff.1 hb).1
    omega
  unfold Spec.TakesReported
  by_cases hr : Spec.isRgb f.pixel_format = true
  · have h1 := rgb_one hp hr
    have hnv : f.pixel_format ≠ .nv12 := by rintro e; rw [e] at hr; cases hr
    obtain ⟨b, hb, hz⟩ := he 0 (by omega)
    rw [reported_single hp hx h1, if_pos hr] at hz
    obtain ⟨k1, k2, -⟩ := rgb_takes (len := b.len) (bpp_rgb hr) hh0
      (rgb_stride strides w.toNat (Spec.bpp f.pixel_format * w.toNat)) (by simpa using hz.symm)
    rw [if_pos hr]
    constructor
    · rintro ⟨-, -, h3, -⟩
      by_cases hpx' : px = true
      · exact .inl hpx'
      · have := h3 (fun h => hnv h.1) 0 b _ hb (by rw [one_dims hr]; rfl)
        rw [if_neg hpx'] at this
        exact .inr (k1.1 this)
    · intro h
      refine ⟨hl, hbl, fun _ i b' rc hb' hd => ?_, fun h => absurd h hnv⟩
      rw [one_dims hr] at hd
      rcases i with _ | i
      · rw [hb] at hb'
        cases hb'
        cases hd
        by_cases hpx' : px = true
        · rw [if_pos hpx']; exact k2
        · rw [if_neg hpx']
          rcases h with h | h
          · exact absurd h hpx'
          · exact k1.2 h
      · cases hd
  · have hpx' : ¬ px = true := fun h => hr (hpx h)
    rw [if_neg hr, or_iff_right hpx']
    by_cases h1 : f.num_planes.toNat = 1
    · have e1 : f.num_planes = 1 := UInt32.toNat_inj.1 h1
      have hnv := single_nv12 hp hr h1
      obtain ⟨b, hb, hz⟩ := he 0 (by omega)
      rw [reported_single hp hx h1, if_neg hr] at hz
      have hsz := hs.size
      rw [hnv] at hsz
      obtain ⟨k1, -⟩ := nv12_takes (len := b.len) hh0 hsz.2 (by simpa using hz.symm)
      rw [if_pos e1, ← k1]
      constructor
      · rintro ⟨-, -, -, h4⟩
        exact h4 hnv h1 b hb
      · intro h
        refine ⟨hl, hbl, fun h' => absurd ⟨hnv, h1⟩ h', fun _ _ b' hb' => ?_⟩
        rw [hb] at hb'
        cases hb'
        exact h
    · have e1 : ¬ f.num_planes = 1 := fun h => h1 (by rw [h]; rfl)
      rw [if_neg e1]
      have plane : ∀ i rc b, bufs[i]? = some b →
          (Spec.dims f.pixel_format f.num_planes.toNat w.toNat h.toNat)[i]? = some rc →
          (Spec.strideOf strides i rc.1 + rc.1 * (rc.2 - 1) ≤ b.len ↔
            rc.2 = 1 ∨ rc.1 ≤ Spec.strideOf strides i rc.1) := by
        intro i rc b hb hd
        have hi := (List.getElem?_eq_some_iff.1 hd).1
        rw [dims_len hp] at hi
        obtain ⟨b', hb', hz⟩ := he i hi
        rw [hb] at hb'
        cases hb'
        rw [reported_multi h1 _ _ hd] at hz
        exact (plane_takes (dims_rows_pos hs.size hh hd) (by simpa using hz.symm)).1
      constructor
      · rintro ⟨-, -, h3, -⟩ i rc hd
        have hi := (List.getElem?_eq_some_iff.1 hd).1
        rw [dims_len hp] at hi
        obtain ⟨b, hb, -⟩ := he i hi
        rw [← plane i rc b hb hd]
        have := h3 (fun h => h1 h.2) i b rc hb hd
        rwa [if_neg hpx'] at this
      · intro h
        exact ⟨hl, hbl, fun _ i b rc hb hd => by
          rw [if_neg hpx']; exact (plane i rc b hb hd).2 (h i rc hd),
          fun _ h => absurd h h1⟩

/-- Whether the image fits into buffers of exactly the reported size. -/
theorem fits_iff {bufs : List Buf} (hs : Spec.Shape f w h) (hh : h ≠ 0)
    (hx : Spec.NoSurplus f strides)
    (he : Spec.ExactlyAllocated f (Spec.reported f w.toNat h.toNat strides) bufs) :
    Spec.LinesInside f w h strides bufs (fun row => row) ↔
      Spec.FitsReported f w.toNat h.toNat strides := by
  have hp := hs.planes
  have hn := planes_le hp
  have hh0 := u32_pos hh
  unfold Spec.FitsReported
  by_cases hr : Spec.isRgb f.pixel_format = true
  · have h1 := rgb_one hp hr
    obtain ⟨b, hb, hz⟩ := he 0 (by omega)
    rw [reported_single hp hx h1, if_pos hr] at hz
    obtain ⟨-, -, k3⟩ := rgb_takes (len := b.len) (bpp_rgb hr) hh0
      (rgb_stride strides w.toNat (Spec.bpp f.pixel_format * w.toNat)) (by simpa using hz.symm)
    rw [if_pos hr, ← k3]
    constructor
    · intro h
      exact h 0 b _ hb (by rw [one_dims hr]; rfl)
    · intro h i b' rc hb' hd
      rw [one_dims hr] at hd
      rcases i with _ | i
      · rw [hb] at hb'
        cases hb'
        cases hd
        exact h
      · cases hd
  · rw [if_neg hr]
    by_cases h1 : f.num_planes.toNat = 1
    · have e1 : f.num_planes = 1 := UInt32.toNat_inj.1 h1
      have hnv := single_nv12 hp hr h1
      obtain ⟨b, hb, hz⟩ := he 0 (by omega)
      rw [reported_single hp hx h1, if_neg hr] at hz
      have hsz := hs.size
      rw [hnv] at hsz
      obtain ⟨-, k2⟩ := nv12_takes (len := b.len) hh0 hsz.2 (by simpa using hz.symm)
      have hd0 : Spec.dims f.pixel_format f.num_planes.toNat w.toNat h.toNat =
          [(w.toNat, h.toNat + h.toNat / 2)] := by rw [hnv, h1]; rfl
      rw [if_pos e1, ← k2]
      constructor
      · intro h
        exact h 0 b _ hb (by rw [hd0]; rfl)
      · intro h i b' rc hb' hd
        rw [hd0] at hd
        rcases i with _ | i
        · rw [hb] at hb'
          cases hb'
          cases hd
          exact h
        · cases hd
    · have e1 : ¬ f.num_planes = 1 := fun h => h1 (by rw [h]; rfl)
      rw [if_neg e1]
      have plane : ∀ i rc b, bufs[i]? = some b →
          (Spec.dims f.pixel_format f.num_planes.toNat w.toNat h.toNat)[i]? = some rc →
          (Spec.strideOf strides i rc.1 * (rc.2 - 1) + rc.1 ≤ b.len ↔
            rc.1 ≤ Spec.strideOf strides i rc.1) := by
        intro i rc b hb hd
        have hi := (List.getElem?_eq_some_iff.1 hd).1
        rw [dims_len hp] at hi
        obtain ⟨b', hb', hz⟩ := he i hi
        rw [hb] at hb'
        cases hb'
        rw [reported_multi h1 _ _ hd] at hz
        exact (plane_takes (dims_rows_pos hs.size hh hd) (by simpa using hz.symm)).2
      constructor
      · intro h i rc hd
        have hi := (List.getElem?_eq_some_iff.1 hd).1
        rw [dims_len hp] at hi
        obtain ⟨b, hb, -⟩ := he i hi
        rw [← plane i rc b hb hd]
        exact h i b rc hb hd
      · intro h i b rc hb hd
        exact (plane i rc b hb hd).2 (h i rc hd)

/-- A successful query in a build with overflow checks, or with representable sizes, gives the exact
sizes. -/
theorem reported_of_success (hb : 32 ≤ t.bits)
    (hz : t.checked = true ∨ ∀ z, z ∈ Spec.reported f w.toNat h.toNat strides → z < 2 ^ t.bits)
    {out : List Nat} (e : get_buffers_size t w h f strides sizes = .ok (.ok (), out)) :
    Spec.Shape f w h ∧ Spec.ArraysOk f strides sizes ∧
      (∀ z, z ∈ Spec.reported f w.toNat h.toNat strides → z < 2 ^ t.bits) ∧
      ∀ bufs, Spec.ExactlyAllocated f out bufs →
        Spec.ExactlyAllocated f (Spec.reported f w.toNat h.toNat strides) bufs := by
  obtain ⟨c1, c2, -⟩ := C06_outcome t w h f strides sizes
  have hs : Spec.Shape f w h := by
    by_contra hs
    obtain ⟨o, e'⟩ := c1.2 hs
    rw [e] at e'
    cases e'
  have ha : Spec.ArraysOk f strides sizes := by
    by_contra ha
    obtain ⟨o, e'⟩ := c2.2 ⟨hs, ha⟩
    rw [e] at e'
    cases e'
  have hx := C83_exact hb hs ha
  have hz' : ∀ z, z ∈ Spec.reported f w.toNat h.toNat strides → z < 2 ^ t.bits := by
    rcases hz with hz | hz
    · by_contra hn
      rw [if_neg hn, if_pos hz, e] at hx
      cases hx
    · exact hz
  rw [if_pos hz', e] at hx
  cases hx
  refine ⟨hs, ha, hz', fun bufs hb i hi => ?_⟩
  obtain ⟨b, h1, h2⟩ := hb i hi
  refine ⟨b, h1, ?_⟩
  rw [← h2, Spec.overwrite, List.getElem?_append_left]
  obtain ⟨r1, r2⟩ := reported_eq (w := w) (h := h) (strides := strides) hs.planes
  by_cases hn : f.num_planes.toNat = 1
  · rw [r1 hn]
    simp only [List.length_singleton]
    omega
  · rw [(r2 hn).1]
    exact hi

section
variable {cpu : Cpu} {impls : InstructionSet → Impl} {hook : Option Int} {c : Call}

/-- **C84.** Buffers of exactly the reported sizes, no superfluous strides: conversions between RGB
formats are never answered with `NotEnoughData`; the others are, exactly if the strides of
the source or of the destination are not among `Spec.TakesReported`. -/
theorem C84_accepted (h32 : 32 ≤ t.bits) (hq : Spec.Asked t c)
    {sizes' out out' : List Nat}
    (hz : t.checked = true ∨
      (∀ z, z ∈ Spec.reported c.src_format c.width.toNat c.height.toNat c.src_strides →
        z < 2 ^ t.bits) ∧
      (∀ z, z ∈ Spec.reported c.dst_format c.width.toNat c.height.toNat c.dst_strides →
        z < 2 ^ t.bits))
    (e : get_buffers_size t c.width c.height c.src_format c.src_strides sizes = .ok (.ok (), out))
    (e' : get_buffers_size t c.width c.height c.dst_format c.dst_strides sizes' =
      .ok (.ok (), out'))
    (hx : Spec.NoSurplus c.src_format c.src_strides)
    (hx' : Spec.NoSurplus c.dst_format c.dst_strides)
    (hb : Spec.ExactlyAllocated c.src_format out c.src_buffers)
    (hb' : Spec.ExactlyAllocated c.dst_format out' c.dst_buffers) :
    (∃ res, convertHook t impls cpu hook c = .ok (.error .notEnoughData, res)) ↔
      ¬ (Spec.isRgb c.src_format.pixel_format = true ∧ Spec.isRgb c.dst_format.pixel_format = true) ∧
      ¬ (Spec.TakesReported c.src_format c.width.toNat c.height.toNat c.src_strides ∧
        Spec.TakesReported c.dst_format c.width.toNat c.height.toNat c.dst_strides) := by
  obtain ⟨hs, ha, f1, b1⟩ := reported_of_success h32 (hz.imp_right And.left) e
  obtain ⟨hs', ha', f2, b2⟩ := reported_of_success h32 (hz.imp_right And.right) e'
  have fit : ∀ (f : ImageFormat) st (bufs : List Buf), Spec.NoSurplus f st →
      Spec.Shape f c.width c.height →
      (∀ z, z ∈ Spec.reported f c.width.toNat c.height.toNat st → z < 2 ^ t.bits) →
      Spec.ExactlyAllocated f (Spec.reported f c.width.toNat c.height.toNat st) bufs →
      (∀ b, b ∈ bufs → b.len ≤ t.imax) → Spec.SizesFit t f c.width c.height st := by
    intro f st bufs hx hs hz hb hr
    constructor
    · intro hrgb
      have h1 := rgb_one hs.planes hrgb
      obtain ⟨b, hb, hl⟩ := hb 0 (by omega)
      rw [reported_single hs.planes hx h1, if_pos hrgb] at hl
      have hl := Option.some.inj hl
      have hl' := hr b (List.mem_of_getElem? hb)
      have hi := imax_lt t (by omega)
      have hd := bpp_rgb hrgb
      have hm : c.width.toNat ≤ c.width.toNat * c.height.toNat :=
        Nat.le_mul_of_pos_right _ (u32_pos hq.height_ne)
      have hm := Nat.mul_le_mul_left (Spec.bpp f.pixel_format - 1) hm
      have e : Spec.bpp f.pixel_format * c.width.toNat ≤
          2 * ((Spec.bpp f.pixel_format - 1) * c.width.toNat) := by
        rw [← Nat.mul_assoc]
        exact Nat.mul_le_mul_right _ (by omega)
      omega
    · intro hnv h1
      have := hz _ (by rw [reported_single hs.planes hx h1]; exact List.mem_singleton.2 rfl)
      rw [if_neg (by rw [hnv]; decide)] at this
      omega
  have hc : Spec.Checked t c := ⟨hq, fit _ _ _ hx hs f1 (b1 _ hb) hq.src_real,
    fit _ _ _ hx' hs' f2 (b2 _ hb') hq.dst_real⟩
  rw [C66_rejected_iff t impls cpu hook c h32 hc, ← not_or]
  refine not_congr ?_
  have t1 := takes_iff (px := Spec.isRgb c.src_format.pixel_format &&
    Spec.isRgb c.dst_format.pixel_format) hs hq.height_ne hx ha.1 (b1 _ hb)
    (fun h => (Bool.and_eq_true_iff.1 h).1)
  have t2 := takes_iff (px := Spec.isRgb c.src_format.pixel_format &&
    Spec.isRgb c.dst_format.pixel_format) hs' hq.height_ne hx' ha'.1 (b2 _ hb')
    (fun h => (Bool.and_eq_true_iff.1 h).2)
  rw [Bool.and_eq_true_iff] at t1 t2
  constructor
  · rintro ⟨h1, h2⟩
    have h1 := t1.1 h1
    have h2 := t2.1 h2
    tauto
  · intro h
    exact ⟨t1.2 (by tauto), t2.2 (by tauto)⟩

end

/-- **C84.** Buffers of exactly the reported size hold the image exactly if the strides are among
`Spec.FitsReported`. -/
theorem C84_holds (hb : 32 ≤ t.bits) (hh : h ≠ 0)
    (hz : t.checked = true ∨ ∀ z, z ∈ Spec.reported f w.toNat h.toNat strides → z < 2 ^ t.bits)
    {out : List Nat} (e : get_buffers_size t w h f strides sizes = .ok (.ok (), out))
    (hx : Spec.NoSurplus f strides) {bufs : List Buf} (ha : Spec.ExactlyAllocated f out bufs) :
    Spec.LinesInside f w h strides bufs (fun row => row) ↔
      Spec.FitsReported f w.toNat h.toNat strides := by
  obtain ⟨hs, -, -, b1⟩ := reported_of_success hb hz e
  exact fits_iff hs hh hx (b1 _ ha)

/-- A single line of four Bgra pixels with stride 1. -/
def exThin : Call where
  width := 4
  height := 1
  src_format := ⟨.bgra, .rgb, 1⟩
  src_strides := some [1]
  src_buffers := [noise 13 1]
  dst_format := ⟨.i444, .bt601, 3⟩
  dst_strides := none
  dst_buffers := [noise 4 2, noise 4 3, noise 4 4]

/-- **C84 is false** for every stride: 13 bytes are reported for the line, the buffer is accepted, and
the conversion reads behind it. -/
theorem C84_counterexample :
    get_buffers_size .x64 4 1 ⟨.bgra, .rgb, 1⟩ (some [1]) [0] = .ok (.ok (), [13]) ∧
    (convert .x64 crate plainCpu exThin).fault = some .oobRead := by
  decide +kernel

/-- The hypotheses hold of `exThin`, which is accepted though it does not fit, and of
`exNv12Stride`, which is rejected. -/
example : Spec.Asked .x64 exThin ∧ Spec.Asked .x64 exNv12Stride ∧
    Spec.NoSurplus exThin.src_format exThin.src_strides ∧
    Spec.NoSurplus exNv12Stride.src_format exNv12Stride.src_strides ∧
    Spec.ExactlyAllocated exThin.src_format [13] exThin.src_buffers ∧
    Spec.ExactlyAllocated exNv12Stride.src_format [48] exNv12Stride.src_buffers := by
  refine ⟨by decide +kernel, by decide +kernel, ?_, ?_, ?_, ?_⟩
  · rintro l ⟨⟩; decide
  · rintro l ⟨⟩; decide
  · intro i hi
    have : i = 0 := by have : i < 1 := hi; omega
    subst this
    exact ⟨_, rfl, rfl⟩
  · intro i hi
    have : i = 0 := by have : i < 1 := hi; omega
    subst this
    exact ⟨_, rfl, rfl⟩

example : Spec.TakesReported exThin.src_format 4 1 exThin.src_strides ∧
    ¬ Spec.FitsReported exThin.src_format 4 1 exThin.src_strides ∧
    ¬ Spec.TakesReported exNv12Stride.src_format 4 4 exNv12Stride.src_strides := by
  simp [Spec.TakesReported, Spec.FitsReported, exThin, exNv12Stride, Spec.isRgb, Spec.strideOf,
    Spec.bpp]

/-- C83: exact, panic, wrapped. -/
example : Spec.reported ⟨.i420, .bt601, 3⟩ 4 4 (some [6, 0, 3]) = [24, 4, 6] ∧
    get_buffers_size .x64 4 4 ⟨.i420, .bt601, 3⟩ (some [6, 0, 3]) [7, 7, 7, 7] =
      .ok (.ok (), [24, 4, 6, 7]) ∧
    get_buffers_size .x64 2 2 ⟨.rgb, .rgb, 1⟩ (some [2 ^ 63]) [7] = .error .overflow ∧
    get_buffers_size .x64r 2 2 ⟨.rgb, .rgb, 1⟩ (some [2 ^ 63]) [7] = .ok (.ok (), [8]) := by
  decide +kernel

end Verif
