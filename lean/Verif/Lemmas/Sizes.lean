import Verif.Lemmas.Convert
/-! # `get_buffers_size`, case by case -/

namespace Verif

open PixFmt

theorem ok_bind {ε α β : Type} (a : α) (f : α → Except ε β) :
    ((Except.ok a : Except ε α) >>= f) = f a := rfl

theorem bind_ok_iff {ε α β : Type} {x : Except ε α} {f : α → Except ε β} {b : β} :
    (x >>= f) = .ok b ↔ ∃ a, x = .ok a ∧ f a = .ok b := by
  cases x with
  | error e =>
    constructor
    · intro h; cases h
    · rintro ⟨_, h, _⟩; cases h
  | ok a =>
    constructor
    · intro h; exact ⟨a, rfl, h⟩
    · rintro ⟨_, h, g⟩; cases h; exact g

section
variable {t : Target} {w h : UInt32} {f : ImageFormat} {strides : Option (List Nat)}
  {sizes : List Nat}

theorem shape_iff (f : ImageFormat) (w h : UInt32) : Spec.Shape f w h ↔
    Spec.SizeOk f.pixel_format w.toNat h.toNat ∧
      Spec.PlanesOk f.pixel_format f.num_planes.toNat :=
  ⟨fun h => ⟨h.1, h.2⟩, fun h => ⟨h.1, h.2⟩⟩

instance (f : ImageFormat) (w h : UInt32) : Decidable (Spec.Shape f w h) :=
  decidable_of_iff _ (shape_iff f w h).symm

theorem gbs_invalid (hs : ¬ Spec.Shape f w h) :
    get_buffers_size t w h f strides sizes = .ok (.error .invalidValue, sizes) := by
  have e := compat_eq f w h
  rw [shape_iff] at hs
  simp only [hs, decide_false] at e
  unfold get_buffers_size
  simp only [e]
  rfl

/-- Result of the plane computation turned into a result. -/
def gbsResult (x : R (Bool × List Nat)) : R (Except ErrorKind Unit × List Nat) :=
  match x with
  | .error e => .error e
  | .ok (true, bs) => .ok (.ok (), bs)
  | .ok (false, bs) => .ok (.error .notEnoughData, bs)

theorem gbs_eq (hs : Spec.Shape f w h) :
    get_buffers_size t w h f strides sizes =
      gbsResult (PixFmt.get_buffers_size t f.pixel_format.toU32 w h (f.num_planes - 1)
        (strides.getD DEFAULT_STRIDES) sizes) := by
  have e := compat_eq f w h
  rw [shape_iff] at hs
  simp only [hs, decide_true, and_self] at e
  unfold get_buffers_size
  simp only [e]
  cases PixFmt.get_buffers_size t f.pixel_format.toU32 w h (f.num_planes - 1)
    (strides.getD DEFAULT_STRIDES) sizes with
  | error e => rfl
  | ok p => rcases p with ⟨_ | _, bs⟩ <;> rfl

/-- Strides and sizes are present for every plane. -/
structure Room (f : ImageFormat) (strides : Option (List Nat)) (sizes : List Nat) : Prop where
  strides_len : ∀ l, strides = some l → f.num_planes.toNat ≤ l.length
  sizes_len : f.num_planes.toNat ≤ sizes.length

theorem last_toNat (hp : Spec.PlanesOk f.pixel_format f.num_planes.toNat) :
    (f.num_planes - 1).toNat + 1 = f.num_planes.toNat := by
  have := planes_le hp
  obtain ⟨m, hm⟩ : ∃ m, f.num_planes.toNat = m + 1 := ⟨f.num_planes.toNat - 1, by omega⟩
  rw [u32_pred_toNat hm, hm]

theorem room_iff (hp : Spec.PlanesOk f.pixel_format f.num_planes.toNat) :
    Room f strides sizes ↔
      ¬ ((f.num_planes - 1).toNat ≥ MAX_NUMBER_OF_PLANES ∨
        (f.num_planes - 1).toNat ≥ (strides.getD DEFAULT_STRIDES).length ∨
        (f.num_planes - 1).toNat ≥ sizes.length) := by
  have h1 := last_toNat hp
  have h2 := planes_le hp
  have h3 : MAX_NUMBER_OF_PLANES = 4 := rfl
  constructor
  · rintro ⟨a, b⟩
    have : f.num_planes.toNat ≤ (strides.getD DEFAULT_STRIDES).length := by
      cases strides with
      | none => show _ ≤ 4; omega
      | some l => exact a l rfl
    omega
  · intro hn
    refine ⟨?_, by omega⟩
    rintro l rfl
    have : ¬ (f.num_planes - 1).toNat ≥ l.length := fun hh => hn (.inr (.inl hh))
    omega

theorem gbs_short (hs : Spec.Shape f w h) (hr : ¬ Room f strides sizes) :
    get_buffers_size t w h f strides sizes = .ok (.error .notEnoughData, sizes) := by
  rw [room_iff hs.planes, not_not] at hr
  rw [gbs_eq hs, PixFmt.get_buffers_size]
  rw [if_pos hr]
  rfl

/-- Line length of the pseudo planes used by the size computation. -/
def rowB : PixelFormat → (i w : Nat) → Nat
  | .argb, _, w | .bgra, _, w | .rgba, _, w => w
  | .bgr, i, w | .rgb, i, w | .i444, i, w => if i < 3 then w else 0
  | .i422, i, w | .i420, i, w => if i = 0 then w else if i < 3 then w / 2 else 0
  | .nv12, i, w => if i < 2 then w else 0

/-- Number of lines of the pseudo planes used by the size computation. -/
def rowsB : PixelFormat → (i h : Nat) → Nat
  | .i420, i, h => if i = 1 ∨ i = 2 then h / 2 else h
  | .nv12, i, h => if i = 1 then h / 2 else h
  | _, _, h => h

/-- Stride used for pseudo plane `i`. -/
def entB (strides : List Nat) (i row : Nat) : Nat :=
  match strides[i]? with
  | none => row
  | some s => if s = 0 then row else s

/-- Size of pseudo plane `i`. -/
def sizeB (pf : PixelFormat) (w h : Nat) (strides : List Nat) (i : Nat) : Nat :=
  entB strides i (rowB pf i w) * rowsB pf i h

theorem u32_shr (a : UInt32) : (a >>> 1).toNat = a.toNat / 2 := by
  rw [UInt32.toNat_shiftRight, show (1 : UInt32).toNat % 32 = 1 from rfl, Nat.shiftRight_eq_div_pow]

theorem u32_shr0 (a : UInt32) : (a >>> 0).toNat = a.toNat := by
  rw [UInt32.toNat_shiftRight]
  rfl

theorem u32_shr32 (a : UInt32) : (a >>> 32).toNat = a.toNat := by
  rw [UInt32.toNat_shiftRight]
  rfl

theorem spec_rows (pf : PixelFormat) (h : UInt32) {spec : UInt32} {i : Nat} (hi : i < 4)
    (hsp : idx HEIGHT_SPECS pf.toU32.toNat = .ok spec) :
    get_plane_spec h spec i = rowsB pf i h.toNat := by
  unfold get_plane_spec
  rcases (by omega : i = 0 ∨ i = 1 ∨ i = 2 ∨ i = 3) with e | e | e | e <;> subst e <;>
  cases pf <;> cases hsp <;>
  first
  | exact u32_shr0 h
  | exact u32_shr h

theorem entry_ok (hb : 32 ≤ t.bits) (pf : PixelFormat) (w : UInt32) (l : List Nat) {spec : UInt32}
    {i : Nat} (hi : i < 4) (hsp : idx STRIDE_SPECS pf.toU32.toNat = .ok spec) :
    stride_entry t l spec w i = .ok (entB l i (rowB pf i w.toNat)) := by
  have hp : 2 ^ 32 ≤ 2 ^ t.bits := Nat.pow_le_pow_right (by omega) hb
  have hw := w.toNat_lt
  have key : t.mul (get_plane_mask spec i) (get_plane_spec w spec i) = .ok (rowB pf i w.toNat) := by
    have k0 : ∀ m s r : Nat, m * s = r → r < 2 ^ 32 → t.mul m s = .ok r := by
      rintro m s r rfl hr
      exact if_pos (by omega)
    unfold get_plane_spec
    rcases (by omega : i = 0 ∨ i = 1 ∨ i = 2 ∨ i = 3) with e | e | e | e <;> subst e <;>
    cases pf <;> cases hsp <;>
    first
    | exact k0 1 _ _ ((Nat.one_mul _).trans (u32_shr0 w)) hw
    | exact k0 1 _ _ ((Nat.one_mul _).trans (u32_shr w)) (show w.toNat / 2 < 2 ^ 32 by omega)
    | exact k0 0 _ _ (Nat.zero_mul _) (show 0 < 2 ^ 32 by omega)
  unfold stride_entry entB
  cases l[i]? with
  | none => exact key
  | some s =>
    simp only
    by_cases hs : s = STRIDE_AUTO
    · rw [if_pos hs, if_pos (show s = 0 from hs)]; exact key
    · rw [if_neg hs, if_neg (show ¬ s = 0 from hs)]

theorem stride_spec_ok (pf : PixelFormat) : ∃ spec, idx STRIDE_SPECS pf.toU32.toNat = .ok spec := by
  cases pf <;> exact ⟨_, rfl⟩

theorem height_spec_ok (pf : PixelFormat) : ∃ spec, idx HEIGHT_SPECS pf.toU32.toNat = .ok spec := by
  cases pf <;> exact ⟨_, rfl⟩

theorem tmul_ok {a b : Nat} (hf : a * b < 2 ^ t.bits) : t.mul a b = .ok (a * b) := if_pos hf
theorem tadd_ok {a b : Nat} (hf : a + b < 2 ^ t.bits) : t.add a b = .ok (a + b) := if_pos hf

/-- Single buffer: the sizes of all four pseudo planes are added. -/
theorem gbs_single (hb : 32 ≤ t.bits) (hs : Spec.Shape f w h) (hr : Room f strides sizes)
    (hn : f.num_planes.toNat = 1) :
    let z := sizeB f.pixel_format w.toNat h.toNat (strides.getD DEFAULT_STRIDES)
    z 0 + z 1 + (z 2 + z 3) < 2 ^ t.bits →
    get_buffers_size t w h f strides sizes = .ok (.ok (), sizes.set 0 (z 0 + z 1 + (z 2 + z 3))) := by
  intro z hz
  have hr' := (room_iff hs.planes).1 hr
  have hl := last_toNat hs.planes
  obtain ⟨sp, e1⟩ := stride_spec_ok f.pixel_format
  obtain ⟨hp, e2⟩ := height_spec_ok f.pixel_format
  rw [gbs_eq hs, PixFmt.get_buffers_size]
  rw [if_neg hr']
  simp only [e1, e2, ok_bind, entry_ok hb f.pixel_format w _ (i := 0) (by omega) e1,
    entry_ok hb f.pixel_format w _ (i := 1) (by omega) e1,
    entry_ok hb f.pixel_format w _ (i := 2) (by omega) e1,
    entry_ok hb f.pixel_format w _ (i := 3) (by omega) e1]
  have hl0 : (f.num_planes - 1).toNat = 0 := by omega
  simp only [hl0, if_true]
  have m : ∀ i, i < 4 → z i < 2 ^ t.bits →
      t.mul (entB (strides.getD DEFAULT_STRIDES) i (rowB f.pixel_format i w.toNat))
        (get_plane_spec h hp i) = .ok (z i) := by
    intro i hi hz'
    rw [spec_rows _ _ hi e2]
    exact tmul_ok hz'
  rw [m 0 (by omega) (by omega), m 1 (by omega) (by omega), m 2 (by omega) (by omega),
    m 3 (by omega) (by omega)]
  simp only [ok_bind]
  rw [tadd_ok (a := z 0) (by omega), tadd_ok (a := z 2) (by omega)]
  simp only [ok_bind]
  rw [tadd_ok hz]
  rfl

/-- Write `n` values starting at `i`. -/
def setAll (g : Nat → Nat) : (i n : Nat) → List Nat → List Nat
  | _, 0, bs => bs
  | i, n + 1, bs => setAll g (i + 1) n (bs.set i (g i))

theorem setAll_length (g : Nat → Nat) (i n : Nat) (bs : List Nat) :
    (setAll g i n bs).length = bs.length := by
  induction n generalizing i bs with
  | zero => rfl
  | succ n ih => rw [setAll, ih, List.length_set]

theorem setAll_get (g : Nat → Nat) (i n : Nat) (bs : List Nat) (j : Nat) :
    (setAll g i n bs)[j]? =
      if i ≤ j ∧ j < i + n ∧ j < bs.length then some (g j) else bs[j]? := by
  induction n generalizing i bs with
  | zero => rw [setAll, if_neg (by omega)]
  | succ n ih =>
    rw [setAll, ih, List.length_set, List.getElem?_set]
    by_cases h1 : i = j
    · subst h1
      by_cases h2 : i < bs.length
      · rw [if_neg (by omega), if_pos rfl, if_pos (by omega), if_pos (by omega)]
      · rw [if_neg (by omega), if_pos rfl, if_neg h2, if_neg (by omega),
          List.getElem?_eq_none (by omega)]
    · rw [if_neg h1]
      by_cases h2 : i + 1 ≤ j ∧ j < i + 1 + n ∧ j < bs.length
      · rw [if_pos h2, if_pos (by omega)]
      · rw [if_neg h2, if_neg (by omega)]

theorem plane_sizes_eq {stride : List Nat} {hs h : UInt32} {g : Nat → Nat} {i n : Nat}
    {bs : List Nat} (hg : ∀ j, i ≤ j → j < i + n → ∃ s, idx stride j = .ok s ∧
      t.mul s (get_plane_spec h hs j) = .ok (g j)) :
    plane_sizes t stride hs h i n bs = .ok (setAll g i n bs) := by
  induction n generalizing i bs with
  | zero => rfl
  | succ n ih =>
    obtain ⟨s, a, b⟩ := hg i (by omega) (by omega)
    rw [plane_sizes, a]
    show (do
      let v ← t.mul s (get_plane_spec h hs i)
      plane_sizes t stride hs h (i + 1) n (bs.set i v)) = _
    rw [b]
    show plane_sizes t stride hs h (i + 1) n (bs.set i (g i)) = _
    rw [ih fun j h1 h2 => hg j (by omega) (by omega)]
    rfl

/-- One buffer per plane. -/
theorem gbs_multi (hb : 32 ≤ t.bits) (hs : Spec.Shape f w h) (hr : Room f strides sizes)
    (hn : 1 < f.num_planes.toNat) :
    let z := sizeB f.pixel_format w.toNat h.toNat (strides.getD DEFAULT_STRIDES)
    (∀ i, i < f.num_planes.toNat → z i < 2 ^ t.bits) →
    get_buffers_size t w h f strides sizes =
      .ok (.ok (), setAll z 0 f.num_planes.toNat sizes) := by
  intro z hz
  have hr' := (room_iff hs.planes).1 hr
  have hl := last_toNat hs.planes
  have hle := planes_le hs.planes
  obtain ⟨sp, e1⟩ := stride_spec_ok f.pixel_format
  obtain ⟨hp, e2⟩ := height_spec_ok f.pixel_format
  rw [gbs_eq hs, PixFmt.get_buffers_size]
  rw [if_neg hr']
  simp only [e1, e2, ok_bind, entry_ok hb f.pixel_format w _ (i := 0) (by omega) e1,
    entry_ok hb f.pixel_format w _ (i := 1) (by omega) e1,
    entry_ok hb f.pixel_format w _ (i := 2) (by omega) e1,
    entry_ok hb f.pixel_format w _ (i := 3) (by omega) e1]
  have hl0 : ¬ (f.num_planes - 1).toNat = 0 := by omega
  simp only [hl0, if_false, hl]
  have := plane_sizes_eq (t := t) (stride := [entB (strides.getD DEFAULT_STRIDES) 0
    (rowB f.pixel_format 0 w.toNat), entB (strides.getD DEFAULT_STRIDES) 1
    (rowB f.pixel_format 1 w.toNat), entB (strides.getD DEFAULT_STRIDES) 2
    (rowB f.pixel_format 2 w.toNat), entB (strides.getD DEFAULT_STRIDES) 3
    (rowB f.pixel_format 3 w.toNat)]) (hs := hp) (h := h) (g := z) (i := 0)
    (n := f.num_planes.toNat) (bs := sizes) (by
      intro j _ hj
      refine ⟨entB (strides.getD DEFAULT_STRIDES) j (rowB f.pixel_format j w.toNat), ?_, ?_⟩
      · rcases (by omega : j = 0 ∨ j = 1 ∨ j = 2) with e | e | e <;> subst e <;> rfl
      · rw [spec_rows _ _ (by omega) e2]
        exact tmul_ok (hz j (by omega)))
  show gbsResult (do
    let bs ← plane_sizes t _ hp h 0 f.num_planes.toNat sizes
    Except.ok (true, bs)) = _
  rw [this]
  rfl

theorem plane_sizes_frame {stride : List Nat} {hs h : UInt32} {i n : Nat} {bs bs' : List Nat}
    (e : plane_sizes t stride hs h i n bs = .ok bs') :
    bs'.length = bs.length ∧ ∀ j, j < i ∨ i + n ≤ j → bs'[j]? = bs[j]? := by
  induction n generalizing i bs with
  | zero => cases e; exact ⟨rfl, fun _ _ => rfl⟩
  | succ n ih =>
    rw [plane_sizes] at e
    cases h1 : idx stride i with
    | error x => rw [h1] at e; cases e
    | ok s =>
      rw [h1] at e
      cases h2 : t.mul s (get_plane_spec h hs i) with
      | error x =>
        have : (do
          let v ← t.mul s (get_plane_spec h hs i)
          plane_sizes t stride hs h (i + 1) n (bs.set i v)) = .ok bs' := e
        rw [h2] at this; cases this
      | ok v =>
        have : (do
          let v ← t.mul s (get_plane_spec h hs i)
          plane_sizes t stride hs h (i + 1) n (bs.set i v)) = .ok bs' := e
        rw [h2] at this
        obtain ⟨a, b⟩ := ih (i := i + 1) (bs := bs.set i v) this
        refine ⟨a.trans (List.length_set ..), fun j hj => ?_⟩
        rw [b j (by omega), List.getElem?_set, if_neg (by omega)]

/-- Success: only entries of existing planes are changed. -/
theorem gbs_frame {out : List Nat} (hs : Spec.Shape f w h)
    (hr : Room f strides sizes) {r : Except ErrorKind Unit}
    (e : get_buffers_size t w h f strides sizes = .ok (r, out)) :
    r = .ok () ∧ out.length = sizes.length ∧
      ∀ j, f.num_planes.toNat ≤ j → out[j]? = sizes[j]? := by
  have hr' := (room_iff hs.planes).1 hr
  have hl := last_toNat hs.planes
  have hle := planes_le hs.planes
  rw [gbs_eq hs, PixFmt.get_buffers_size] at e
  rw [if_neg hr'] at e
  have key : ∀ x : R (Bool × List Nat), gbsResult x = .ok (r, out) →
      (∀ b bs, x = .ok (b, bs) → b = true ∧ bs.length = sizes.length ∧
        ∀ j, f.num_planes.toNat ≤ j → bs[j]? = sizes[j]?) →
      r = .ok () ∧ out.length = sizes.length ∧
      ∀ j, f.num_planes.toNat ≤ j → out[j]? = sizes[j]? := by
    intro x hx hb
    rcases x with _ | ⟨_ | _, bs⟩
    · cases hx
    · cases (hb _ _ rfl).1
    · cases hx
      exact ⟨rfl, (hb _ _ rfl).2⟩
  refine key _ e ?_
  intro b bs hx
  simp only [bind_ok_iff] at hx
  obtain ⟨_, _, _, _, _, _, _, _, _, _, hspec, _, hx⟩ := hx
  split at hx
  · simp only [bind_ok_iff] at hx
    obtain ⟨_, _, _, _, _, _, _, _, _, _, _, _, c, _, hx⟩ := hx
    cases hx
    refine ⟨rfl, List.length_set .., fun j hj => ?_⟩
    rw [List.getElem?_set, if_neg (by omega)]
  · simp only [bind_ok_iff] at hx
    obtain ⟨bs', h1, hx⟩ := hx
    cases hx
    obtain ⟨a, b⟩ := plane_sizes_frame h1
    exact ⟨rfl, a, fun j hj => b j (by omega)⟩

/-- `InvalidValue` is answered exactly for illegal shapes. -/
theorem gbs_invalid_iff :
    (∃ out, get_buffers_size t w h f strides sizes = .ok (.error .invalidValue, out)) ↔
      ¬ Spec.Shape f w h := by
  constructor
  · rintro ⟨out, e⟩ hs
    by_cases hr : Room f strides sizes
    · cases (gbs_frame hs hr e).1
    · rw [gbs_short hs hr] at e
      cases e
  · intro hs
    exact ⟨_, gbs_invalid hs⟩

theorem gbs_short_iff :
    (∃ out, get_buffers_size t w h f strides sizes = .ok (.error .notEnoughData, out)) ↔
      Spec.Shape f w h ∧ ¬ Room f strides sizes := by
  constructor
  · rintro ⟨out, e⟩
    by_cases hs : Spec.Shape f w h
    · refine ⟨hs, fun hr => ?_⟩
      cases (gbs_frame hs hr e).1
    · rw [gbs_invalid hs] at e
      cases e
  · rintro ⟨hs, hr⟩
    exact ⟨_, gbs_short hs hr⟩

theorem tmul_checked (hc : t.checked = true) {a b c : Nat} (e : t.mul a b = .ok c) :
    c = a * b ∧ a * b < 2 ^ t.bits := by
  unfold Target.mul at e
  split at e
  · rename_i h1
    cases e
    exact ⟨rfl, h1⟩
  · cases e

theorem tadd_checked (hc : t.checked = true) {a b c : Nat} (e : t.add a b = .ok c) :
    c = a + b ∧ a + b < 2 ^ t.bits := by
  unfold Target.add at e
  split at e
  · rename_i h1
    cases e
    exact ⟨rfl, h1⟩
  · cases e

theorem plane_sizes_checked (hc : t.checked = true) {stride : List Nat} {hs h : UInt32}
    {i n : Nat} {bs bs' : List Nat} (e : plane_sizes t stride hs h i n bs = .ok bs') :
    ∀ j, i ≤ j → j < i + n → ∃ s, idx stride j = .ok s ∧
      s * get_plane_spec h hs j < 2 ^ t.bits := by
  induction n generalizing i bs with
  | zero => intro j h1 h2; omega
  | succ n ih =>
    rw [plane_sizes] at e
    simp only [bind_ok_iff] at e
    obtain ⟨s, h1, v, h2, h3⟩ := e
    intro j h4 h5
    by_cases h6 : j = i
    · subst h6
      exact ⟨s, h1, (tmul_checked hc h2).2⟩
    · exact ih h3 j (by omega) (by omega)

/-- With overflow checks, success means that the exact sizes were computed. -/
theorem gbs_checked (hb : 32 ≤ t.bits) (hc : t.checked = true) {out : List Nat}
    (e : get_buffers_size t w h f strides sizes = .ok (.ok (), out)) :
    Spec.Shape f w h ∧ Room f strides sizes ∧
    (let z := sizeB f.pixel_format w.toNat h.toNat (strides.getD DEFAULT_STRIDES);
      (f.num_planes.toNat = 1 → z 0 + z 1 + (z 2 + z 3) < 2 ^ t.bits ∧
        out = sizes.set 0 (z 0 + z 1 + (z 2 + z 3))) ∧
      (1 < f.num_planes.toNat → (∀ i, i < f.num_planes.toNat → z i < 2 ^ t.bits) ∧
        out = setAll z 0 f.num_planes.toNat sizes)) := by
  have hs : Spec.Shape f w h := by
    by_contra hs
    rw [gbs_invalid hs] at e
    cases e
  have hr : Room f strides sizes := by
    by_contra hr
    rw [gbs_short hs hr] at e
    cases e
  refine ⟨hs, hr, ?_⟩
  intro z
  have e0 := e
  have hr' := (room_iff hs.planes).1 hr
  have hl := last_toNat hs.planes
  have hle := planes_le hs.planes
  obtain ⟨sp, e1⟩ := stride_spec_ok f.pixel_format
  obtain ⟨hp, e2⟩ := height_spec_ok f.pixel_format
  rw [gbs_eq hs, PixFmt.get_buffers_size] at e
  rw [if_neg hr'] at e
  simp only [e1, e2, ok_bind, entry_ok hb f.pixel_format w _ (i := 0) (by omega) e1,
    entry_ok hb f.pixel_format w _ (i := 1) (by omega) e1,
    entry_ok hb f.pixel_format w _ (i := 2) (by omega) e1,
    entry_ok hb f.pixel_format w _ (i := 3) (by omega) e1] at e
  have res : ∀ x : R (Bool × List Nat), gbsResult x = .ok (.ok (), out) → x = .ok (true, out) := by
    intro x hx
    rcases x with _ | ⟨_ | _, bs⟩
    · cases hx
    · cases hx
    · cases hx; rfl
  have e := res _ e
  constructor
  · intro hn
    have hl0 : (f.num_planes - 1).toNat = 0 := by omega
    simp only [hl0, if_true, bind_ok_iff] at e
    obtain ⟨p0, m0, p1, m1, a, ma, p2, m2, p3, m3, b, mb, c, mc, -⟩ := e
    rw [spec_rows _ _ (by omega) e2] at m0 m1 m2 m3
    have q0 := tmul_checked hc m0
    have q1 := tmul_checked hc m1
    have q2 := tmul_checked hc m2
    have q3 := tmul_checked hc m3
    have qa := tadd_checked hc ma
    have qb := tadd_checked hc mb
    have qc := tadd_checked hc mc
    have hz : z 0 + z 1 + (z 2 + z 3) < 2 ^ t.bits := by
      have r0 : p0 = z 0 := q0.1
      have r1 : p1 = z 1 := q1.1
      have r2 : p2 = z 2 := q2.1
      have r3 : p3 = z 3 := q3.1
      omega
    refine ⟨hz, ?_⟩
    rw [gbs_single hb hs hr hn hz] at e0
    cases e0
    rfl
  · intro hn
    have hl0 : ¬ (f.num_planes - 1).toNat = 0 := by omega
    simp only [hl0, if_false, bind_ok_iff, hl] at e
    obtain ⟨bs, m, -⟩ := e
    have hz : ∀ i, i < f.num_planes.toNat → z i < 2 ^ t.bits := by
      intro i hi
      obtain ⟨s, a, b⟩ := plane_sizes_checked hc m i (by omega) (by omega)
      rw [spec_rows _ _ (by omega) e2] at b
      rcases (by omega : i = 0 ∨ i = 1 ∨ i = 2) with e | e | e <;> subst e <;> cases a <;> exact b
    refine ⟨hz, ?_⟩
    rw [gbs_multi hb hs hr hn hz] at e0
    cases e0
    rfl

end

end Verif
