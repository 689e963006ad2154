import Verif.Lemmas.Compat
import Verif.Lemmas.K
/-! # The dispatch table -/

namespace Verif

/-- Pixel format and colour space go together. -/
def legalPair (p : PixelFormat × ColorSpace) : Bool := Spec.isRgb p.1 == (p.2 == .rgb)

theorem legalPair_iff (f : ImageFormat) :
    legalPair (f.pixel_format, f.color_space) = true ↔ Spec.CsOk f := by
  rcases f with ⟨pf, cs, n⟩
  cases pf <;> cases cs <;> simp [legalPair, Spec.CsOk, Spec.isRgb]

/-- Number of a (pixel format, colour space) combination. -/
def imgIdx : PixelFormat × ColorSpace → Nat
  | (pf, cs) =>
    if Spec.isRgb pf then pf.toU32.toNat
    else 5 + 4 * (cs.toU32.toNat - 1) + (pf.toU32.toNat - 5)

theorem get_image_index_eq (p : PixelFormat × ColorSpace) (h : legalPair p = true) :
    Dispatcher.get_image_index p.1.toU32 p.2.toU32
      (Dispatcher.get_pixel_format_mode p.1.toU32) = UInt32.ofNat (imgIdx p) := by
  rcases p with ⟨pf, cs⟩
  cases pf <;> cases cs <;> first | (exact absurd h (by decide)) | decide

theorem imgIdx_lt (p : PixelFormat × ColorSpace) (h : legalPair p = true) : imgIdx p < 21 := by
  rcases p with ⟨pf, cs⟩
  cases pf <;> cases cs <;> first | (exact absurd h (by decide)) | decide

theorem imgIdx_inj : ∀ p q, legalPair p = true → legalPair q = true → imgIdx p = imgIdx q →
    p = q := by
  rintro ⟨pf, cs⟩ ⟨pf', cs'⟩ h h'
  cases pf <;> cases cs <;> first
    | (exact absurd h (by decide))
    | (cases pf' <;> cases cs' <;> first
        | (exact absurd h' (by decide))
        | (intro _; rfl)
        | (intro e; exact absurd e (by decide)))

theorem slot_eq (s d : PixelFormat × ColorSpace) (hs : legalPair s = true)
    (hd : legalPair d = true) : slot s d = 32 * imgIdx s + imgIdx d := by
  unfold slot
  rw [get_image_index_eq s hs, get_image_index_eq d hd]
  have h1 := imgIdx_lt s hs
  have h2 := imgIdx_lt d hd
  have hc : Dispatcher.COLUMNS = 32 := by decide
  rw [Dispatcher.get_index, hc, UInt32.toNat_add, UInt32.toNat_mul]
  have e1 : (UInt32.ofNat (imgIdx s)).toNat = imgIdx s := UInt32.toNat_ofNat_of_lt (by
    show _ < 2 ^ 32; omega)
  have e2 : (UInt32.ofNat (imgIdx d)).toNat = imgIdx d := UInt32.toNat_ofNat_of_lt (by
    show _ < 2 ^ 32; omega)
  have e3 : (32 : UInt32).toNat = 32 := rfl
  rw [e1, e2, e3]
  omega

theorem slot_lt (s d : PixelFormat × ColorSpace) (hs : legalPair s = true)
    (hd : legalPair d = true) : slot s d < Dispatcher.TABLE_SIZE := by
  have h1 := imgIdx_lt s hs
  have h2 := imgIdx_lt d hd
  have ht : Dispatcher.TABLE_SIZE = 672 := by decide
  rw [slot_eq s d hs hd, ht]
  omega

theorem slot_inj {s d s' d' : PixelFormat × ColorSpace} (hs : legalPair s = true)
    (hd : legalPair d = true) (hs' : legalPair s' = true) (hd' : legalPair d' = true)
    (h : slot s d = slot s' d') : s = s' ∧ d = d' := by
  rw [slot_eq s d hs hd, slot_eq s' d' hs' hd'] at h
  have h1 := imgIdx_lt d hd
  have h2 := imgIdx_lt d' hd'
  exact ⟨imgIdx_inj _ _ hs hs' (by omega), imgIdx_inj _ _ hd hd' (by omega)⟩

/-- Routines whose key is legal. -/
def Routine.legalKey (r : Routine) : Bool := legalPair r.key.1 && legalPair r.key.2

theorem legalKey_all (r : Routine) : r.legalKey = true := by
  cases r with
  | rgbYuv s d c => cases s <;> cases d <;> cases c <;> decide
  | yuvRgb s c d => cases s <;> cases c <;> cases d <;> decide
  | rgbRgb r => cases r <;> decide

theorem key_legal (r : Routine) : legalPair r.key.1 = true ∧ legalPair r.key.2 = true := by
  have := legalKey_all r
  rwa [Routine.legalKey, Bool.and_eq_true] at this

theorem key_inj (r r' : Routine) (h : r.key = r'.key) : r = r' := by
  cases r with
  | rgbYuv s d c =>
    cases r' with
    | rgbYuv s' d' c' =>
      simp only [Routine.key, Prod.mk.injEq] at h
      obtain ⟨⟨h1, -⟩, h2, h3⟩ := h
      have : s = s' := by cases s <;> cases s' <;> first | rfl | cases h1
      have : d = d' := by cases d <;> cases d' <;> first | rfl | cases h2
      have : c = c' := by cases c <;> cases c' <;> first | rfl | cases h3
      simp [*]
    | yuvRgb s' c' d' => cases s <;> cases s' <;> simp [Routine.key, Sampler.pf, YuvFmt.pf] at h
    | rgbRgb r => cases r <;> cases d <;> simp [Routine.key, YuvFmt.pf] at h
  | yuvRgb s c d =>
    cases r' with
    | rgbYuv s' d' c' => cases s <;> cases s' <;> simp [Routine.key, Sampler.pf, YuvFmt.pf] at h
    | yuvRgb s' c' d' =>
      simp only [Routine.key, Prod.mk.injEq] at h
      obtain ⟨⟨h1, h2⟩, h3, -⟩ := h
      have : s = s' := by cases s <;> cases s' <;> first | rfl | cases h1
      have : d = d' := by cases d <;> cases d' <;> first | rfl | cases h3
      have : c = c' := by cases c <;> cases c' <;> first | rfl | cases h2
      simp [*]
    | rgbRgb r => cases r <;> cases s <;> simp [Routine.key, YuvFmt.pf] at h
  | rgbRgb r =>
    cases r' with
    | rgbYuv s' d' c' => cases r <;> cases d' <;> simp [Routine.key, YuvFmt.pf] at h
    | yuvRgb s' c' d' => cases r <;> cases s' <;> simp [Routine.key, YuvFmt.pf] at h
    | rgbRgb r' => cases r <;> cases r' <;> first | rfl | simp [Routine.key] at h

theorem register_ok (set : InstructionSet) (rs : List Routine) (tb : DispatchTable) :
    ∃ tb', register set rs tb = .ok tb' ∧
      (∀ r, r ∈ rs → tb' (slot r.key.1 r.key.2) = some ⟨set, r⟩) ∧
      (∀ i, (∀ r, r ∈ rs → slot r.key.1 r.key.2 ≠ i) → tb' i = tb i) := by
  induction rs generalizing tb with
  | nil => exact ⟨tb, rfl, by simp, by simp⟩
  | cons r rs ih =>
    have hl := key_legal r
    have hlt := slot_lt r.key.1 r.key.2 hl.1 hl.2
    obtain ⟨tb', h1, h2, h3⟩ := ih
      (fun j => if j = slot r.key.1 r.key.2 then some ⟨set, r⟩ else tb j)
    refine ⟨tb', ?_, ?_, ?_⟩
    · rw [register, DispatchTable.set, if_pos hlt]
      exact h1
    · intro r' hr'
      rcases List.mem_cons.1 hr' with e | hm
      · subst e
        by_cases hm : r' ∈ rs
        · exact h2 r' hm
        · rw [h3]
          · simp
          · intro r'' hr'' he
            have hl' := key_legal r''
            obtain ⟨e1, e2⟩ := slot_inj hl'.1 hl'.2 hl.1 hl.2 he
            have : r'' = r' := key_inj _ _ (Prod.ext e1 e2)
            exact hm (this ▸ hr'')
      · exact h2 r' hm
    · intro i hi
      rw [h3 i (fun r' hr' => hi r' (List.mem_cons_of_mem _ hr'))]
      rw [if_neg (fun e => hi r (List.mem_cons_self ..) e.symm)]

/-- What a dispatch table contains. -/
structure TableFor (set : InstructionSet) (tb : DispatchTable) : Prop where
  found : ∀ r, r ∈ registered → tb (slot r.key.1 r.key.2) = some ⟨set, r⟩
  missing : ∀ s d, legalPair s = true → legalPair d = true →
    (∀ r, r ∈ registered → r.key ≠ (s, d)) → tb (slot s d) = none

theorem set_dispatch_table_ok (set : InstructionSet) :
    ∃ tb, set_dispatch_table set = .ok tb ∧ TableFor set tb := by
  obtain ⟨tb, h1, h2, h3⟩ := register_ok set registered .empty
  refine ⟨tb, h1, h2, ?_⟩
  intro s d hs hd hn
  rw [h3]
  · rfl
  · intro r hr he
    have hl := key_legal r
    obtain ⟨e1, e2⟩ := slot_inj hl.1 hl.2 hs hd he
    exact hn r hr (Prod.ext e1 e2)

/-- The pairs of pixel formats for which a routine is registered are the documented ones. -/
theorem registered_iff (s d : PixelFormat × ColorSpace) (hs : legalPair s = true)
    (hd : legalPair d = true) :
    (∃ r, r ∈ registered ∧ r.key = (s, d)) ↔ Spec.Supported s.1 d.1 := by
  have h : ∀ (a : PixelFormat) (x : ColorSpace) (b : PixelFormat) (y : ColorSpace),
      legalPair (a, x) = true → legalPair (b, y) = true →
      (registered.any (fun r => r.key == ((a, x), (b, y)))) = decide (Spec.Supported a b) := by
    intro a x b y hs hd
    cases a <;> cases x <;> first
      | (exact absurd hs (by decide))
      | (cases b <;> cases y <;> first
          | (exact absurd hd (by decide))
          | decide +kernel)
  rcases s with ⟨a, x⟩
  rcases d with ⟨b, y⟩
  have := h a x b y hs hd
  rw [Bool.eq_iff_iff, List.any_eq_true] at this
  simpa using this

end Verif
