import Verif.Model.CApi
import Verif.Lemmas.Extra
import Verif.Lemmas.Run
import Verif.Spec.CArgs
/-!
# The C interface
-/

namespace Verif.CApi

/-! ## Validation -/

theorem pixelFormat_valid (x : UInt32) :
    (Dispatcher.is_pixel_format_valid x = true ↔ ∃ pf : PixelFormat, x = pf.toU32) ∧
    ∀ pf : PixelFormat, pixelFormat? pf.toU32 = some pf := by
  refine ⟨?_, fun pf => by cases pf <;> rfl⟩
  have e : Dispatcher.is_pixel_format_valid x = decide (x.toNat ≤ 8) := by
    show decide (x - 0 ≤ 8) = _
    rw [UInt32.sub_zero, decide_eq_decide, UInt32.le_iff_toNat_le]
    rfl
  rw [e, decide_eq_true_eq]
  constructor
  · intro h
    have hx : x = UInt32.ofNat x.toNat := by simp
    rcases (by omega : x.toNat = 0 ∨ x.toNat = 1 ∨ x.toNat = 2 ∨ x.toNat = 3 ∨ x.toNat = 4 ∨
      x.toNat = 5 ∨ x.toNat = 6 ∨ x.toNat = 7 ∨ x.toNat = 8) with
      h | h | h | h | h | h | h | h | h <;> rw [h] at hx
    · exact ⟨.argb, hx⟩
    · exact ⟨.bgra, hx⟩
    · exact ⟨.bgr, hx⟩
    · exact ⟨.rgba, hx⟩
    · exact ⟨.rgb, hx⟩
    · exact ⟨.i444, hx⟩
    · exact ⟨.i422, hx⟩
    · exact ⟨.i420, hx⟩
    · exact ⟨.nv12, hx⟩
  · rintro ⟨pf, rfl⟩
    cases pf <;> decide

theorem colorSpace_valid (x : UInt32) :
    (Dispatcher.is_color_space_valid x = true ↔ ∃ cs : ColorSpace, x = cs.toU32) ∧
    ∀ cs : ColorSpace, colorSpace? cs.toU32 = some cs := by
  refine ⟨?_, fun pf => by cases pf <;> rfl⟩
  have e : Dispatcher.is_color_space_valid x = decide (x.toNat ≤ 4) := by
    show decide (x - 0 ≤ 4) = _
    rw [UInt32.sub_zero, decide_eq_decide, UInt32.le_iff_toNat_le]
    rfl
  rw [e, decide_eq_true_eq]
  constructor
  · intro h
    have hx : x = UInt32.ofNat x.toNat := by simp
    rcases (by omega : x.toNat = 0 ∨ x.toNat = 1 ∨ x.toNat = 2 ∨ x.toNat = 3 ∨ x.toNat = 4) with
      h | h | h | h | h <;> rw [h] at hx
    · exact ⟨.rgb, hx⟩
    · exact ⟨.bt601, hx⟩
    · exact ⟨.bt709, hx⟩
    · exact ⟨.bt601FR, hx⟩
    · exact ⟨.bt709FR, hx⟩
  · rintro ⟨pf, rfl⟩
    cases pf <;> decide

/-- pixel_format.rs:239-250 decides the number of planes. -/
theorem planes_compatible (pf : PixelFormat) (n : UInt32) :
    PixFmt.are_planes_compatible pf.toU32 n = .ok (decide (Spec.PlanesOk pf n.toNat)) := by
  have h := is_compatible_eq pf 0 0 n
  have hs : Spec.SizeOk pf (0 : UInt32).toNat (0 : UInt32).toNat := by cases pf <;> decide
  simp only [hs, true_and] at h
  rw [← h]
  unfold PixFmt.are_planes_compatible PixFmt.is_compatible
  have z : ∀ a b c : UInt32, ((0 : UInt32) &&& a ||| 0 &&& b ||| c) = c := by
    intro a b c
    rw [UInt32.zero_and, UInt32.zero_and, UInt32.zero_or, UInt32.zero_or]
  simp only [z]

theorem rust_ofFormat (f : ImageFormat) : (ofFormat f).rust = f := by
  unfold CFormat.rust ofFormat
  simp only [(pixelFormat_valid f.pixel_format.toU32).2, (colorSpace_valid f.color_space.toU32).2]
  rfl

theorem ofFormat_rust {f : CFormat} (h1 : Dispatcher.is_pixel_format_valid f.pixel_format = true)
    (h2 : Dispatcher.is_color_space_valid f.color_space = true) :
    ofFormat f.rust = f := by
  obtain ⟨pf, e1⟩ := (pixelFormat_valid _).1.1 h1
  obtain ⟨cs, e2⟩ := (colorSpace_valid _).1.1 h2
  clear h1 h2
  rcases f with ⟨a, b, n⟩
  simp only at e1 e2
  subst e1 e2
  exact congrArg ofFormat (rust_ofFormat ⟨pf, cs, n⟩)

/-! ## Plane pointers -/

theorem planePtrs_spec (arr : List (Option Buf)) (n : Nat) : ∀ i, i + n ≤ arr.length →
    (planePtrs arr i n = .ok none ∧ ∃ j, i ≤ j ∧ j < i + n ∧ arr[j]? = some none) ∨
    (∃ bs, planePtrs arr i n = .ok (some bs) ∧ bs.map some = (arr.drop i).take n) := by
  induction n with
  | zero => intro i _; exact .inr ⟨[], rfl, by simp⟩
  | succ n ih =>
    intro i hi
    unfold planePtrs
    rw [List.getElem?_eq_getElem (by omega : i < arr.length)]
    cases h : arr[i] with
    | none =>
      refine .inl ⟨rfl, i, Nat.le_refl _, by omega, ?_⟩
      rw [List.getElem?_eq_getElem (by omega), h]
    | some b =>
      rcases ih (i + 1) (by omega) with ⟨h1, j, h2, h3, h4⟩ | ⟨bs, h1, h2⟩
      · simp only [h1]
        exact .inl ⟨rfl, j, by omega, by omega, h4⟩
      · simp only [h1]
        refine .inr ⟨b :: bs, rfl, ?_⟩
        rw [List.drop_eq_getElem_cons (by omega : i < arr.length), List.take_succ_cons, ← h2, h]
        rfl

theorem planePtrs_null {arr : List (Option Buf)} {n j : Nat} (hn : n ≤ arr.length) (hj : j < n)
    (h : arr[j]? = some none) : planePtrs arr 0 n = .ok none := by
  rcases planePtrs_spec arr n 0 (by omega) with ⟨h1, -⟩ | ⟨bs, -, h2⟩
  · exact h1
  · rw [List.drop_zero] at h2
    have : (bs.map some)[j]? = some none := by
      rw [h2, List.getElem?_take_of_lt hj, h]
    rw [List.getElem?_map] at this
    cases h3 : bs[j]? <;> rw [h3] at this <;> cases this

theorem planePtrs_some {bufs : List Buf} {n : Nat} (hn : n ≤ bufs.length) :
    planePtrs (bufs.map some) 0 n = .ok (some (bufs.take n)) := by
  rcases planePtrs_spec (bufs.map some) n 0 (by simpa using hn) with ⟨-, j, -, -, h⟩ | ⟨bs, h1, h2⟩
  · rw [List.getElem?_map] at h
    cases h3 : bufs[j]? <;> rw [h3] at h <;> cases h
  · rw [h1, List.drop_zero, ← List.map_take] at *
    rw [(List.map_inj_right (fun _ _ h => Option.some.inj h)).1 h2]

/-! ## Unbounded arrays -/

theorem unbounded_agree {t : Target} {n : Nat} {strides : Option (List Nat)} {behind : Nat → Nat}
    (hn : n ≤ t.imax) (h4 : n ≤ 4) (hl : ∀ l, strides = some l → n ≤ l.length) :
    Agree n ((strides.map fun l => unbounded t l behind).getD PixFmt.DEFAULT_STRIDES)
      (strides.getD PixFmt.DEFAULT_STRIDES) := by
  cases strides with
  | none => exact .refl h4
  | some l =>
    have := hl l rfl
    refine ⟨by simpa [unbounded] using hn, this, ?_⟩
    intro i hi
    show ((List.range t.imax).map _)[i]? = l[i]?
    rw [List.getElem?_map, List.getElem?_range (by omega), List.getElem?_eq_getElem (by omega)]
    simp [List.getD_eq_getElem?_getD, List.getElem?_eq_getElem (by omega : i < l.length)]

theorem append_agree {α : Type} {n : Nat} {l more : List α} (hn : n ≤ l.length) :
    Agree n (l.take n ++ more) l := by
  refine ⟨by simp; omega, hn, ?_⟩
  intro i hi
  rw [List.getElem?_append_left (by simp; omega), List.getElem?_take_of_lt hi]

theorem slices_agree {t : Target} {n : Nat} {l more : List Buf} (hn : n ≤ l.length) :
    Agree n (dstSlices ((l.take n).map (inflate t) ++ more)) (dstSlices (l.map (inflate t))) := by
  unfold dstSlices
  refine ⟨by simp; omega, by simpa using hn, ?_⟩
  intro i hi
  rw [List.getElem?_mapIdx, List.getElem?_mapIdx, List.map_take]
  rw [(append_agree (more := more) (by simpa using hn : n ≤ (l.map (inflate t)).length)).eq i hi]

theorem bytesAt_inflate (t : Target) (l : List Buf) :
    Spec.bytesAt (l.map (inflate t)) = Spec.bytesAt l := by
  funext i
  unfold Spec.bytesAt
  rw [List.getElem?_map]
  cases l[i]? <;> rfl

theorem resultPlanes_inflate (S : Sem) (t : Target) (w h : UInt32) (sf : ImageFormat)
    (ss : Option (List Nat)) (sb : List Buf) (df : ImageFormat) :
    S.resultPlanes w h sf ss (sb.map (inflate t)) df = S.resultPlanes w h sf ss sb df := by
  unfold Sem.resultPlanes Spec.readRgb Spec.readYuv Spec.planeAt
  rw [bytesAt_inflate]

theorem fits_inflate {t : Target} {f : ImageFormat} {w h : UInt32} {ss : Option (List Nat)}
    {sb : List Buf} (hf : Spec.Fits f w h ss sb) (hr : Spec.Real t sb) :
    Spec.Fits f w h ss (sb.map (inflate t)) := by
  refine ⟨hf.strides_len, by simpa using hf.bufs_len, ?_, ?_⟩
  · intro i b rc h1 h2
    rw [List.getElem?_map] at h1
    cases h3 : sb[i]? with
    | none => rw [h3] at h1; cases h1
    | some b0 =>
      rw [h3] at h1
      cases h1
      have h4 := hf.plane i b0 rc h3 h2
      have h5 := hr b0 (List.mem_of_getElem? h3)
      exact ⟨h4.row_le, Nat.le_trans h4.extent h5, Nat.le_trans h4.stride_le h5⟩
  · intro b h1 h2 h3
    rw [List.getElem?_map] at h1
    cases h4 : sb[0]? with
    | none => rw [h4] at h1; cases h1
    | some b0 =>
      rw [h4] at h1
      cases h1
      exact Nat.le_trans (hf.chroma b0 h4 h2 h3) (hr b0 (List.mem_of_getElem? h4))

theorem real_inflate (t : Target) (l : List Buf) : Spec.Real t (l.map (inflate t)) := by
  intro b hb
  obtain ⟨b0, -, rfl⟩ := List.mem_map.1 hb
  exact Nat.le_refl _

/-- The writes of a valid conversion. -/
theorem run_emits {t : Target} {impls : InstructionSet → Impl} {set : InstructionSet}
    {tb : DispatchTable} (hT : TableFor set tb) {S : Sem} (hI : ImplOk t (impls set) S) {c : Call}
    (hv : Spec.Valid t c)
    (hroom : Spec.isRgb c.dst_format.pixel_format = false → S.room c.src_format.pixel_format
      c.width.toNat c.height.toNat (Spec.strideOf c.src_strides 0
        (Spec.bpp c.src_format.pixel_format * c.width.toNat)) (bufAt c.src_buffers 0).len) :
    ∃ ws, (convert_image_with t impls tb c.width c.height c.src_format c.src_strides
        c.src_buffers c.dst_format c.dst_strides (dstSlices c.dst_buffers)).run = .ok (.ok (), ws) ∧
      ∀ p, p ∈ ws ↔ PlaneWrites
        (Spec.dims c.dst_format.pixel_format c.dst_format.num_planes.toNat c.width.toNat
          c.height.toNat) (Spec.strideOf c.dst_strides)
        (S.resultPlanes c.width c.height c.src_format c.src_strides c.src_buffers c.dst_format)
        p := by
  have h0 := u32_pos hv.height_ne
  obtain ⟨r, hk, hr, e⟩ := convert_checked (impls := impls) hT hv.src_legal hv.dst_legal
    hv.supported hv.width_ne hv.height_ne (present_of_fits hv.src_fits) (present_of_fits hv.dst_fits)
    (small_of_fits hv.bits_pos hv.src_legal h0 hv.src_fits hv.src_real)
    (small_of_fits hv.bits_pos hv.dst_legal h0 hv.dst_fits hv.dst_real)
  rw [if_pos ⟨acc_image_of_fits hv.src_legal h0 hv.src_fits _,
    acc_image_of_fits hv.dst_legal h0 hv.dst_fits _⟩] at e
  obtain ⟨ws, h1, h2⟩ := (kcall_emits hI hk hr hv.src_legal hv.dst_legal hv.width_ne hv.height_ne
    hv.src_fits hv.dst_fits hv.src_real hv.dst_real hroom).then_pure
    (b := (.ok () : Except ErrorKind Unit))
  exact ⟨ws, by rw [e]; exact h1, h2⟩

end Verif.CApi
