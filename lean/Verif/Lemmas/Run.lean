import Verif.Lemmas.Api
import Verif.Lemmas.Master
import Verif.Spec.Valid
/-! # Outcome of `convert` on valid and on undersized calls -/

namespace Verif

variable {t : Target} {impls : InstructionSet → Impl} {cpu : Cpu} {hook : Option Int} {c : Call}

theorem packed_stride {strides : Option (List Nat)} (hp : Spec.Packed strides) (i row : Nat) :
    Spec.strideOf strides i row = row := by
  cases strides with
  | none => rfl
  | some l =>
    have : l.getD i 0 = 0 := by
      rw [List.getD_eq_getElem?_getD]
      cases h : l[i]? with
      | none => rfl
      | some s => exact hp l rfl s (List.mem_iff_getElem?.2 ⟨i, h⟩)
    simp only [Spec.strideOf, this, if_true]

theorem acc_packed {len row rows : Nat} (h : 1 ≤ rows) : Acc len row row rows ↔ row * rows ≤ len := by
  unfold Acc
  obtain ⟨k, rfl⟩ : ∃ k, rows = k + 1 := ⟨rows - 1, by omega⟩
  rw [Nat.add_sub_cancel, Nat.mul_add, Nat.mul_one, Nat.add_comm]

/-- A valid call stores the image described by the arithmetic of the selected kernels. -/
theorem convert_sem {S : Sem} (hI : ImplOk t (impls cpu.set) S) (hv : Spec.Valid t c)
    (hroom : Spec.isRgb c.dst_format.pixel_format = false → S.room c.src_format.pixel_format
      c.width.toNat c.height.toNat (Spec.strideOf c.src_strides 0
        (Spec.bpp c.src_format.pixel_format * c.width.toNat)) (bufAt c.src_buffers 0).len) :
    convert t impls cpu c = .ok (.ok (), Spec.painted c.dst_format c.width c.height c.dst_strides
      (S.resultPlanes c.width c.height c.src_format c.src_strides c.src_buffers c.dst_format)
      c.dst_buffers) := by
  obtain ⟨tb, hT, e⟩ := convert_table t impls cpu
  rw [e]
  exact master hv.bits_pos hT hI hv.src_legal hv.dst_legal hv.supported hv.width_ne hv.height_ne
    hv.src_fits hv.dst_fits hv.src_real hv.dst_real hroom

/-- The kernel's verdict is not `NotEnoughData`. -/
theorem kernel_not_short {k : K Unit} {c : Call} {r : Except ErrorKind Unit} {tb : DispatchTable}
    {out : List Buf}
    (e : convert_image_with t impls tb c.width c.height c.src_format c.src_strides c.src_buffers
      c.dst_format c.dst_strides (dstSlices c.dst_buffers) = k >>= fun _ => pure (.ok ()))
    (h : convert_image t impls tb c.width c.height c.src_format c.src_strides c.src_buffers
      c.dst_format c.dst_strides c.dst_buffers = .ok (r, out)) : r = .ok () := by
  rw [convert_image, e, K.bind_def, K.bind] at h
  rcases k with ⟨_ | ⟨⟨⟩, ws⟩⟩
  · cases h
  · simp only [K.pure_def, Except.ok.injEq, Prod.mk.injEq] at h
    exact h.1.symm

/-- Exact condition under which `NotEnoughData` is reported. -/
theorem short_iff (hl : Spec.Legal c.src_format c.width c.height)
    (hl' : Spec.Legal c.dst_format c.width c.height)
    (hs : Spec.Supported c.src_format.pixel_format c.dst_format.pixel_format)
    (hw : c.width ≠ 0) (hh : c.height ≠ 0)
    (hm : Small t c.src_format c.width c.height c.src_strides c.src_buffers)
    (hm' : Small t c.dst_format c.width c.height c.dst_strides c.dst_buffers) :
    (∃ out, convertHook t impls cpu hook c = .ok (.error .notEnoughData, out)) ↔
      ¬ (Present c.src_format c.src_strides c.src_buffers ∧
        Present c.dst_format c.dst_strides c.dst_buffers ∧
        AccImage (pxPair c.src_format.pixel_format c.dst_format.pixel_format)
          c.src_format.pixel_format c.src_format.num_planes.toNat c.width.toNat c.height.toNat
          c.src_strides c.src_buffers ∧
        AccImage (pxPair c.src_format.pixel_format c.dst_format.pixel_format)
          c.dst_format.pixel_format c.dst_format.num_planes.toNat c.width.toNat c.height.toNat
          c.dst_strides c.dst_buffers) := by
  obtain ⟨set, tb, hT, e⟩ := hook_table t impls cpu hook
  rw [e]
  by_cases hp : Present c.src_format c.src_strides c.src_buffers
  · by_cases hp' : Present c.dst_format c.dst_strides c.dst_buffers
    · obtain ⟨r, -, -, ec⟩ := convert_checked (impls := impls) hT hl hl' hs hw hh hp hp' hm hm'
      by_cases ha : AccImage (pxPair c.src_format.pixel_format c.dst_format.pixel_format)
          c.src_format.pixel_format c.src_format.num_planes.toNat c.width.toNat c.height.toNat
          c.src_strides c.src_buffers ∧
        AccImage (pxPair c.src_format.pixel_format c.dst_format.pixel_format)
          c.dst_format.pixel_format c.dst_format.num_planes.toNat c.width.toNat c.height.toNat
          c.dst_strides c.dst_buffers
      · rw [if_pos ha] at ec
        refine ⟨?_, fun h => absurd ⟨hp, hp', ha.1, ha.2⟩ h⟩
        rintro ⟨out, h⟩
        cases kernel_not_short ec h
      · rw [if_neg ha] at ec
        exact ⟨fun _ h => ha h.2.2, fun _ => ⟨_, convert_of_pure ec⟩⟩
    · exact ⟨fun _ h => hp' h.2.1, fun _ => ⟨_, convert_short hT hl hl' hs hw hh (.inr hp')⟩⟩
  · exact ⟨fun _ h => hp h.1, fun _ => ⟨_, convert_short hT hl hl' hs hw hh (.inl hp)⟩⟩

theorem dims_rows_pos {f : ImageFormat} {w h : UInt32} (hsz : Spec.SizeOk f.pixel_format w.toNat h.toNat)
    (hh : h ≠ 0) {i : Nat} {rc : Nat × Nat}
    (hd : (Spec.dims f.pixel_format f.num_planes.toNat w.toNat h.toNat)[i]? = some rc) :
    1 ≤ rc.2 := by
  have h1 := u32_pos hh
  have hm := List.mem_iff_getElem?.2 ⟨i, hd⟩
  cases hpf : f.pixel_format <;> rw [hpf] at hm hsz <;>
    simp only [Spec.dims, Spec.SizeOk] at hm hsz
  case nv12 =>
    split at hm <;> simp only [List.mem_cons, List.not_mem_nil, or_false] at hm
    · subst hm; simp only; omega
    · rcases hm with rfl | rfl <;> simp only <;> omega
  all_goals
    simp only [List.mem_cons, List.not_mem_nil, or_false] at hm
    first
    | (subst hm; exact h1)
    | (rcases hm with rfl | rfl | rfl <;> simp only <;> omega)

theorem dims_len {f : ImageFormat} {w h : Nat} (hpl : Spec.PlanesOk f.pixel_format f.num_planes.toNat) :
    (Spec.dims f.pixel_format f.num_planes.toNat w h).length = f.num_planes.toNat := by
  cases hpf : f.pixel_format <;> rw [hpf] at hpl <;> simp only [Spec.PlanesOk] at hpl
  case nv12 => rcases hpl with hn | hn <;> rw [hn] <;> rfl
  all_goals rw [hpl]; rfl

theorem holds_length {f : ImageFormat} {w h : UInt32} {bufs : List Buf}
    (hpl : Spec.PlanesOk f.pixel_format f.num_planes.toNat)
    (hh : Spec.HoldsPacked f w h bufs) : f.num_planes.toNat ≤ bufs.length := by
  have hn := planes_le hpl
  have hd := dims_len (w := w.toNat) (h := h.toNat) hpl
  obtain ⟨b, hb, -⟩ := hh (f.num_planes.toNat - 1) _ (List.getElem?_eq_getElem (by omega))
  have := (List.getElem?_eq_some_iff.1 hb).1
  omega

/-- Packed planes inside the buffers are a special case of `Fits`. -/
theorem fits_of_packed {f : ImageFormat} {w h : UInt32} {strides : Option (List Nat)}
    {bufs : List Buf} (hl : Spec.Legal f w h) (hh : h ≠ 0) (hp : Spec.Packed strides)
    (hg : Spec.StridesGiven f strides) (hb : Spec.HoldsPacked f w h bufs) :
    Spec.Fits f w h strides bufs := by
  refine ⟨hg, holds_length hl.planes hb, ?_, ?_⟩
  · intro i b rc hbi hd
    rw [packed_stride hp]
    have h1 := dims_rows_pos hl.size hh hd
    obtain ⟨b', hb', h2⟩ := hb i rc hd
    rw [hbi] at hb'
    cases hb'
    have h3 : rc.1 * (rc.2 - 1) + rc.1 = rc.1 * rc.2 := by
      rw [← Nat.mul_succ]; congr 1; omega
    have h4 : rc.1 * 1 ≤ rc.1 * rc.2 := Nat.mul_le_mul_left _ h1
    exact ⟨Nat.le_refl _, by omega, by omega⟩
  · intro b hb0 hpf hn
    rw [packed_stride hp]
    have hsz := hl.size
    rw [hpf] at hsz
    have h1 := u32_pos hh
    obtain ⟨b', hb', h2⟩ := hb 0 (w.toNat, h.toNat + h.toNat / 2) (by
      rw [hpf, hn]; rfl)
    rw [hb0] at hb'
    cases hb'
    refine Nat.le_trans (Nat.mul_le_mul_left _ ?_) h2
    have := hsz.2
    omega

/-- With packed lines the bounds checks of RGB <-> YCbCr conversions are exact. -/
theorem acc_image_packed {f : ImageFormat} {w h : UInt32} {strides : Option (List Nat)}
    {bufs : List Buf} (hl : Spec.Legal f w h) (hh : h ≠ 0) (hp : Spec.Packed strides)
    (hb : f.num_planes.toNat ≤ bufs.length) (h422 : f.pixel_format ≠ .i422) :
    AccImage false f.pixel_format f.num_planes.toNat w.toNat h.toNat strides bufs ↔
      Spec.HoldsPacked f w h bufs := by
  have hsz := hl.size
  have hpl := hl.planes
  have h1 := u32_pos hh
  rcases f with ⟨pf, cs, n⟩
  simp only at *
  have one : ∀ rc : Nat × Nat, (∀ (i : Nat) (rc' : Nat × Nat), [rc][i]? = some rc' → ∃ b, bufs[i]? = some b ∧ rc'.1 * rc'.2 ≤ b.len) ↔
      (1 ≤ bufs.length → rc.1 * rc.2 ≤ (bufAt bufs 0).len) ∧ 1 ≤ bufs.length := by
    intro rc
    constructor
    · intro hx
      obtain ⟨b, hb1, hb2⟩ := hx 0 rc rfl
      have hlt := (List.getElem?_eq_some_iff.1 hb1).1
      refine ⟨fun _ => ?_, by omega⟩
      rw [buf_at hlt] at hb1
      cases hb1
      exact hb2
    · rintro ⟨h2, h3⟩ i rc' hi
      rcases i with _ | i
      · cases hi
        exact ⟨_, buf_at (by omega), h2 h3⟩
      · simp at hi
  have two : ∀ r0 r1 : Nat × Nat, 2 ≤ bufs.length →
      ((∀ (i : Nat) (rc' : Nat × Nat), [r0, r1][i]? = some rc' → ∃ b, bufs[i]? = some b ∧ rc'.1 * rc'.2 ≤ b.len) ↔
      (r0.1 * r0.2 ≤ (bufAt bufs 0).len ∧ r1.1 * r1.2 ≤ (bufAt bufs 1).len)) := by
    intro r0 r1 hlen
    constructor
    · intro hx
      obtain ⟨b, hb1, hb2⟩ := hx 0 r0 rfl
      rw [buf_at (by omega)] at hb1
      cases hb1
      obtain ⟨b, hb1, hb3⟩ := hx 1 r1 rfl
      rw [buf_at (by omega)] at hb1
      cases hb1
      exact ⟨hb2, hb3⟩
    · rintro ⟨h2, h3⟩ i rc' hi
      rcases i with _ | _ | i
      · cases hi
        exact ⟨_, buf_at (by omega), h2⟩
      · cases hi
        exact ⟨_, buf_at (by omega), h3⟩
      · simp at hi
  have three : ∀ r0 r1 r2 : Nat × Nat, 3 ≤ bufs.length →
      ((∀ (i : Nat) (rc' : Nat × Nat), [r0, r1, r2][i]? = some rc' → ∃ b, bufs[i]? = some b ∧ rc'.1 * rc'.2 ≤ b.len) ↔
      (r0.1 * r0.2 ≤ (bufAt bufs 0).len ∧ r1.1 * r1.2 ≤ (bufAt bufs 1).len ∧
        r2.1 * r2.2 ≤ (bufAt bufs 2).len)) := by
    intro r0 r1 r2 hlen
    constructor
    · intro hx
      obtain ⟨b, hb1, hb2⟩ := hx 0 r0 rfl
      rw [buf_at (by omega)] at hb1
      cases hb1
      obtain ⟨b, hb1, hb3⟩ := hx 1 r1 rfl
      rw [buf_at (by omega)] at hb1
      cases hb1
      obtain ⟨b, hb1, hb4⟩ := hx 2 r2 rfl
      rw [buf_at (by omega)] at hb1
      cases hb1
      exact ⟨hb2, hb3, hb4⟩
    · rintro ⟨h2, h3, h4⟩ i rc' hi
      rcases i with _ | _ | _ | i
      · cases hi
        exact ⟨_, buf_at (by omega), h2⟩
      · cases hi
        exact ⟨_, buf_at (by omega), h3⟩
      · cases hi
        exact ⟨_, buf_at (by omega), h4⟩
      · simp at hi
  cases pf
  case argb | bgra | bgr | rgba | rgb =>
    have hn : n.toNat = 1 := hpl
    simp only [AccImage, packed_stride hp, Bool.false_eq_true, if_false, acc_packed h1]
    refine Iff.trans ?_ (one _).symm
    have : 1 ≤ bufs.length := by omega
    simp [this]
  case i444 =>
    have hn : n.toNat = 3 := hpl
    simp only [AccImage, packed_stride hp, acc_packed h1]
    exact (three (w.toNat, h.toNat) (w.toNat, h.toNat) (w.toNat, h.toNat) (by omega)).symm
  case i422 => exact absurd rfl h422
  case i420 =>
    have hn : n.toNat = 3 := hpl
    simp only [AccImage, packed_stride hp, acc_packed h1,
      acc_packed (rows := h.toNat / 2) (by have := hsz.2; omega)]
    exact (three (w.toNat, h.toNat) (w.toNat / 2, h.toNat / 2)
      (w.toNat / 2, h.toNat / 2) (by omega)).symm
  case nv12 =>
    have h2 : 1 ≤ h.toNat / 2 := by have := hsz.2; omega
    rcases hpl with hn | hn
    · simp only [AccImage, hn, if_true, packed_stride hp, acc_packed h1, acc_packed h2]
      refine Iff.trans ?_ (Iff.trans (one (w.toNat, h.toNat + h.toNat / 2)).symm ?_)
      · have hb1 : 1 ≤ bufs.length := by omega
        simp only [hb1, true_imp_iff, and_true, Nat.mul_add]
        omega
      · simp only [Spec.HoldsPacked, hn]
        rfl
    · simp only [AccImage, hn, Nat.reduceEqDiff, if_false, packed_stride hp, acc_packed h1,
        acc_packed h2]
      refine Iff.trans (two (w.toNat, h.toNat) (w.toNat, h.toNat / 2) (by omega)).symm ?_
      simp only [Spec.HoldsPacked, hn]
      rfl

end Verif
