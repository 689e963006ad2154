import Verif.Lemmas.NoEffect
import Verif.Lemmas.Check
import Verif.Lemmas.Sizes
import Verif.Model.Crate
/-!
# C01-C05, C17, C18: which calls are answered how

All theorems of this file hold for every build target, every processor, every value of the test
hook and *every* set of kernels (`impls` is arbitrary), i.e. for every instruction set.
-/

namespace Verif

variable (t : Target) (impls : InstructionSet → Impl) (cpu : Cpu) (hook : Option Int) (c : Call)

theorem supported_cases {c : Call} (hl : Spec.LegalCall c)
    (hs : Spec.Supported c.src_format.pixel_format c.dst_format.pixel_format) :
    ∀ r out, convertHook t impls cpu hook c = .ok (r, out) →
      r = .ok () ∨ r = .error .notEnoughData := by
  intro r out h
  obtain ⟨set, tb, hT, e⟩ := hook_table t impls cpu hook
  obtain ⟨q, -, -, e1⟩ := convert_supported (t := t) (impls := impls) (ss := c.src_strides)
    (sb := c.src_buffers) (ds := c.dst_strides) (dl := dstSlices c.dst_buffers) hT hl.1 hl.2 hs
  rw [e, convert_image, e1, K.bind_def, K.bind] at h
  revert h
  generalize q.exec t (impls set) c.width c.height (c.src_format.num_planes - 1)
    (c.src_strides.getD PixFmt.DEFAULT_STRIDES) c.src_buffers (c.dst_format.num_planes - 1)
    (c.dst_strides.getD PixFmt.DEFAULT_STRIDES) (dstSlices c.dst_buffers) = k
  rcases k with ⟨_ | ⟨b, ws⟩⟩
  · intro h; cases h
  · cases b
    · intro h
      simp only [Bool.false_eq_true, if_false, K.pure_def, Except.ok.injEq, Prod.mk.injEq] at h
      exact .inr h.1.symm
    · intro h
      simp only [if_true, K.pure_def, Except.ok.injEq, Prod.mk.injEq] at h
      exact .inl h.1.symm

theorem illegal_outcome {c : Call} (hl : ¬ Spec.LegalCall c) :
    convertHook t impls cpu hook c = .ok (.error .invalidValue, c.dst_buffers) := by
  obtain ⟨set, tb, -, e⟩ := hook_table t impls cpu hook
  rw [e]
  apply convert_of_pure
  apply convert_invalid
  by_cases h1 : Spec.Legal c.src_format c.width c.height
  · exact .inr fun h2 => hl ⟨h1, h2⟩
  · exact .inl h1

theorem unsupported_outcome {c : Call} (hl : Spec.LegalCall c)
    (hs : ¬ Spec.Supported c.src_format.pixel_format c.dst_format.pixel_format) :
    convertHook t impls cpu hook c = .ok (.error .invalidOperation, c.dst_buffers) := by
  obtain ⟨set, tb, hT, e⟩ := hook_table t impls cpu hook
  rw [e]
  exact convert_of_pure (convert_unsupported hT hl.1 hl.2 hs)

/-- **C01.** For legal image descriptions `InvalidOperation` is answered exactly for the
conversions missing from the documented table. -/
theorem C01_supported_conversions (hl : Spec.LegalCall c) :
    (∃ out, convertHook t impls cpu hook c = .ok (.error .invalidOperation, out)) ↔
      (c.src_format.pixel_format, c.dst_format.pixel_format) ∉ Spec.documented := by
  constructor
  · rintro ⟨out, h⟩ hs
    rcases supported_cases t impls cpu hook hl hs _ _ h with h | h <;> cases h
  · intro hs
    exact ⟨_, unsupported_outcome t impls cpu hook hl hs⟩

/-- 19 conversions are documented; with the four YCbCr colour spaces these are 67 routines. -/
example : Spec.documented.length = 19 ∧ registered.length = 67 := by decide

/-- Hypothesis of C01 on both sides of the equivalence. -/
example : Spec.LegalCall exEncode ∧ Spec.Supported exEncode.src_format.pixel_format
    exEncode.dst_format.pixel_format := ⟨by unfold Spec.LegalCall; decide +kernel, by decide⟩
example : Spec.LegalCall { exEncode with dst_format := ⟨.i422, .bt601, 3⟩ } ∧
    ¬ Spec.Supported .bgra .i422 := ⟨by unfold Spec.LegalCall; decide +kernel, by decide⟩

/-- **C02.** Every legal pair of formats has its own slot inside the table, and what is found
there is the routine of the selected instruction set registered for exactly this pair. -/
theorem C02_dispatch_slots :
    (∀ s d : PixelFormat × ColorSpace, legalPair s = true → legalPair d = true →
      slot s d < Dispatcher.TABLE_SIZE) ∧
    (∀ s d s' d' : PixelFormat × ColorSpace, legalPair s = true → legalPair d = true →
      legalPair s' = true → legalPair d' = true → slot s d = slot s' d' → (s, d) = (s', d')) ∧
    ∃ ctx, Context.new cpu = .ok ctx ∧
      ∀ s d conv, legalPair s = true → legalPair d = true →
        (ctx.converters (slot s d) = some conv ↔
          conv.set = (CpuInfo.get cpu).2 ∧ conv.routine.key = (s, d) ∧
            Spec.Supported s.1 d.1) := by
  refine ⟨slot_lt, ?_, ?_⟩
  · intro s d s' d' h1 h2 h3 h4 e
    obtain ⟨rfl, rfl⟩ := slot_inj h1 h2 h3 h4 e
    rfl
  · obtain ⟨ctx, h1, -, -, hT, -⟩ := context_new cpu
    refine ⟨ctx, h1, ?_⟩
    intro s d conv hs hd
    constructor
    · intro h
      by_cases hex : ∃ r, r ∈ registered ∧ r.key = (s, d)
      · have hsup := (registered_iff s d hs hd).1 hex
        obtain ⟨r, hr, hk⟩ := hex
        have := hT.found r hr
        rw [hk, h] at this
        cases this
        exact ⟨rfl, hk, hsup⟩
      · rw [hT.missing s d hs hd (fun r hr hk => hex ⟨r, hr, hk⟩)] at h
        cases h
    · rintro ⟨h2, h3, h4⟩
      obtain ⟨r, hr, hk⟩ := (registered_iff s d hs hd).2 h4
      have := hT.found r hr
      rw [hk] at this
      rw [this]
      have : r = conv.routine := key_inj _ _ (hk.trans h3.symm)
      subst this
      rcases conv with ⟨cs, cr⟩
      simp only at h2
      subst h2
      rfl

example : legalPair (.nv12, .bt709) = true ∧ legalPair (.rgb, .rgb) = true ∧
    Spec.Supported .nv12 .rgb := by decide

/-- **C03.** Which error is reported is determined by the arguments, with priority
InvalidValue > InvalidOperation > NotEnoughData. -/
theorem C03_error_priority :
    ((∃ out, convertHook t impls cpu hook c = .ok (.error .invalidValue, out)) ↔
      ¬ (Spec.CsOk c.src_format ∧ Spec.CsOk c.dst_format ∧
        Spec.Shape c.src_format c.width c.height ∧ Spec.Shape c.dst_format c.width c.height)) ∧
    ((∃ out, convertHook t impls cpu hook c = .ok (.error .invalidOperation, out)) ↔
      Spec.LegalCall c ∧
        ¬ Spec.Supported c.src_format.pixel_format c.dst_format.pixel_format) ∧
    (Spec.LegalCall c → Spec.Supported c.src_format.pixel_format c.dst_format.pixel_format →
      ∀ r out, convertHook t impls cpu hook c = .ok (r, out) →
        r = .ok () ∨ r = .error .notEnoughData) := by
  have hiff : (Spec.CsOk c.src_format ∧ Spec.CsOk c.dst_format ∧
      Spec.Shape c.src_format c.width c.height ∧ Spec.Shape c.dst_format c.width c.height) ↔
      Spec.LegalCall c := by
    constructor
    · rintro ⟨a, b, ⟨c1, c2⟩, d1, d2⟩
      exact ⟨⟨a, c1, c2⟩, b, d1, d2⟩
    · rintro ⟨⟨a, c1, c2⟩, b, d1, d2⟩
      exact ⟨a, b, ⟨c1, c2⟩, d1, d2⟩
  rw [hiff]
  refine ⟨⟨?_, ?_⟩, ⟨?_, ?_⟩, fun hl hs => supported_cases t impls cpu hook hl hs⟩
  · rintro ⟨out, h⟩ hl
    by_cases hs : Spec.Supported c.src_format.pixel_format c.dst_format.pixel_format
    · rcases supported_cases t impls cpu hook hl hs _ _ h with h | h <;> cases h
    · rw [unsupported_outcome t impls cpu hook hl hs] at h
      cases h
  · intro hl
    exact ⟨_, illegal_outcome t impls cpu hook hl⟩
  · rintro ⟨out, h⟩
    by_cases hl : Spec.LegalCall c
    · exact ⟨hl, (C01_supported_conversions t impls cpu hook c hl).1 ⟨out, h⟩⟩
    · rw [illegal_outcome t impls cpu hook hl] at h
      cases h
  · rintro ⟨hl, hs⟩
    exact ⟨_, unsupported_outcome t impls cpu hook hl hs⟩

/-- The three error classes are all inhabited. -/
example : ¬ Spec.LegalCall { exEncode with width := 3 } ∧ Spec.LegalCall exEncode :=
  ⟨by unfold Spec.LegalCall; decide +kernel, by unfold Spec.LegalCall; decide +kernel⟩

/-- **C04.** Size constraints, observed through `get_buffers_size`: with an admissible number of
planes, `InvalidValue` is answered exactly if a subsampled dimension is odd. -/
theorem C04_size_constraints (f : ImageFormat) (w h : UInt32) (strides : Option (List Nat))
    (sizes : List Nat) (hp : Spec.PlanesOk f.pixel_format f.num_planes.toNat) :
    (∃ out, get_buffers_size t w h f strides sizes = .ok (.error .invalidValue, out)) ↔
      (w.toNat % 2 = 1 ∧ (f.pixel_format = .i422 ∨ f.pixel_format = .i420 ∨
        f.pixel_format = .nv12)) ∨
      (h.toNat % 2 = 1 ∧ (f.pixel_format = .i420 ∨ f.pixel_format = .nv12)) := by
  have key : Spec.SizeOk f.pixel_format w.toNat h.toNat ↔
      ¬ ((w.toNat % 2 = 1 ∧ (f.pixel_format = .i422 ∨ f.pixel_format = .i420 ∨
        f.pixel_format = .nv12)) ∨
      (h.toNat % 2 = 1 ∧ (f.pixel_format = .i420 ∨ f.pixel_format = .nv12))) := by
    cases f.pixel_format <;> simp [Spec.SizeOk]
  rw [gbs_invalid_iff, shape_iff]
  simp only [hp, and_true, key, not_not]

example : Spec.PlanesOk .nv12 2 ∧ Spec.SizeOk .nv12 4294967294 0 ∧
    ¬ Spec.SizeOk .nv12 4294967295 0 ∧ Spec.SizeOk .argb 4294967295 4294967295 := by decide

/-- **C05.** Plane-count constraints, observed through `get_buffers_size`: with an admissible size,
`InvalidValue` is answered exactly if the number of planes is not one of those listed. -/
theorem C05_plane_count (f : ImageFormat) (w h : UInt32) (strides : Option (List Nat))
    (sizes : List Nat) (hs : Spec.SizeOk f.pixel_format w.toNat h.toNat) :
    (∃ out, get_buffers_size t w h f strides sizes = .ok (.error .invalidValue, out)) ↔
      f.num_planes ∉ (match f.pixel_format with
        | .i444 | .i422 | .i420 => [3]
        | .nv12 => [1, 2]
        | _ => [1] : List UInt32) := by
  have e1 : ∀ k : UInt32, f.num_planes.toNat = k.toNat ↔ f.num_planes = k :=
    fun k => UInt32.toNat_inj
  have key : Spec.PlanesOk f.pixel_format f.num_planes.toNat ↔
      f.num_planes ∈ (match f.pixel_format with
        | .i444 | .i422 | .i420 => [3]
        | .nv12 => [1, 2]
        | _ => [1] : List UInt32) := by
    have a := e1 1
    have b := e1 2
    have d := e1 3
    cases f.pixel_format <;> simp only [Spec.PlanesOk, List.mem_cons, List.not_mem_nil, or_false] <;>
      first
      | exact a
      | exact d
      | exact or_congr a b
  rw [gbs_invalid_iff, shape_iff, ← key]
  simp only [hs, true_and]

example : ∃ out, get_buffers_size .x64 4 2 ⟨.nv12, .bt601, 3⟩ none [0, 0, 0] =
    .ok (.error .invalidValue, out) :=
  (C05_plane_count .x64 ⟨.nv12, .bt601, 3⟩ 4 2 none [0, 0, 0] (by decide)).2 (by decide)

/-- The same constraint for `convert_image`: an inadmissible number of planes of the source or of
the destination is answered with `InvalidValue`. -/
theorem C05_plane_count_convert
    (h : ¬ Spec.PlanesOk c.src_format.pixel_format c.src_format.num_planes.toNat ∨
      ¬ Spec.PlanesOk c.dst_format.pixel_format c.dst_format.num_planes.toNat) :
    convertHook t impls cpu hook c = .ok (.error .invalidValue, c.dst_buffers) :=
  illegal_outcome t impls cpu hook fun hl => h.elim (fun g => g hl.1.planes) fun g => g hl.2.planes

example : ¬ Spec.PlanesOk .nv12 0 ∧ ¬ Spec.PlanesOk .nv12 65537 ∧ Spec.SizeOk .nv12 2 2 := by decide

/-- **C17.** A failed conversion has no side effect. -/
theorem C17_failure_no_effect (e : ErrorKind) (out : List Buf)
    (h : convertHook t impls cpu hook c = .ok (.error e, out)) : out = c.dst_buffers := by
  obtain ⟨set, tb, hT, eq⟩ := hook_table t impls cpu hook
  rw [eq] at h
  exact error_no_effect hT h

/-- A call that fails after all formal checks have passed: the destination is one byte short. -/
example : convert .x64 crate plainCpu
    { exEncode with dst_buffers := [noise 7 2, noise 5 3, noise 2 4] } =
      .ok (.error .notEnoughData, [noise 7 2, noise 5 3, noise 2 4]) := by
  obtain ⟨tb, hT, e⟩ := convert_table .x64 crate plainCpu
  rw [e]
  obtain ⟨r, -, -, e1⟩ := convert_checked (t := .x64) (impls := crate)
    (w := 4) (h := 2) (sf := ⟨.bgra, .rgb, 1⟩) (df := ⟨.i420, .bt601, 3⟩) (ss := some [20])
    (ds := some [0, 3, 0]) (sb := [noise 36 1]) (db := [noise 7 2, noise 5 3, noise 2 4]) hT
    (by decide +kernel) (by decide +kernel) (by decide) (by decide) (by decide)
    ⟨by simp, by simp⟩ ⟨by rintro l ⟨⟩; decide, by decide⟩
    ⟨by decide, by simp [noise]; decide, by simp⟩ ⟨by decide, by simp [noise]; decide, by simp⟩
  rw [if_neg (by decide)] at e1
  exact convert_of_pure e1

/-- **C18.** Empty images: success, and nothing is changed, whatever strides and buffers are
given. -/
theorem C18_empty_images (hl : Spec.LegalCall c)
    (hs : Spec.Supported c.src_format.pixel_format c.dst_format.pixel_format)
    (he : c.width = 0 ∨ c.height = 0) :
    convertHook t impls cpu hook c = .ok (.ok (), c.dst_buffers) := by
  obtain ⟨set, tb, hT, eq⟩ := hook_table t impls cpu hook
  rw [eq]
  exact convert_empty hT hl.1 hl.2 hs he

/-- No buffers at all. -/
example : let c := { exEncode with width := 0, src_buffers := [], dst_buffers := [] }
    Spec.LegalCall c ∧ c.width = 0 :=
  ⟨by unfold Spec.LegalCall; decide +kernel, rfl⟩

end Verif
