import Verif.Lemmas.Exact
import Verif.Props.Bounds
import Verif.Props.Simd
/-!
# C66-C68, C75 (and C15, C16): the exact outcome of `convert_image`

For a legal request, a supported conversion and a non-empty image, with and without overflow checks:
`NotEnoughData` exactly if `Spec.Accepts` fails; otherwise `Ok` exactly if `Spec.InBounds` and
`Spec.SurplusInside` hold (for Rgb <-> Bgra with overflow checks also `Spec.PartsFit`); otherwise an
access outside a buffer, or a panic (C75). Calls one of whose sizes exceeds `usize` (`Spec.SizesFit`) are
the exception: there the program panics or, without overflow checks, tests `Spec.WrapAccepts` and leaves
the buffers if it holds. All targets with at least 32 bits are covered.
-/

namespace Verif

variable (t : Target) (impls : InstructionSet → Impl) (cpu : Cpu) (hook : Option Int) (c : Call)

theorem checked_small (hb : 1 ≤ t.bits) (hq : Spec.Checked t c) :
    Small t c.src_format c.width c.height c.src_strides c.src_buffers ∧
    Small t c.dst_format c.width c.height c.dst_strides c.dst_buffers :=
  ⟨small_of_sizes hb hq.src_sizes hq.src_real, small_of_sizes hb hq.dst_sizes hq.dst_real⟩

/-- **C66.** For every instruction set: `NotEnoughData` is answered exactly if the strides and buffers
do not pass `Spec.Accepts`. -/
theorem C66_rejected_iff (h32 : 32 ≤ t.bits) (hq : Spec.Checked t c) :
    (∃ out, convertHook t impls cpu hook c = .ok (.error .notEnoughData, out)) ↔
      ¬ Spec.Accepts c := by
  have hm := checked_small t c (by omega) hq
  rw [short_iff hq.src_legal hq.dst_legal hq.supported hq.width_ne hq.height_ne hm.1 hm.2,
    accepts_call hq.src_legal hq.dst_legal hq.supported hq.height_ne]

theorem Spec.Accepts.supplied {c : Call} (ha : Spec.Accepts c) :
    Spec.Supplied c.src_format c.src_strides c.src_buffers ∧
    Spec.Supplied c.dst_format c.dst_strides c.dst_buffers :=
  ⟨⟨ha.src.strides_len, ha.src.bufs_len⟩, ha.dst.strides_len, ha.dst.bufs_len⟩

/-- Every outcome of a legal, supported and non-empty request. With representable sizes an accepted call
completes, leaves a buffer or overflows; a call that is not accepted is rejected, as is one with too few
strides or buffers; otherwise a size is not representable. -/
theorem asked_outcome (h32 : 32 ≤ t.bits) (hq : Spec.Asked t c) :
    (Spec.Checked t c ∧ Spec.Accepts c ∧
      (((Spec.InBounds cpu.set c ∧ Spec.SurplusInside t cpu.set c) ∧
        (t.checked = true → Spec.PartsFit cpu.set c) ∧
        ∃ out, convert t crate cpu c = .ok (.ok (), out)) ∨
      (¬ (Spec.InBounds cpu.set c ∧ Spec.SurplusInside t cpu.set c) ∧
        (convert t crate cpu c = .error .oobRead ∨ convert t crate cpu c = .error .oobWrite)) ∨
      (convert t crate cpu c = .error .overflow ∧ t.checked = true ∧
        (Spec.PartOverflow cpu.set c ∨ Spec.OffsetOverflow t cpu.set c)))) ∨
    (¬ Spec.Accepts c ∧ (Spec.Checked t c ∨
      ¬ (Spec.Supplied c.src_format c.src_strides c.src_buffers ∧
        Spec.Supplied c.dst_format c.dst_strides c.dst_buffers)) ∧
      ∃ out, convert t crate cpu c = .ok (.error .notEnoughData, out)) ∨
    ((Spec.Supplied c.src_format c.src_strides c.src_buffers ∧
        Spec.Supplied c.dst_format c.dst_strides c.dst_buffers) ∧ ¬ Spec.Checked t c ∧
      if t.checked = true then convert t crate cpu c = .error .overflow
      else if Spec.WrapAccepts t c then
        convert t crate cpu c = .error .oobRead ∨ convert t crate cpu c = .error .oobWrite
      else ∃ out, convert t crate cpu c = .ok (.error .notEnoughData, out)) := by
  by_cases hch : Spec.Checked t c
  · by_cases ha : Spec.Accepts c
    · exact .inl ⟨hch, ha, accepted_outcome h32 hch.src_sizes hch.dst_sizes hq.src_legal hq.dst_legal
        hq.supported hq.width_ne hq.height_ne hq.src_real hq.dst_real ha⟩
    · exact .inr (.inl ⟨ha, .inl hch, (C66_rejected_iff t crate cpu none c h32 hch).2 ha⟩)
  by_cases hsu : Spec.Supplied c.src_format c.src_strides c.src_buffers ∧
      Spec.Supplied c.dst_format c.dst_strides c.dst_buffers
  · refine .inr (.inr ⟨hsu, hch, ?_⟩)
    have := sizes_outcome (cpu := cpu) h32 hq.src_legal hq.dst_legal hq.supported hq.width_ne
      hq.height_ne hq.src_real hq.dst_real ⟨hsu.1.1, hsu.1.2⟩ ⟨hsu.2.1, hsu.2.2⟩
      (fun h => hch ⟨hq, h.1, h.2⟩)
    convert this
  · obtain ⟨tb, hT, e⟩ := convert_table t crate cpu
    refine .inr (.inl ⟨fun ha => hsu ha.supplied, .inr hsu, c.dst_buffers, ?_⟩)
    rw [e]
    refine convert_short hT hq.src_legal hq.dst_legal hq.supported hq.width_ne hq.height_ne ?_
    by_contra hs
    rw [not_or, not_not, not_not] at hs
    exact hsu ⟨⟨hs.1.strides_len, hs.1.bufs_len⟩, hs.2.strides_len, hs.2.bufs_len⟩

theorem not_checked {t : Target} {c : Call} (hq : Spec.Asked t c) (hn : ¬ Spec.Checked t c) :
    ¬ (Spec.SizesFit t c.src_format c.width c.height c.src_strides ∧
      Spec.SizesFit t c.dst_format c.width c.height c.dst_strides) := fun h => hn ⟨hq, h.1, h.2⟩

theorem Spec.Asked.wraps {t : Target} {c : Call} (h32 : 32 ≤ t.bits) (hq : Spec.Asked t c)
    (ha : Spec.Accepts c) : Spec.WrapAccepts t c :=
  ⟨wrapped_of_accepts (by omega) hq.src_legal hq.height_ne hq.src_real ha.src,
    wrapped_of_accepts (by omega) hq.dst_legal hq.height_ne hq.dst_real ha.dst⟩

/-- A call whose accesses lie in the buffers has representable sizes. -/
theorem Spec.Asked.inside {t : Target} {c : Call} {set : InstructionSet} (h32 : 32 ≤ t.bits)
    (hq : Spec.Asked t c) (hs : Spec.Supplied c.src_format c.src_strides c.src_buffers ∧
      Spec.Supplied c.dst_format c.dst_strides c.dst_buffers) (hi : Spec.InBounds set c) :
    Spec.Checked t c :=
  have h := sizes_call h32 hq.src_legal hq.dst_legal hq.height_ne ⟨hs.1.1, hs.1.2⟩ ⟨hs.2.1, hs.2.2⟩
    hq.src_real hq.dst_real hi
  ⟨hq, h.1, h.2⟩

theorem parts_fit_of_wide {set : InstructionSet} {c : Call} (h : Spec.WideStrides c) :
    Spec.PartsFit set c := by
  intro p hp
  have := h (parts_rgb hp)
  have hle := parts_le hp
  exact ⟨Nat.le_trans (Nat.mul_le_mul_left _ hle) this.1,
    Nat.le_trans (Nat.mul_le_mul_left _ hle) this.2⟩

theorem not_part_overflow {set : InstructionSet} {c : Call} (h : Spec.PartsFit set c) :
    ¬ Spec.PartOverflow set c := fun ⟨p, hp, hn, _⟩ => hn (h p hp)

theorem surplus_checked {set : InstructionSet} {c : Call} (hc : t.checked = true) :
    Spec.SurplusInside t set c := fun _ _ h => by rw [hc] at h; cases h

theorem scalar_le (set : InstructionSet) (w : Nat) : Spec.scalarPart set w ≤ w := by
  cases set <;> simp only [Spec.scalarPart] <;> omega

/-- No condition if the stride of the source is at least a packed line. -/
theorem surplus_wide {set : InstructionSet} {c : Call} (h : Spec.WideStrides c) :
    Spec.SurplusInside t set c := fun hs hd _ hlt => by
  have := (h (.inl ⟨hs, hd⟩)).1
  have := scalar_le set c.width.toNat
  rw [hs] at *
  simp only [Spec.bpp] at *
  omega

/-- **C67.** A legal request for a supported conversion of a non-empty image succeeds exactly if it is
accepted, the accesses of the kernels of the selected instruction set lie in the buffers, and (Rgb <->
Bgra in builds with overflow checks) the strides are not smaller than the parts of the lines. -/
theorem C67_succeeds_iff (h32 : 32 ≤ t.bits) (hq : Spec.Asked t c) :
    (∃ out, convert t crate cpu c = .ok (.ok (), out)) ↔
      Spec.Accepts c ∧ (Spec.InBounds cpu.set c ∧ Spec.SurplusInside t cpu.set c) ∧
      (t.checked = true → Spec.PartsFit cpu.set c) := by
  rcases asked_outcome t cpu c h32 hq with ⟨-, ha, ho⟩ | ⟨ha, -, _, h⟩ | ⟨hsu, hn, h⟩
  · rcases ho with ⟨h1, h2, h3⟩ | ⟨h1, h2⟩ | ⟨h1, hc, h2⟩
    · exact ⟨fun _ => ⟨ha, h1, h2⟩, fun _ => h3⟩
    · refine ⟨?_, fun h => absurd h.2.1 h1⟩
      rintro ⟨out, h⟩
      rcases h2 with h2 | h2 <;> rw [h2] at h <;> cases h
    · refine ⟨?_, fun h => ?_⟩
      · rintro ⟨out, h⟩
        rw [h1] at h
        cases h
      · rcases h2 with h2 | h2
        · exact absurd h2 (not_part_overflow (h.2.2 hc))
        · obtain ⟨hp, hp', -⟩ := (accepts_call hq.src_legal hq.dst_legal hq.supported hq.height_ne).1 ha
          exact absurd h.2.1.1 (offset_out (by omega) hq.src_legal hq.dst_legal hq.src_real
            hq.dst_real hp hp' h2)
  · refine ⟨?_, fun h => absurd h.1 ha⟩
    rintro ⟨out, h'⟩
    rw [h] at h'
    cases h'
  · refine ⟨?_, fun h => absurd (hq.inside h32 hsu h.2.1.1) hn⟩
    rintro ⟨out, h'⟩
    split at h
    · rw [h] at h'; cases h'
    · split at h
      · rcases h with h | h <;> rw [h] at h' <;> cases h'
      · obtain ⟨_, h⟩ := h
        rw [h] at h'; cases h'

/-- The usual case: strides of at least a packed line. -/
theorem C67_wide_iff (h32 : 32 ≤ t.bits) (hq : Spec.Asked t c) (hw : Spec.WideStrides c) :
    (∃ out, convert t crate cpu c = .ok (.ok (), out)) ↔
      Spec.Accepts c ∧ Spec.InBounds cpu.set c := by
  rw [C67_succeeds_iff t cpu c h32 hq]
  exact ⟨fun h => ⟨h.1, h.2.1.1⟩, fun h => ⟨h.1, ⟨h.2, surplus_wide t hw⟩,
    fun _ => parts_fit_of_wide hw⟩⟩

/-- **C75.** In builds with overflow checks a legal request for a supported conversion of
a non-empty image panics exactly in these cases: a stride and a buffer is supplied for every plane, and
the length of a packed RGB line or the size of the luma part of a single-plane Nv12 image exceeds
`usize`; or the call is accepted and a part of a line of an Rgb <-> Bgra conversion is longer than the
stride, or the AVX2 code for Bgra -> Rgb or the vectorised 4:2:0 encoders compute the offset of a line
beyond `usize` before they access a line outside the buffers. -/
theorem C75_panics_iff (h32 : 32 ≤ t.bits) (hc : t.checked = true) (hq : Spec.Asked t c) :
    convert t crate cpu c = .error .overflow ↔
      (Spec.Supplied c.src_format c.src_strides c.src_buffers ∧
        Spec.Supplied c.dst_format c.dst_strides c.dst_buffers ∧
        ¬ (Spec.SizesFit t c.src_format c.width c.height c.src_strides ∧
          Spec.SizesFit t c.dst_format c.width c.height c.dst_strides)) ∨
      (Spec.Accepts c ∧ (Spec.PartOverflow cpu.set c ∨ Spec.OffsetOverflow t cpu.set c)) := by
  rcases asked_outcome t cpu c h32 hq with ⟨hch, ha, ho⟩ | ⟨ha, hs, _, h⟩ | ⟨hsu, hn, h⟩
  · constructor
    · intro he
      rcases ho with ⟨-, -, _, h⟩ | ⟨-, h | h⟩ | ⟨-, -, h⟩
      · rw [h] at he; cases he
      · rw [h] at he; cases he
      · rw [h] at he; cases he
      · exact .inr ⟨ha, h⟩
    · rintro (h | h)
      · exact absurd ⟨hch.src_sizes, hch.dst_sizes⟩ h.2.2
      · exact accepted_overflow (cpu := cpu) h32 hch.src_sizes hch.dst_sizes hq.src_legal
          hq.dst_legal hq.supported hq.width_ne hq.height_ne hq.src_real hq.dst_real hc ha h.2
  · constructor
    · intro he
      rw [h] at he; cases he
    · rintro (⟨h1, h2, h3⟩ | h)
      · rcases hs with hs | hs
        · exact absurd ⟨hs.src_sizes, hs.dst_sizes⟩ h3
        · exact absurd ⟨h1, h2⟩ hs
      · exact absurd h.1 ha
  · rw [if_pos hc] at h
    exact ⟨fun _ => .inl ⟨hsu.1, hsu.2, not_checked hq hn⟩, fun _ => h⟩

/-- **C15**, exactly when: a legal, supported and non-empty request faults if and only if it is accepted
though its accesses leave the buffers or (in builds with overflow checks) its strides are too small for
the Rgb <-> Bgra code, or a size exceeds `usize` and the program notices (overflow checks) or accepts the
wrapped sizes. (Missing: that no request faults; see the counterexamples.) -/
theorem C15_exact_partial (h32 : 32 ≤ t.bits) (hq : Spec.Asked t c) :
    (∃ e, convert t crate cpu c = .error e) ↔
      (Spec.Accepts c ∧ ¬ ((Spec.InBounds cpu.set c ∧ Spec.SurplusInside t cpu.set c) ∧
        (t.checked = true → Spec.PartsFit cpu.set c))) ∨
      (Spec.Supplied c.src_format c.src_strides c.src_buffers ∧
        Spec.Supplied c.dst_format c.dst_strides c.dst_buffers ∧
        ¬ (Spec.SizesFit t c.src_format c.width c.height c.src_strides ∧
          Spec.SizesFit t c.dst_format c.width c.height c.dst_strides) ∧
        (t.checked = true ∨ Spec.WrapAccepts t c)) := by
  have hs := C67_succeeds_iff t cpu c h32 hq
  rcases asked_outcome t cpu c h32 hq with ⟨hch, ha, ho⟩ | ⟨ha, hsu, _, h⟩ | ⟨hsu, hn, h⟩
  · constructor
    · rintro ⟨e, he⟩
      refine .inl ⟨ha, fun hb => ?_⟩
      obtain ⟨out, h⟩ := hs.2 ⟨ha, hb⟩
      rw [h] at he
      cases he
    · rintro (⟨-, hb⟩ | h)
      · rcases ho with ⟨h1, h2, -⟩ | ⟨-, h | h⟩ | ⟨h, -⟩
        · exact absurd ⟨h1, h2⟩ hb
        · exact ⟨_, h⟩
        · exact ⟨_, h⟩
        · exact ⟨_, h⟩
      · exact absurd ⟨hch.src_sizes, hch.dst_sizes⟩ h.2.2.1
  · rw [h]
    refine ⟨(fun ⟨e, he⟩ => by cases he), ?_⟩
    rintro (h | ⟨h1, h2, h3, -⟩)
    · exact absurd h.1 ha
    · rcases hsu with hs | hs
      · exact absurd ⟨hs.src_sizes, hs.dst_sizes⟩ h3
      · exact absurd ⟨h1, h2⟩ hs
  · have h3 := not_checked hq hn
    split at h
    · rename_i hc
      exact ⟨fun _ => .inr ⟨hsu.1, hsu.2, h3, .inl hc⟩, fun _ => ⟨_, h⟩⟩
    · rename_i hc
      split at h
      · rename_i hw
        exact ⟨fun _ => .inr ⟨hsu.1, hsu.2, h3, .inr hw⟩, fun _ => h.elim (⟨_, ·⟩) (⟨_, ·⟩)⟩
      · rename_i hw
        obtain ⟨_, h⟩ := h
        rw [h]
        refine ⟨(fun ⟨e, he⟩ => by cases he), ?_⟩
        rintro (h | h)
        · exact absurd (hq.wraps h32 h.1) hw
        · exact absurd h.2.2.2 (not_or.2 ⟨hc, hw⟩)

/-- Without overflow checks such a request never panics. -/
theorem C75_release (h32 : 32 ≤ t.bits) (hc : t.checked = false) (hq : Spec.Asked t c)
    (e : Fault) (he : convert t crate cpu c = .error e) : e = .oobRead ∨ e = .oobWrite := by
  have hn : ¬ t.checked = true := by simp [hc]
  rcases asked_outcome t cpu c h32 hq with ⟨-, -, ho⟩ | ⟨-, -, _, h⟩ | ⟨-, -, h⟩
  · rcases ho with ⟨-, -, _, h⟩ | ⟨-, h | h⟩ | ⟨-, h, -⟩
    · rw [h] at he; cases he
    · rw [h] at he; cases he; exact .inl rfl
    · rw [h] at he; cases he; exact .inr rfl
    · exact absurd h hn
  · rw [h] at he; cases he
  · rw [if_neg hn] at h
    split at h
    · rcases h with h | h <;> rw [h] at he <;> cases he
      · exact .inl rfl
      · exact .inr rfl
    · obtain ⟨_, h⟩ := h
      rw [h] at he; cases he

/-- **C68.** An accepted call that does not succeed accesses memory outside a buffer, except for the
panics of C75 in builds with overflow checks. -/
theorem C68_memory_fault (h32 : 32 ≤ t.bits) (hq : Spec.Asked t c) (ha : Spec.Accepts c)
    (hz : t.checked = true → Spec.SizesFit t c.src_format c.width c.height c.src_strides ∧
      Spec.SizesFit t c.dst_format c.width c.height c.dst_strides)
    (hp : t.checked = true → ¬ Spec.PartOverflow cpu.set c)
    (hx : ¬ Spec.OffsetOverflow t cpu.set c) :
    ((Spec.InBounds cpu.set c ∧ Spec.SurplusInside t cpu.set c) ∧
      ∃ out, convert t crate cpu c = .ok (.ok (), out)) ∨
    (¬ (Spec.InBounds cpu.set c ∧ Spec.SurplusInside t cpu.set c) ∧
      (convert t crate cpu c = .error .oobRead ∨ convert t crate cpu c = .error .oobWrite)) := by
  rcases asked_outcome t cpu c h32 hq with ⟨-, -, ho⟩ | ⟨hn, -⟩ | ⟨hsu, hn, h⟩
  · rcases ho with ⟨h1, -, h2⟩ | h | ⟨-, hc, h⟩
    · exact .inl ⟨h1, h2⟩
    · exact .inr h
    · exact absurd h (not_or.2 ⟨hp hc, hx⟩)
  · exact absurd ha hn
  · rw [if_neg (fun hc => not_checked hq hn (hz hc)), if_pos (hq.wraps h32 ha)] at h
    exact .inr ⟨fun hi => hn (hq.inside h32 hsu hi.1), h⟩

/-- **C66**, in full: `NotEnoughData` is answered exactly if a stride or buffer is missing, or the
strides and buffers do not pass `Spec.Accepts` and the sizes computed from them are representable, or
they are not representable and the build without overflow checks does not accept the wrapped sizes
either. -/
theorem C66_rejected_asked_iff (h32 : 32 ≤ t.bits) (hq : Spec.Asked t c) :
    (∃ out, convert t crate cpu c = .ok (.error .notEnoughData, out)) ↔ ¬ Spec.Accepts c ∧
      (Spec.Supplied c.src_format c.src_strides c.src_buffers →
        Spec.Supplied c.dst_format c.dst_strides c.dst_buffers →
        ¬ (Spec.SizesFit t c.src_format c.width c.height c.src_strides ∧
          Spec.SizesFit t c.dst_format c.width c.height c.dst_strides) →
        t.checked = false ∧ ¬ Spec.WrapAccepts t c) := by
  rcases asked_outcome t cpu c h32 hq with ⟨-, ha, ho⟩ | ⟨ha, hs, h⟩ | ⟨hsu, hn, h⟩
  · refine ⟨?_, fun h => absurd ha h.1⟩
    rintro ⟨out, he⟩
    rcases ho with ⟨-, -, _, h⟩ | ⟨-, h | h⟩ | ⟨h, -⟩ <;> rw [h] at he <;> cases he
  · refine ⟨fun _ => ⟨ha, fun h1 h2 h3 => ?_⟩, fun _ => h⟩
    rcases hs with hs | hs
    · exact absurd ⟨hs.src_sizes, hs.dst_sizes⟩ h3
    · exact absurd ⟨h1, h2⟩ hs
  · have h3 := not_checked hq hn
    split at h
    · rename_i hc
      refine ⟨fun ⟨out, he⟩ => ?_, fun hs => ?_⟩
      · rw [h] at he; cases he
      · have := (hs.2 hsu.1 hsu.2 h3).1
        rw [hc] at this; cases this
    · rename_i hc
      split at h
      · rename_i hw
        refine ⟨fun ⟨out, he⟩ => ?_, fun hs => absurd hw (hs.2 hsu.1 hsu.2 h3).2⟩
        rcases h with h | h <;> rw [h] at he <;> cases he
      · rename_i hw
        exact ⟨fun _ => ⟨fun ha => hw (hq.wraps h32 ha), fun _ _ _ => ⟨by simpa using hc, hw⟩⟩,
          fun _ => h⟩

/-- **C16**, as far as true: a legal, supported and non-empty request does not panic, whatever strides
and buffers are passed. (Missing: the requests that do, which are those of C75, see the
counterexamples.) -/
theorem C16_checked_partial (h32 : 32 ≤ t.bits) (hq : Spec.Asked t c)
    (hs : t.checked = true → Spec.SizesFit t c.src_format c.width c.height c.src_strides ∧
      Spec.SizesFit t c.dst_format c.width c.height c.dst_strides)
    (hp : t.checked = true → ¬ Spec.PartOverflow cpu.set c)
    (hx : ¬ Spec.OffsetOverflow t cpu.set c) (e : Fault) (he : convert t crate cpu c = .error e) :
    e = .oobRead ∨ e = .oobWrite := by
  by_cases hc : t.checked = true
  · have ha : Spec.Accepts c := by
      rcases (C15_exact_partial t cpu c h32 hq).1 ⟨e, he⟩ with h | h
      · exact h.1
      · exact absurd (hs hc) h.2.2.1
    rcases C68_memory_fault t cpu c h32 hq ha hs hp hx with ⟨-, out, h⟩ | ⟨-, h | h⟩ <;>
      rw [he] at h <;> cases h
    · exact .inl rfl
    · exact .inr rfl
  · exact C75_release t cpu c h32 (by simpa using hc) hq e he

/-- **C64**, as far as true: on 32-bit targets a conversion with strides of at least a line succeeds
exactly if it is accepted and the accessed lines lie in the buffers. (Missing: that every image can be
converted; see the counterexample.) -/
theorem C64_exact_partial (hbits : t.bits = 32) (hq : Spec.Asked t c) (hs : Spec.WideStrides c) :
    (∃ out, convert t crate cpu c = .ok (.ok (), out)) ↔
      Spec.Accepts c ∧ Spec.InBounds cpu.set c :=
  C67_wide_iff t cpu c (by omega) hq hs

/-- **C64.** On 32-bit targets no image of 2^30 or more pixels per line is converted: its RGB lines are
longer than any buffer. -/
theorem C64_wide (hbits : t.bits = 32) (hq : Spec.Asked t c) (hw : 2 ^ 30 ≤ c.width.toNat) :
    ¬ ∃ out, convert t crate cpu c = .ok (.ok (), out) := by
  intro h
  obtain ⟨ha, ⟨hi, -⟩, -⟩ := (C67_succeeds_iff t cpu c (by omega) hq).1 h
  have hm := imax_lt t (by omega)
  rw [hbits] at hm
  have line : ∀ (f : ImageFormat) (bufs : List Buf) (st : Option (List Nat)) (e : Nat → Nat),
      Spec.PlanesOk f.pixel_format f.num_planes.toNat → f.num_planes.toNat ≤ bufs.length →
      Spec.isRgb f.pixel_format = true → (∀ b, b ∈ bufs → b.len ≤ t.imax) →
      Spec.LinesInside f c.width c.height st bufs e →
      ∃ b ∈ bufs, e (Spec.bpp f.pixel_format * c.width.toNat) ≤ b.len := by
    intro f bufs st e hp hl hr _ hin
    have h1 := rgb_one hp hr
    have hb := List.getElem?_eq_getElem (by omega : 0 < bufs.length)
    exact ⟨_, List.mem_of_getElem? hb, Nat.le_trans (Nat.le_add_left _ _)
      (hin 0 _ _ hb (dims_rgb hr))⟩
  have three : ∀ pf, Spec.isRgb pf = true → 3 * c.width.toNat ≤ Spec.bpp pf * c.width.toNat := by
    intro pf h
    exact Nat.mul_le_mul_right _ (by cases pf <;> first | decide | cases h)
  by_cases hr : Spec.isRgb c.src_format.pixel_format = true
  · obtain ⟨b, hb, hl⟩ := line _ _ _ _ hq.src_legal.planes ha.src.bufs_len hr hq.src_real hi.src
    rw [if_pos hr] at hl
    have := readEnd_ge cpu.set c.src_format.pixel_format c.dst_format.pixel_format c.width.toNat
    have := three _ hr
    have := hq.src_real b hb
    omega
  · have hr' : Spec.isRgb c.dst_format.pixel_format = true := by
      have := hq.supported
      revert this hr
      cases c.src_format.pixel_format <;> cases c.dst_format.pixel_format <;> decide
    obtain ⟨b, hb, hl⟩ := line _ _ _ _ hq.dst_legal.planes ha.dst.bufs_len hr' hq.dst_real hi.dst
    have := three _ hr'
    have := hq.dst_real b hb
    omega

/-- The hypotheses hold of a call that succeeds, of one that is accepted though its source is too
short, and of one that is rejected. -/
example : Spec.Checked .x64 exEncode ∧ Spec.WideStrides exEncode ∧ Spec.Accepts exEncode ∧
    Spec.InBounds .x86 exEncode := by decide +kernel

example : Spec.Asked .x32r exEncode ∧ Spec.WideStrides exEncode ∧ Spec.Accepts exEncode ∧
    Spec.InBounds .x86 exEncode := by decide +kernel

example : Spec.Checked .x64 exStride ∧ Spec.WideStrides exStride ∧ Spec.Accepts exStride ∧
    ¬ Spec.InBounds .x86 exStride := by decide +kernel

example : Spec.Checked .x64 exShort ∧ Spec.WideStrides exShort ∧ ¬ Spec.Accepts exShort := by
  decide +kernel

/-- A 12x1 Bgr image in a buffer of 36 bytes: in bounds for the portable code, not for SSE2. -/
example : Spec.Checked .x64 (exTight 12) ∧ Spec.Accepts (exTight 12) ∧
    Spec.InBounds .x86 (exTight 12) ∧ Spec.InBounds .avx2 (exTight 12) ∧
    ¬ Spec.InBounds .sse2 (exTight 12) := by decide +kernel

/-- A 4x4 image in a single Nv12 buffer with lines 6 bytes apart: 34 bytes hold the image
(6 lines of 6 bytes, the last one without padding), 34 bytes are accepted and 33 are not. -/
def exSplit (n : Nat) : Call where
  width := 4
  height := 4
  src_format := ⟨.nv12, .bt601, 1⟩
  src_strides := some [6]
  src_buffers := [noise n 1]
  dst_format := ⟨.rgba, .rgb, 1⟩
  dst_strides := none
  dst_buffers := [noise 64 2]

example : Spec.Checked .x64 (exSplit 34) ∧ Spec.Accepts (exSplit 34) ∧
    Spec.InBounds .x86 (exSplit 34) ∧ ¬ Spec.Accepts (exSplit 33) := by decide +kernel

/-- Two lines of `w` Rgb pixels to Bgra with strides of `s` bytes each. -/
def exNarrow (w : UInt32) (s n : Nat) : Call where
  width := w
  height := 2
  src_format := ⟨.rgb, .rgb, 1⟩
  src_strides := some [s]
  src_buffers := [noise n 1]
  dst_format := ⟨.bgra, .rgb, 1⟩
  dst_strides := some [s]
  dst_buffers := [noise n 2]

/-- 20 pixels, 64 bytes apart: a line of 80 bytes is longer than the stride. The portable and the AVX2
code subtract its length from the stride and panic; the SSE2 and NEON code handle 16 and 4 pixels
separately and succeed. -/
example : Spec.Asked .x64 (exNarrow 20 64 200) ∧ Spec.Accepts (exNarrow 20 64 200) ∧
    (∀ set, Spec.InBounds set (exNarrow 20 64 200)) ∧
    Spec.PartOverflow .x86 (exNarrow 20 64 200) ∧ Spec.PartOverflow .avx2 (exNarrow 20 64 200) ∧
    Spec.PartsFit .sse2 (exNarrow 20 64 200) ∧ Spec.PartsFit .neon (exNarrow 20 64 200) ∧
    ¬ Spec.WideStrides (exNarrow 20 64 200) := by
  refine ⟨by decide +kernel, by decide +kernel, fun set => ?_, by decide +kernel, by decide +kernel,
    by decide +kernel, by decide +kernel, by decide +kernel⟩
  cases set <;> decide +kernel

example : convert .x64 crate plainCpu (exNarrow 20 64 200) = .error .overflow :=
  (C75_panics_iff _ _ _ (by decide +kernel) rfl (by decide +kernel)).2 (.inr (by decide +kernel))

example : ∃ out, convert .x64 crate sse2Cpu (exNarrow 20 64 200) = .ok (.ok (), out) :=
  (C67_succeeds_iff _ _ _ (by decide +kernel) (by decide +kernel)).2 (by decide +kernel)

/-- A single-plane Nv12 image of two lines, 2^63 bytes apart. -/
def exFar : Call where
  width := 4
  height := 2
  src_format := ⟨.nv12, .bt601, 1⟩
  src_strides := some [2 ^ 63]
  src_buffers := [noise 100 1]
  dst_format := ⟨.rgba, .rgb, 1⟩
  dst_strides := none
  dst_buffers := [noise 100 2]

example : convert .x64 crate plainCpu exFar = .error .overflow :=
  (C75_panics_iff _ _ _ (by decide +kernel) rfl (by decide +kernel)).2 (.inl (by decide +kernel))

/-- Four lines of 8 Bgra pixels, more than a third of 2^64 bytes apart, to Nv12: the first two lines
lie in the buffer. -/
def exFourth : Call where
  width := 8
  height := 4
  src_format := ⟨.bgra, .rgb, 1⟩
  src_strides := some [2 ^ 62 + 2 ^ 61]
  src_buffers := [⟨2 ^ 62 + 2 ^ 61 + 96, fun i => UInt8.ofNat i⟩]
  dst_format := ⟨.nv12, .bt601, 2⟩
  dst_strides := none
  dst_buffers := [noise 32 1, noise 16 2]

example : Spec.Asked .x64 exFourth ∧ Spec.Accepts exFourth ∧ (∀ set, ¬ Spec.InBounds set exFourth) ∧
    ¬ Spec.OffsetOverflow .x64 .x86 exFourth ∧ Spec.OffsetOverflow .x64 .sse2 exFourth ∧
    Spec.OffsetOverflow .x64 .avx2 exFourth ∧ Spec.OffsetOverflow .x64 .neon exFourth ∧
    ¬ Spec.OffsetOverflow .x64r .sse2 exFourth := by
  refine ⟨by decide +kernel, by decide +kernel, fun set => ?_, by decide +kernel, by decide +kernel,
    by decide +kernel, by decide +kernel, by decide +kernel⟩
  cases set <;> decide +kernel

/-- The vector code panics; the portable code reads outside the source. -/
example : convert .x64 crate sse2Cpu exFourth = .error .overflow :=
  (C75_panics_iff _ _ _ (by decide +kernel) rfl (by decide +kernel)).2 (.inr (by decide +kernel))

example : convert .x64 crate plainCpu exFourth = .error .oobRead ∨
    convert .x64 crate plainCpu exFourth = .error .oobWrite :=
  ((C68_memory_fault _ _ _ (by decide +kernel) (by decide +kernel) (by decide +kernel)
    (by decide +kernel) (by decide +kernel) (by decide +kernel)).resolve_left fun h => absurd h.1 (by decide +kernel)).2

/-- Without overflow checks the conversion of `exNarrow` wraps around and succeeds on every
processor. -/
example : ∃ out, convert .x64r crate plainCpu (exNarrow 20 64 200) = .ok (.ok (), out) :=
  (C67_succeeds_iff _ _ _ (by decide +kernel) (by decide +kernel)).2 (by decide +kernel)

/-- The same on a 32-bit target. -/
example : ∃ out, convert .x32r crate plainCpu (exNarrow 20 64 200) = .ok (.ok (), out) :=
  (C67_succeeds_iff _ _ _ (by decide +kernel) (by decide +kernel)).2 (by decide +kernel)

/-- Two lines of 8 Rgb pixels, one byte apart, in a buffer of 25 bytes: every pixel lies in the buffer,
but the portable code reads 26 bytes. -/
def exSurplus (n : Nat) : Call where
  width := 8
  height := 2
  src_format := ⟨.rgb, .rgb, 1⟩
  src_strides := some [1]
  src_buffers := [noise n 1]
  dst_format := ⟨.bgra, .rgb, 1⟩
  dst_strides := none
  dst_buffers := [noise 64 2]

example : Spec.Asked .x64r (exSurplus 25) ∧ Spec.Accepts (exSurplus 25) ∧
    (∀ set, Spec.InBounds set (exSurplus 25) ∧ ¬ Spec.SurplusInside .x64r set (exSurplus 25)) ∧
    (∀ set, Spec.SurplusInside .x64r set (exSurplus 26)) := by
  refine ⟨by decide +kernel, by decide +kernel, fun set => ?_, fun set => ?_⟩ <;>
    cases set <;> decide +kernel

example : convert .x64r crate plainCpu (exSurplus 25) = .error .oobRead ∨
    convert .x64r crate plainCpu (exSurplus 25) = .error .oobWrite :=
  ((C68_memory_fault _ _ _ (by decide +kernel) (by decide +kernel) (by decide +kernel)
    (by decide +kernel) (by decide +kernel) (by decide +kernel)).resolve_left fun h => absurd h.1 (by decide +kernel)).2

/-- A single-plane Nv12 image of 2^22 lines of four pixels, 2^42 + 2^21 bytes apart: without overflow
checks the luma part of 2^64 + 2^43 bytes is taken for one of 2^43 bytes. -/
def exWrapped (n : Nat) : Call where
  width := 4
  height := 2 ^ 22
  src_format := ⟨.nv12, .bt601, 1⟩
  src_strides := some [2 ^ 42 + 2 ^ 21]
  src_buffers := [⟨n, fun i => UInt8.ofNat i⟩]
  dst_format := ⟨.rgba, .rgb, 1⟩
  dst_strides := none
  dst_buffers := [⟨2 ^ 26, fun _ => 0⟩]

/-- A buffer of 2^44 bytes passes the test, and the conversion leaves it; a small one is rejected; with
overflow checks the program panics. -/
example : ∃ e, convert .x64r crate plainCpu (exWrapped (2 ^ 44)) = .error e :=
  (C15_exact_partial _ _ _ (by decide +kernel) (by decide +kernel)).2 (.inr (by decide +kernel))

example : ∃ out, convert .x64r crate plainCpu (exWrapped (2 ^ 43)) =
    .ok (.error .notEnoughData, out) :=
  (C66_rejected_asked_iff _ _ _ (by decide +kernel) (by decide +kernel)).2 (by decide +kernel)

example : convert .x64 crate plainCpu (exWrapped (2 ^ 44)) = .error .overflow :=
  (C75_panics_iff _ _ _ (by decide +kernel) rfl (by decide +kernel)).2 (.inl (by decide +kernel))

/-- One line of 2^30 Bgra pixels (2^32 bytes), four bytes long by its stride, to Rgb. -/
def exVast (n : Nat) : Call where
  width := 2 ^ 30
  height := 1
  src_format := ⟨.bgra, .rgb, 1⟩
  src_strides := some [4]
  src_buffers := [noise n 1]
  dst_format := ⟨.rgb, .rgb, 1⟩
  dst_strides := some [4]
  dst_buffers := [noise n 2]

/-- On 32-bit targets the length of its line wraps to zero. A build without overflow checks accepts
buffers of four bytes and leaves them; on 64-bit targets it does so, too, as only the stride is
compared with the length of the buffer; a build with overflow checks panics on 32-bit targets. -/
example : ∃ e, convert .x32r crate plainCpu (exVast 4) = .error e :=
  (C15_exact_partial _ _ _ (by decide +kernel) (by decide +kernel)).2 (.inr (by decide +kernel))

/-- C64_wide speaks of it. -/
example : Spec.Asked .x32r (exVast 4) ∧ 2 ^ 30 ≤ (exVast 4).width.toNat := by decide +kernel

example : ∃ out, convert .x32r crate plainCpu (exVast 3) = .ok (.error .notEnoughData, out) :=
  (C66_rejected_asked_iff _ _ _ (by decide +kernel) (by decide +kernel)).2 (by decide +kernel)

example : convert ⟨32, true⟩ crate plainCpu (exVast 4) = .error .overflow :=
  (C75_panics_iff _ _ _ (by decide +kernel) rfl (by decide +kernel)).2 (.inl (by decide +kernel))

example : ∃ e, convert .x64r crate plainCpu (exVast 4) = .error e :=
  (C15_exact_partial _ _ _ (by decide +kernel) (by decide +kernel)).2 (.inl (by decide +kernel))

end Verif
