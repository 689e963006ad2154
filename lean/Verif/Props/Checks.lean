import Verif.Lemmas.Blind
import Verif.Props.Exact
/-!
# C107, C108: what a call has done when it is refused or panics

Nothing but a kernel reads source pixels or writes destination bytes (`Verif/Spec/Checks.lean`).
-/

namespace Verif

variable (t : Target) (cpu : Cpu) (c : Call)

/-- **C107.** For every target, processor and call: either no kernel is run - the call ends in the same
way whatever the kernels do, with the destination as it was, or with a panic - or a kernel is run, and
then the call is not refused any more. -/
theorem C107_checks_first :
    (∃ o : Outcome, (∀ impls, convert t impls cpu c = o) ∧
      (∀ e, o = .error e → e = .overflow ∨ e = .sliceIndex) ∧
      ∀ r out, o = .ok (r, out) → out = c.dst_buffers) ∨
    ((∀ e, convert t (fun _ => Spec.failing e) cpu c = .error e) ∧
      ∀ impls r out, convert t impls cpu c = .ok (r, out) → r = .ok ()) :=
  call_guarded t cpu c

/-- Not both. -/
theorem C107_exclusive (o : Outcome) (h : ∀ impls, convert t impls cpu c = o) :
    ¬ ∀ e, convert t (fun _ => Spec.failing e) cpu c = .error e := by
  intro h'
  have h1 := (h _).symm.trans (h' .oobRead)
  have h2 := (h _).symm.trans (h' .oobWrite)
  rw [h1] at h2
  cases h2

/-- **C107.** A kernel is run exactly by the calls that pass all checks. -/
theorem C107_runs_iff (h32 : 32 ≤ t.bits)
    (hr : ∀ b, b ∈ c.src_buffers → b.len ≤ t.imax) (hr' : ∀ b, b ∈ c.dst_buffers → b.len ≤ t.imax) :
    (∀ e, convert t (fun _ => Spec.failing e) cpu c = .error e) ↔ Spec.Passes t c := by
  have no : ∀ {impls : InstructionSet → Impl} {o}, convert t impls cpu c = .ok o →
      (∀ e, convert t (fun _ => Spec.failing e) cpu c = .error e) →
      (∀ i r out, convert t i cpu c = .ok (r, out) → r = .ok ()) := by
    intro impls o _ h
    rcases call_guarded t cpu c with ⟨o, h1, -⟩ | ⟨-, h1⟩
    · exact absurd h (C107_exclusive t cpu c o h1)
    · exact h1
  by_cases hl : Spec.Legal c.src_format c.width c.height ∧ Spec.Legal c.dst_format c.width c.height
  swap
  · refine ⟨fun h => ?_, fun h => absurd ⟨h.src_legal, h.dst_legal⟩ hl⟩
    obtain ⟨tb, hT, e⟩ := convert_table t (fun _ => Spec.failing .fuel) cpu
    have h0 := h .fuel
    rw [e, convert_of_pure (convert_invalid (by
      by_cases h1 : Spec.Legal c.src_format c.width c.height
      · exact .inr fun h2 => hl ⟨h1, h2⟩
      · exact .inl h1))] at h0
    cases h0
  by_cases hs : Spec.Supported c.src_format.pixel_format c.dst_format.pixel_format
  swap
  · refine ⟨fun h => ?_, fun h => absurd h.supported hs⟩
    obtain ⟨tb, hT, e⟩ := convert_table t (fun _ => Spec.failing .fuel) cpu
    have h0 := h .fuel
    rw [e, convert_of_pure (convert_unsupported hT hl.1 hl.2 hs)] at h0
    cases h0
  by_cases hz : c.width = 0 ∨ c.height = 0
  · refine ⟨fun h => ?_, fun h => (hz.elim h.width_ne h.height_ne).elim⟩
    obtain ⟨tb, hT, e⟩ := convert_table t (fun _ => Spec.failing .fuel) cpu
    have h0 := h .fuel
    rw [e, convert_empty hT hl.1 hl.2 hs hz] at h0
    cases h0
  rw [not_or] at hz
  have hq : Spec.Asked t c := ⟨hl.1, hl.2, hs, hz.1, hz.2, hr, hr'⟩
  rcases asked_outcome t cpu c h32 hq with ⟨hch, ha, -⟩ | ⟨ha, hsu, _, h⟩ | ⟨hsu, hn, h⟩
  · exact ⟨fun _ => ⟨hl.1, hl.2, hs, hz.1, hz.2, ha.supplied.1, ha.supplied.2,
      .inl ⟨hch.src_sizes, hch.dst_sizes, ha⟩⟩, fun _ e => accepted_runs (by omega) hch ha e⟩
  · constructor
    · intro h'
      cases no h h' _ _ _ h
    · intro hp
      rcases hp.accepted with ⟨-, -, h1⟩ | ⟨h1, -⟩
      · exact absurd h1 ha
      · rcases hsu with h2 | h2
        · exact absurd ⟨h2.src_sizes, h2.dst_sizes⟩ h1
        · exact absurd ⟨hp.src_supplied, hp.dst_supplied⟩ h2
  · have ho := not_checked hq hn
    constructor
    · intro h'
      refine ⟨hl.1, hl.2, hs, hz.1, hz.2, hsu.1, hsu.2, .inr ⟨ho, ?_, ?_⟩⟩
      · by_contra hc
        rw [Bool.not_eq_false] at hc
        have h0 := h' .fuel
        rw [sizes_halt _ hc hl.1 hl.2 hs hz.1 hz.2 hsu.1 hsu.2 ho] at h0
        cases h0
      · by_contra hw
        by_cases hc : t.checked = true
        · have h0 := h' .fuel
          rw [sizes_halt _ hc hl.1 hl.2 hs hz.1 hz.2 hsu.1 hsu.2 ho] at h0
          cases h0
        · rw [if_neg hc, if_neg hw] at h
          obtain ⟨_, h⟩ := h
          cases no h h' _ _ _ h
    · intro hp
      rcases hp.accepted with ⟨h1, h2, -⟩ | ⟨-, hc, hw⟩
      · exact absurd ⟨h1, h2⟩ ho
      · rw [if_neg (by simp [hc]), if_pos hw] at h
        rcases call_guarded t cpu c with ⟨o, h1, h2, -⟩ | ⟨h1, -⟩
        · rw [h1] at h
          rcases h with h | h
          · rcases h2 _ h with h3 | h3 <;> cases h3
          · rcases h2 _ h with h3 | h3 <;> cases h3
        · exact h1

/-- **C107.** In particular a call that panics because a size exceeds `usize` has not touched a pixel. -/
theorem C107_panics_before (impls : InstructionSet → Impl) (hc : t.checked = true)
    (hq : Spec.Asked t c)
    (hp : Spec.Supplied c.src_format c.src_strides c.src_buffers)
    (hp' : Spec.Supplied c.dst_format c.dst_strides c.dst_buffers)
    (ho : ¬ (Spec.SizesFit t c.src_format c.width c.height c.src_strides ∧
      Spec.SizesFit t c.dst_format c.width c.height c.dst_strides)) :
    convert t impls cpu c = .error .overflow :=
  sizes_halt impls hc hq.src_legal hq.dst_legal hq.supported hq.width_ne hq.height_ne hp hp' ho

/-! ### C108: whether a call that panics has stored anything

The kernels of `Spec.blind` are those of the crate, but are handed destinations of length 0: as long as
nothing is stored both do the same, and the first store ends the call with `.oobWrite`. -/

/-- **C108.** A call that panics has stored nothing. (Missing: the cases excluded by the last two
hypotheses, see the counterexamples - NEON code converting 16 pixels or more between Rgb and Bgra with a
stride smaller than the rest of the line, and vectorised 4:2:0 encoders when the fourth line begins beyond
`usize`.) -/
theorem C108_nothing_stored_partial (h32 : 32 ≤ t.bits) (hc : t.checked = true) (hq : Spec.Asked t c)
    (he : convert t crate cpu c = .error .overflow)
    (hn : cpu.set = .neon → c.width.toNat < 16 ∨ Spec.PartsFit .neon c)
    (hf : ¬ Spec.FourthLineOverflow t cpu.set c) :
    convert t (fun s => Spec.blind (crate s)) cpu c = .error .overflow := by
  rcases (C75_panics_iff t cpu c h32 hc hq).1 he with ⟨h1, h2, ho⟩ | ⟨ha, ho⟩
  · exact sizes_halt _ hc hq.src_legal hq.dst_legal hq.supported hq.width_ne hq.height_ne h1 h2 ho
  · rcases asked_outcome t cpu c h32 hq with ⟨hch, -, -⟩ | ⟨ha', -⟩ | ⟨hsu, hn', -⟩
    · obtain ⟨tb, hT, ec⟩ := convert_table t (fun s => Spec.blind (crate s)) cpu
      obtain ⟨hp, hp', ha1, ha2⟩ :=
        (accepts_call hq.src_legal hq.dst_legal hq.supported hq.height_ne).1 ha
      have hm := checked_small t c (by omega) hch
      obtain ⟨r, hkey, -, ek⟩ := convert_checked (impls := fun s => Spec.blind (crate s)) hT
        hq.src_legal hq.dst_legal hq.supported hq.width_ne hq.height_ne hp hp' hm.1 hm.2
      rw [if_pos ⟨ha1, ha2⟩] at ek
      have hs : cpu.set = .neon → c.width.toNat < 16 := by
        intro e
        refine (hn e).resolve_right fun hfit => ?_
        rcases ho with h | h | h
        · rw [e] at h
          exact not_part_overflow hfit h
        · rw [e] at h
          cases h.1
        · exact hf h
      have hk := blind_over (set := cpu.set) (by omega) hkey hq.width_ne hq.height_ne hc hq.src_real
        hq.dst_real ha1 ha2 hs (by
          rcases ho with ⟨p, h1, h2, -⟩ | h | h
          · exact .inl ⟨p, h1, h2⟩
          · exact .inr ⟨h.1, h.2.1, h.2.2.1, h.2.2.2⟩
          · exact absurd h hf)
      rw [ec, convert_image, ek, K.bind_def, K.bind, hk]
    · exact absurd ha ha'
    · exact sizes_halt _ hc hq.src_legal hq.dst_legal hq.supported hq.width_ne hq.height_ne hsu.1 hsu.2
        (not_checked hq hn')

/-- **C108**, exactly when: a call that panics has stored nothing, unless it is one of the two kinds
excluded above; those end, with destinations of length 0, at a store. (Missing: that there are none of
these.) -/
theorem C108_exact_partial (h32 : 32 ≤ t.bits) (hc : t.checked = true) (hq : Spec.Asked t c)
    (he : convert t crate cpu c = .error .overflow) :
    convert t (fun s => Spec.blind (crate s)) cpu c = .error .overflow ↔
      ¬ (Spec.Passes t c ∧ Spec.StoresFirst t cpu.set c) := by
  constructor
  · rintro h ⟨hps, hsf⟩
    obtain ⟨hz, hz', ha⟩ := hps.accepted.resolve_right fun h => by rw [hc] at h; cases h.2.1
    rcases asked_outcome t cpu c h32 hq with ⟨hch, -, -⟩ | ⟨ha', -⟩ | ⟨hsu, hn', h'⟩
    · obtain ⟨tb, hT, ec⟩ := convert_table t (fun s => Spec.blind (crate s)) cpu
      obtain ⟨hp, hp', ha1, ha2⟩ :=
        (accepts_call hq.src_legal hq.dst_legal hq.supported hq.height_ne).1 ha
      have hm := checked_small t c (by omega) hch
      obtain ⟨r, hkey, -, ek⟩ := convert_checked (impls := fun s => Spec.blind (crate s)) hT
        hq.src_legal hq.dst_legal hq.supported hq.width_ne hq.height_ne hp hp' hm.1 hm.2
      rw [if_pos ⟨ha1, ha2⟩] at ek
      have wp := blind_stores (set := cpu.set) (t := t) (by omega) hkey hq.width_ne hq.height_ne
        hq.src_real hq.dst_real ha1 ha2 (hsf.imp (fun ⟨h1, h2, h3⟩ => ⟨h1, h2, fun h4 => h3 fun p hp => by
          rw [h4] at hp; cases hp⟩) fun h => ⟨h.2.1, h.1, h.2.2.2.1, h.2.2.2.2.1⟩)
      rw [ec, convert_image, ek, K.bind_def, K.bind] at h
      unfold K.Wp at wp
      split at wp
      · exact wp
      · rename_i e hrun
        rw [hrun] at h
        cases h
        rcases wp with ⟨-, h | h⟩ | ⟨-, h⟩
        · cases h
        · cases h
        · exact h
    · exact ha' ha
    · exact hn' ⟨hq, hz, hz'⟩
  · intro hn
    by_cases hps : Spec.Passes t c
    · refine C108_nothing_stored_partial t cpu c h32 hc hq he (fun hs => ?_) fun hf => hn ⟨hps, .inr hf⟩
      by_contra h
      rw [not_or] at h
      exact hn ⟨hps, .inl ⟨hs, by omega, h.2⟩⟩
    · rcases asked_outcome t cpu c h32 hq with ⟨hch, ha, -⟩ | ⟨-, -, _, h⟩ | ⟨hsu, hn', -⟩
      · exact absurd ⟨hq.src_legal, hq.dst_legal, hq.supported, hq.width_ne, hq.height_ne,
          ha.supplied.1, ha.supplied.2, .inl ⟨hch.src_sizes, hch.dst_sizes, ha⟩⟩ hps
      · rw [h] at he
        cases he
      · exact sizes_halt _ hc hq.src_legal hq.dst_legal hq.supported hq.width_ne hq.height_ne hsu.1
          hsu.2 (not_checked hq hn')

/-- The portable code stores nothing before a panic. -/
theorem C108_portable_partial (h32 : 32 ≤ t.bits) (hc : t.checked = true) (hq : Spec.Asked t c)
    (hx : cpu.set = .x86) (he : convert t crate cpu c = .error .overflow) :
    convert t (fun s => Spec.blind (crate s)) cpu c = .error .overflow :=
  C108_nothing_stored_partial t cpu c h32 hc hq he (fun h => by rw [hx] at h; cases h)
    fun h => by
      obtain ⟨-, -, -, ⟨n, hn, -⟩, -⟩ := h
      rw [hx] at hn
      cases hn

/-- The result of a call without its buffers. -/
def endOf : Outcome → Option Fault
  | .error e => some e
  | .ok _ => none

theorem endOf_some {o : Outcome} {e : Fault} (h : endOf o = some e) : o = .error e := by
  cases o with
  | error e' => cases h; rfl
  | ok _ => cases h

/-- One line of 17 Rgb pixels to Bgra; the stride of the source is 2. -/
def exRest : Call where
  width := 17
  height := 1
  src_format := ⟨.rgb, .rgb, 1⟩
  src_strides := some [2]
  src_buffers := [noise 60 1]
  dst_format := ⟨.bgra, .rgb, 1⟩
  dst_strides := none
  dst_buffers := [noise 68 2]

/-- **C108** is false: on AArch64 in a debug build this call stores sixteen pixels and then panics. -/
theorem C108_counterexample : convert .x64 crate neonCpu exRest = .error .overflow ∧
    convert .x64 (fun s => Spec.blind (crate s)) neonCpu exRest = .error .oobWrite :=
  ⟨endOf_some (by decide +kernel), endOf_some (by decide +kernel)⟩

/-- On x86 the same call panics before anything is stored. -/
example : convert .x64 crate sse2Cpu exRest = .error .overflow ∧
    convert .x64 (fun s => Spec.blind (crate s)) sse2Cpu exRest = .error .overflow :=
  ⟨endOf_some (by decide +kernel), endOf_some (by decide +kernel)⟩

/-- Four lines of 8 Bgra pixels, one and a half gigabytes apart, to Nv12. -/
def exHuge : Call where
  width := 8
  height := 4
  src_format := ⟨.bgra, .rgb, 1⟩
  src_strides := some [2 ^ 30 + 2 ^ 29]
  src_buffers := [⟨2 ^ 30 + 2 ^ 29 + 96, fun i => UInt8.ofNat i⟩]
  dst_format := ⟨.nv12, .bt601, 2⟩
  dst_strides := none
  dst_buffers := [noise 32 1, noise 16 2]

/-- **C108** is false: in a debug build for 32 bits with SSE2 this call stores the first two lines and
then panics. -/
theorem C108_counterexample_encoder : convert ⟨32, true⟩ crate sse2Cpu exHuge = .error .overflow ∧
    convert ⟨32, true⟩ (fun s => Spec.blind (crate s)) sse2Cpu exHuge = .error .oobWrite :=
  ⟨endOf_some (by decide +kernel), endOf_some (by decide +kernel)⟩

/-! ### Cases -/

/-- The calls of the counterexamples. -/
example : Spec.StoresFirst .x64 .neon exRest ∧ Spec.StoresFirst ⟨32, true⟩ .sse2 exHuge ∧
    ¬ Spec.StoresFirst .x64 .sse2 exRest :=
  ⟨.inl ⟨rfl, by decide +kernel, by decide +kernel⟩, .inr (by
    unfold Spec.FourthLineOverflow; decide +kernel), fun h => by
    rcases h with ⟨h, -⟩ | h
    · cases h
    · revert h; unfold Spec.FourthLineOverflow; decide +kernel⟩

/-- A call that passes the checks: its kernel is run. -/
example : Spec.Passes .x64 exStride ∧
    convert .x64 (fun _ => Spec.failing .fuel) sse2Cpu exStride = .error .fuel :=
  ⟨⟨by decide +kernel, by decide +kernel, by decide +kernel, by decide +kernel, by decide +kernel,
    by decide +kernel, by decide +kernel, .inl (by decide +kernel)⟩, endOf_some (by decide +kernel)⟩

/-- One that does not. -/
example : ¬ Spec.Passes .x64 exShort := fun h =>
  (h.accepted.elim (fun h => absurd h.2.2 (by decide +kernel)) fun h => absurd h.2.1 (by decide))

/-- A panic of the checks. -/
example (impls : InstructionSet → Impl) : convert .x64 impls plainCpu exFar = .error .overflow :=
  C107_panics_before _ _ _ _ rfl (by decide +kernel) (by decide +kernel) (by decide +kernel)
    (by decide +kernel)

/-- A panic of a kernel. -/
example : convert .x64 (fun s => Spec.blind (crate s)) plainCpu (exNarrow 20 64 200) = .error .overflow :=
  C108_portable_partial _ _ _ (by decide) rfl (by decide +kernel) (by decide +kernel)
    ((C75_panics_iff _ _ _ (by decide +kernel) rfl (by decide +kernel)).2 (.inr (by decide +kernel)))

end Verif
