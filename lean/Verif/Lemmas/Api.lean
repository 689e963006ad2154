import Verif.Lemmas.Master
import Verif.Spec.Valid
/-! # The context created for a processor, and its use -/

namespace Verif

/-- Instruction set selected for a processor. -/
def Cpu.set (cpu : Cpu) : InstructionSet := (CpuInfo.get cpu).2

theorem context_new (cpu : Cpu) : ∃ ctx, Context.new cpu = .ok ctx ∧
    ctx.manufacturer = (CpuInfo.get cpu).1 ∧ ctx.set = cpu.set ∧
    TableFor cpu.set ctx.converters ∧ ctx.test_converters.length = 3 ∧
    ∀ (i : Nat) tb, ctx.test_converters[i]? = some (some tb) →
      TableFor (if i = 0 then .x86 else .sse2) tb ∧ cpu.set ≠ .x86 ∧
      (i = 0 ∨ i = 1 ∧ cpu.set = .avx2) := by
  obtain ⟨tx, hx, fx⟩ := set_dispatch_table_ok .x86
  obtain ⟨ts, hs, fs⟩ := set_dispatch_table_ok .sse2
  obtain ⟨ta, ha, fa⟩ := set_dispatch_table_ok .avx2
  obtain ⟨tn, hn, fn⟩ := set_dispatch_table_ok .neon
  unfold Context.new Cpu.set
  rcases CpuInfo.get cpu with ⟨m, set⟩
  cases set with
  | x86 =>
    simp only [hx]
    refine ⟨_, rfl, rfl, rfl, fx, rfl, ?_⟩
    intro i tb h
    rcases (by omega : i = 0 ∨ i = 1 ∨ i = 2 ∨ 3 ≤ i) with e | e | e | e
    · subst e; cases h
    · subst e; cases h
    · subst e; cases h
    · rw [List.getElem?_eq_none (by simpa using e)] at h; cases h
  | sse2 =>
    simp only [hs, hx]
    refine ⟨_, rfl, rfl, rfl, fs, rfl, ?_⟩
    intro i tb h
    rcases (by omega : i = 0 ∨ i = 1 ∨ i = 2 ∨ 3 ≤ i) with e | e | e | e
    · subst e; cases h; exact ⟨fx, by decide, .inl rfl⟩
    · subst e; cases h
    · subst e; cases h
    · rw [List.getElem?_eq_none (by simpa using e)] at h; cases h
  | avx2 =>
    simp only [hs, hx, ha]
    refine ⟨_, rfl, rfl, rfl, fa, rfl, ?_⟩
    intro i tb h
    rcases (by omega : i = 0 ∨ i = 1 ∨ i = 2 ∨ 3 ≤ i) with e | e | e | e
    · subst e; cases h; exact ⟨fx, by decide, .inl rfl⟩
    · subst e; cases h; exact ⟨fs, by decide, .inr ⟨rfl, trivial⟩⟩
    · subst e; cases h
    · rw [List.getElem?_eq_none (by simpa using e)] at h; cases h
  | neon =>
    simp only [hx, hn]
    refine ⟨_, rfl, rfl, rfl, fn, rfl, ?_⟩
    intro i tb h
    rcases (by omega : i = 0 ∨ i = 1 ∨ i = 2 ∨ 3 ≤ i) with e | e | e | e
    · subst e; cases h; exact ⟨fx, by decide, .inl rfl⟩
    · subst e; cases h
    · subst e; cases h
    · rw [List.getElem?_eq_none (by simpa using e)] at h; cases h

/-- Normal build: the routines of the selected instruction set are used. -/
theorem convert_table (t : Target) (impls : InstructionSet → Impl) (cpu : Cpu) :
    ∃ tb, TableFor cpu.set tb ∧ ∀ c, convert t impls cpu c =
      convert_image t impls tb c.width c.height c.src_format c.src_strides c.src_buffers
        c.dst_format c.dst_strides c.dst_buffers := by
  obtain ⟨ctx, h1, -, -, h2, -⟩ := context_new cpu
  exact ⟨ctx.converters, h2, fun c => by rw [convert, convertHook, h1]; rfl⟩

/-- With the test hook: some instruction set. -/
theorem hook_table (t : Target) (impls : InstructionSet → Impl) (cpu : Cpu) (hook : Option Int) :
    ∃ set tb, TableFor set tb ∧ ∀ c, convertHook t impls cpu hook c =
      convert_image t impls tb c.width c.height c.src_format c.src_strides c.src_buffers
        c.dst_format c.dst_strides c.dst_buffers := by
  obtain ⟨ctx, h1, -, -, h2, -, h3⟩ := context_new cpu
  have key : ∃ set, TableFor set (select_table ctx hook) := by
    unfold select_table
    cases hook with
    | none => exact ⟨_, h2⟩
    | some k =>
      simp only
      split
      · exact ⟨_, h2⟩
      · split
        · rename_i tb e
          exact ⟨_, (h3 _ _ e).1⟩
        · exact ⟨_, h2⟩
  obtain ⟨set, hs⟩ := key
  exact ⟨set, _, hs, fun c => by rw [convertHook, h1]; rfl⟩

end Verif
