import Mathlib.Data.Nat.Bitwise
import Verif.Lemmas.Global
import Verif.Lemmas.Shared
import Verif.Lemmas.Idem
import Verif.Props.Pixels
import Verif.Spec.Cpu
/-!
# C53-C56, C62, C63, C65: the processor, global state, threads

The theorems hold for all kernels (`impls` is arbitrary), programs, numbers of threads and
schedules.
-/

namespace Verif

/-! ## C53: selection of the instruction set -/

theorem u32_bit (x : UInt32) (k : Nat) (hk : k < 32) :
    x &&& ((1 : UInt32) <<< UInt32.ofNat k) = 0 ↔ ¬ x.toNat.testBit k = true := by
  rw [← UInt32.toNat_inj, UInt32.toNat_and, UInt32.toNat_shiftLeft]
  have h1 : (UInt32.ofNat k).toNat % 32 = k := by
    rw [UInt32.toNat_ofNat']; omega
  have h2 : (1 : UInt32).toNat = 1 := rfl
  rw [h1, h2, Nat.one_shiftLeft, Nat.mod_eq_of_lt (Nat.pow_lt_pow_right (by omega) hk),
    Nat.and_two_pow]
  cases x.toNat.testBit k <;> simp

theorem compare_eq_zero (f : CpuidResult) (name : List Char) :
    CpuInfo.compare_cpu_manufacturer f name = 0 ↔
      f.ebx = CpuInfo.four_cc (CpuInfo.byteOf name 0) (CpuInfo.byteOf name 1)
        (CpuInfo.byteOf name 2) (CpuInfo.byteOf name 3) ∧
      f.edx = CpuInfo.four_cc (CpuInfo.byteOf name 4) (CpuInfo.byteOf name 5)
        (CpuInfo.byteOf name 6) (CpuInfo.byteOf name 7) ∧
      f.ecx = CpuInfo.four_cc (CpuInfo.byteOf name 8) (CpuInfo.byteOf name 9)
        (CpuInfo.byteOf name 10) (CpuInfo.byteOf name 11) := by
  unfold CpuInfo.compare_cpu_manufacturer
  rw [u32_or_eq_zero, u32_or_eq_zero]
  simp only [UInt32.sub_eq_iff_eq_add, UInt32.zero_add, and_assoc]

theorem vendor_iff (cpuid : UInt32 → CpuidResult) (x y z : UInt32) (v : List Nat)
    (hv : v = regBytes x ++ regBytes y ++ regBytes z) :
    vendor cpuid = v ↔ (cpuid 0).ebx = x ∧ (cpuid 0).edx = y ∧ (cpuid 0).ecx = z := by
  subst hv
  have inj : ∀ a b : UInt32, regBytes a = regBytes b → a = b := by
    intro a b h
    unfold regBytes at h
    simp only [List.cons.injEq, and_true] at h
    rw [← UInt32.toNat_inj]
    omega
  constructor
  · intro h
    unfold vendor at h
    have hl : ∀ r, (regBytes r).length = 4 := fun _ => rfl
    obtain ⟨h1, h2⟩ := List.append_inj h (by simp [hl])
    obtain ⟨h3, h4⟩ := List.append_inj h1 (by simp [hl])
    exact ⟨inj _ _ h3, inj _ _ h4, inj _ _ h2⟩
  · rintro ⟨h1, h2, h3⟩
    unfold vendor
    rw [h1, h2, h3]

theorem compare_iff (cpuid : UInt32 → CpuidResult) (name : List Char) (v : List Nat)
    (hv : v = regBytes (CpuInfo.four_cc (CpuInfo.byteOf name 0) (CpuInfo.byteOf name 1)
        (CpuInfo.byteOf name 2) (CpuInfo.byteOf name 3)) ++
      regBytes (CpuInfo.four_cc (CpuInfo.byteOf name 4) (CpuInfo.byteOf name 5)
        (CpuInfo.byteOf name 6) (CpuInfo.byteOf name 7)) ++
      regBytes (CpuInfo.four_cc (CpuInfo.byteOf name 8) (CpuInfo.byteOf name 9)
        (CpuInfo.byteOf name 10) (CpuInfo.byteOf name 11))) :
    CpuInfo.compare_cpu_manufacturer (cpuid 0) name = 0 ↔ vendor cpuid = v := by
  rw [compare_eq_zero, vendor_iff cpuid _ _ _ v hv]

theorem intel_iff (cpuid : UInt32 → CpuidResult) :
    CpuInfo.compare_cpu_manufacturer (cpuid 0) "GenuineIntel".toList = 0 ↔
      vendor cpuid = ascii "GenuineIntel" := compare_iff cpuid _ _ (by decide +kernel)
theorem amd1_iff (cpuid : UInt32 → CpuidResult) :
    CpuInfo.compare_cpu_manufacturer (cpuid 0) "AuthenticAMD".toList = 0 ↔
      vendor cpuid = ascii "AuthenticAMD" := compare_iff cpuid _ _ (by decide +kernel)
theorem amd2_iff (cpuid : UInt32 → CpuidResult) :
    CpuInfo.compare_cpu_manufacturer (cpuid 0) "AMDisbetter!".toList = 0 ↔
      vendor cpuid = ascii "AMDisbetter!" := compare_iff cpuid _ _ (by decide +kernel)

theorem get_x86_eq (cpuid : UInt32 → CpuidResult) : CpuInfo.get_x86 cpuid =
    if (cpuid 0).eax ≠ 0 then
      (manufacturerOf cpuid,
        if ¬ ReportsSse2 cpuid then .x86
        else if ReportsAvx2 cpuid ∧ ¬ IsAmd cpuid then .avx2 else .sse2)
    else (.unknown, .x86) := by
  have h26 := u32_bit (cpuid 1).edx 26 (by omega)
  have h5 := u32_bit (cpuid 7).ebx 5 (by omega)
  have hne : ascii "GenuineIntel" ≠ ascii "AuthenticAMD" := by decide +kernel
  have hne' : ascii "GenuineIntel" ≠ ascii "AMDisbetter!" := by decide +kernel
  have e26 : ((cpuid 1).edx &&& (1 : UInt32) <<< 26 != 0) = decide (ReportsSse2 cpuid) := by
    rw [Bool.eq_iff_iff, bne_iff_ne, ne_eq, decide_eq_true_eq]
    exact (not_congr h26).trans Classical.not_not
  have e5 : ((cpuid 7).ebx &&& (1 : UInt32) <<< 5 == 0) = !decide (ReportsAvx2 cpuid) := by
    rw [Bool.eq_iff_iff, beq_iff_eq, Bool.not_eq_true', decide_eq_false_iff_not]
    exact h5
  have hA : (CpuInfo.compare_cpu_manufacturer (cpuid 0) "AuthenticAMD".toList == 0 ||
      CpuInfo.compare_cpu_manufacturer (cpuid 0) "AMDisbetter!".toList == 0) =
      decide (IsAmd cpuid) := by
    rw [Bool.eq_iff_iff, Bool.or_eq_true, beq_iff_eq, beq_iff_eq, decide_eq_true_eq, amd1_iff,
      amd2_iff]
    rfl
  have hI : (CpuInfo.compare_cpu_manufacturer (cpuid 0) "GenuineIntel".toList == 0) =
      decide (vendor cpuid = ascii "GenuineIntel") := by
    rw [Bool.eq_iff_iff, beq_iff_eq, decide_eq_true_eq, intel_iff]
  unfold CpuInfo.get_x86 manufacturerOf
  by_cases h0 : (cpuid 0).eax = 0
  · simp [h0]
  have h0' : ((cpuid 0).eax != 0) = true := by simp [h0]
  simp only [h0', if_true, hI, hA, e26, ne_eq, h0, not_false_eq_true]
  by_cases hi : vendor cpuid = ascii "GenuineIntel"
  · have ha : ¬ IsAmd cpuid := by
      rintro (h | h)
      · exact hne (hi.symm.trans h)
      · exact hne' (hi.symm.trans h)
    simp only [hi, decide_true, if_true, ha, not_false_eq_true, and_true, e5]
    by_cases h1 : ReportsSse2 cpuid <;> by_cases h2 : ReportsAvx2 cpuid <;> simp [h1, h2]
  · by_cases ha : IsAmd cpuid
    · simp only [hi, ha, decide_true, decide_false, if_true, if_false, not_true_eq_false, and_false,
        Bool.false_eq_true]
      by_cases h1 : ReportsSse2 cpuid <;> simp [h1]
    · simp only [hi, ha, decide_false, Bool.false_eq_true, if_false, not_false_eq_true, and_true, e5]
      by_cases h1 : ReportsSse2 cpuid <;> by_cases h2 : ReportsAvx2 cpuid <;> simp [h1, h2]

/-- C53: which instruction set is selected, on every processor. In particular AVX2 only if the
processor reports SSE2 and AVX2 and is no AMD processor; SSE2 only if it reports SSE2; NEON only on
an ARM processor that has it; without CPUID leaves the portable code. -/
theorem C53_selection (cpu : Cpu) :
    (cpu.set = .avx2 ↔ ∃ cpuid, cpu = .x86 cpuid ∧ (cpuid 0).eax ≠ 0 ∧ ReportsSse2 cpuid ∧
      ReportsAvx2 cpuid ∧ ¬ IsAmd cpuid) ∧
    (cpu.set = .sse2 ↔ ∃ cpuid, cpu = .x86 cpuid ∧ (cpuid 0).eax ≠ 0 ∧ ReportsSse2 cpuid ∧
      (ReportsAvx2 cpuid → IsAmd cpuid)) ∧
    (cpu.set = .neon ↔ cpu = .aarch64 true) ∧
    (cpu.set = .x86 ↔ cpu = .aarch64 false ∨ cpu = .other ∨
      ∃ cpuid, cpu = .x86 cpuid ∧ ((cpuid 0).eax = 0 ∨ ¬ ReportsSse2 cpuid)) := by
  unfold Cpu.set
  cases cpu with
  | x86 cpuid =>
    simp only [CpuInfo.get, get_x86_eq, Cpu.x86.injEq]
    by_cases h0 : (cpuid 0).eax = 0 <;> by_cases h1 : ReportsSse2 cpuid <;>
    by_cases h2 : ReportsAvx2 cpuid <;> by_cases h3 : IsAmd cpuid <;> simp [h0, h1, h2, h3]
  | aarch64 n => cases n <;> simp [CpuInfo.get]
  | other => simp [CpuInfo.get]

/-- An Intel processor with AVX2. -/
def intelAvx2 : UInt32 → CpuidResult := fun leaf =>
  if leaf = 0 then ⟨22, 0x756e6547, 0x6c65746e, 0x49656e69⟩
  else if leaf = 1 then ⟨0, 0, 0, 0x04000000⟩
  else if leaf = 7 then ⟨0, 0x20, 0, 0⟩
  else ⟨0, 0, 0, 0⟩

/-- An AMD processor with AVX2. -/
def amdAvx2 : UInt32 → CpuidResult := fun leaf =>
  if leaf = 0 then ⟨22, 0x68747541, 0x444d4163, 0x69746e65⟩ else intelAvx2 leaf

example : (Cpu.x86 intelAvx2).set = .avx2 ∧ (Cpu.x86 amdAvx2).set = .sse2 ∧
    IsAmd amdAvx2 ∧ ¬ IsAmd intelAvx2 := by decide +kernel

/-- C65 fails: AVX2 is selected although the processor has no leaf 7 (its highest leaf is 1, so
what leaf 7 answers is unspecified) and the operating system has not enabled the AVX registers
(leaf 1, ecx bit 27 is clear). -/
theorem C65_counterexample : ∃ cpuid : UInt32 → CpuidResult, (cpuid 0).eax = 1 ∧
    (cpuid 1).ecx.toNat.testBit 27 = false ∧ (Cpu.x86 cpuid).set = .avx2 :=
  ⟨fun leaf => if leaf = 0 then ⟨1, 0x756e6547, 0x6c65746e, 0x49656e69⟩ else intelAvx2 leaf,
    by decide +kernel⟩

/-- C65, what holds: the decision depends on leaves 0, 1 and 7 only. -/
theorem C65_leaves_partial {cpuid cpuid' : UInt32 → CpuidResult} (h0 : cpuid 0 = cpuid' 0)
    (h1 : (cpuid 1).edx = (cpuid' 1).edx) (h7 : (cpuid 7).ebx = (cpuid' 7).ebx) :
    CpuInfo.get (.x86 cpuid) = CpuInfo.get (.x86 cpuid') := by
  unfold CpuInfo.get CpuInfo.get_x86
  simp only [h0, h1, h7]

/-- AVX2 instructions can be executed: leaf 7, which reports them, exists, and the operating system
saves the AVX registers (leaf 1, ecx bit 27). -/
def Usable (cpuid : UInt32 → CpuidResult) : Prop :=
  7 ≤ (cpuid 0).eax.toNat ∧ (cpuid 1).ecx.toNat.testBit 27 = true

/-- C65, exactly the processors it fails on: x86 processors of another manufacturer than AMD with
SSE2 whose answer for leaf 7 has the bit of AVX2, although there is no leaf 7 or the operating
system does not save the registers. -/
theorem C65_exact_partial (cpu : Cpu) :
    (cpu.set = .avx2 ∧ ¬ ∃ cpuid, cpu = .x86 cpuid ∧ Usable cpuid) ↔
    ∃ cpuid, cpu = .x86 cpuid ∧ (cpuid 0).eax ≠ 0 ∧ ReportsSse2 cpuid ∧ ReportsAvx2 cpuid ∧
      ¬ IsAmd cpuid ∧ ((cpuid 0).eax.toNat < 7 ∨ (cpuid 1).ecx.toNat.testBit 27 = false) := by
  rw [(C53_selection cpu).1]
  constructor
  · rintro ⟨⟨cpuid, rfl, h0, h1, h2, h3⟩, hu⟩
    refine ⟨cpuid, rfl, h0, h1, h2, h3, ?_⟩
    by_contra hc
    rw [not_or, Nat.not_lt, Bool.not_eq_false] at hc
    exact hu ⟨cpuid, rfl, hc⟩
  · rintro ⟨cpuid, rfl, h0, h1, h2, h3, h4⟩
    refine ⟨⟨cpuid, rfl, h0, h1, h2, h3⟩, ?_⟩
    rintro ⟨cpuid', he, hu⟩
    obtain rfl := Cpu.x86.inj he
    rcases h4 with h4 | h4
    · exact absurd hu.1 (Nat.not_le.mpr h4)
    · rw [hu.2] at h4; exact absurd h4 (by decide)

/-- C65 holds on every processor and operating system that clear the bit of AVX2 where AVX2 cannot
be used. -/
theorem C65_cleared_partial {cpu : Cpu}
    (hz : ∀ cpuid, cpu = .x86 cpuid → ¬ Usable cpuid → (cpuid 7).ebx.toNat.testBit 5 = false)
    (h : cpu.set = .avx2) : ∃ cpuid, cpu = .x86 cpuid ∧ Usable cpuid := by
  obtain ⟨cpuid, rfl, -, -, h2, -⟩ := (C53_selection cpu).1.mp h
  refine ⟨cpuid, rfl, ?_⟩
  by_contra hu
  have := hz cpuid rfl hu
  unfold ReportsAvx2 at h2
  rw [this] at h2
  exact absurd h2 (by decide)

/-- A processor on which AVX2 is selected and usable. -/
example : ∃ cpuid, Usable cpuid ∧ (Cpu.x86 cpuid).set = .avx2 :=
  ⟨fun leaf => if leaf = 1 then ⟨0, 0, 0x08000000, 0x04000000⟩ else intelAvx2 leaf,
    by unfold Usable; decide +kernel, by decide +kernel⟩

/-! ## C54: one-time initialisation -/

section
variable {t : Target} {impls : InstructionSet → Impl} {cpu : Cpu} {feature : Bool}
  {prog : Nat → List Op} {n : Nat} {s : Sys}

/-- C54: in every reachable state the context has been created at most once, exactly once as soon
as a call that needs it has been answered, and all threads using a context use the same one. -/
theorem C54_initialised_once (h : Steps t impls cpu n (Sys.init feature prog) s) :
    s.inits ≤ 1 ∧
    (∀ e ∈ s.history, e.op.NeedsContext → s.inits = 1) ∧
    (∀ i i' op op' ctx ctx', (s.threads i).pc = .working op ctx →
      (s.threads i').pc = .working op' ctx' → ctx = ctx' ∧ Context.new cpu = .ok ctx) := by
  have hI := Inv.reachable h
  refine ⟨?_, ?_, ?_⟩
  · rw [hI.inits]; split <;> omega
  · intro e he hn
    obtain ⟨ctx, hc⟩ := hI.used e he hn
    rw [hI.inits, hc]
  · intro i i' op op' ctx ctx' h1 h2
    have e1 := hI.uses i op ctx (s.threads i).todo (by rw [← h1])
    have e2 := hI.uses i' op' ctx' (s.threads i').todo (by rw [← h2])
    rw [e1] at e2
    cases e2
    exact ⟨rfl, hI.ready _ e1⟩

/-- C54: never more than one thread runs the initialiser. -/
theorem C54_exclusive (h : Steps t impls cpu n (Sys.init feature prog) s) {i i' : Nat} {op op' : Op}
    (h1 : (s.threads i).pc = .initialising op) (h2 : (s.threads i').pc = .initialising op') :
    i = i' := by
  have hI := Inv.reachable h
  have e1 := hI.init i op (s.threads i).todo (by rw [← h1])
  have e2 := hI.init i' op' (s.threads i').todo (by rw [← h2])
  rw [e1] at e2
  cases e2
  rfl

/-- C54: no deadlock, and no endless waiting: with finitely many threads every execution can be
continued until all calls are answered, and has at most four steps per call. -/
theorem C54_completes {N : Nat} (hN : ∀ i, N ≤ i → prog i = [])
    (h : Steps t impls cpu n (Sys.init feature prog) s) :
    n ≤ sumTo N (fun i => 4 * (prog i).length) ∧
    ((∃ s', Step t impls cpu s s') ∨ ∀ i, doneBy s.history i = prog i) := by
  have hI := Inv.reachable h
  have hb := h.bounded (N := N) (fun i hi => by simp [Sys.init, Thread.work, hN i hi])
  refine ⟨?_, ?_⟩
  · have := hb.1
    have e : sumTo N (fun i => ((Sys.init feature prog).threads i).work) =
        sumTo N (fun i => 4 * (prog i).length) := by
      apply sumTo_congr
      intro i _
      simp [Sys.init, Thread.work]
    omega
  · by_cases hw : ∃ i, (s.threads i).work ≠ 0
    · obtain ⟨i, hi⟩ := hw
      exact .inl (hI.progress hi)
    · right
      intro i
      have hz : (s.threads i).work = 0 := Classical.not_not.1 fun h => hw ⟨i, h⟩
      obtain ⟨h1, h2⟩ := work_zero hz
      have := hI.order i
      rw [h1, h2] at this
      simpa [Pc.current] using this.symm

/-- Two threads, both of which need the context. -/
def exProg : Nat → List Op
  | 0 => [.describe, .convert exEncode]
  | 1 => [.testSet "x86", .convert exDecode]
  | _ => []

/-- A non-trivial execution: both threads ask for the context, the second one initialises it. -/
example : ∃ n s, Steps .x64 crate plainCpu n (Sys.init true exProg) s ∧
    s.inits = 1 ∧ (∃ e ∈ s.history, e.op.NeedsContext) := by
  obtain ⟨ctx, hc, -⟩ := context_new plainCpu
  let prog : Nat → List Op := exProg
  have s0 : Steps .x64 crate plainCpu 0 (Sys.init true prog) _ := .refl _
  have s1 := s0.tail (.ask 0 [.convert exEncode] rfl)
  have s2 := s1.tail (.testSet 1 "x86" [.convert exDecode] rfl)
  have s3 := s2.tail (.enter 1 exDecode [] rfl
    (by rw [validated_eq, decide_eq_true]; exact ⟨exDecode_valid.src_legal, exDecode_valid.dst_legal⟩))
  have s4 := s3.tail (.claim 1 (.convert exDecode) [] rfl rfl)
  have s5 := s4.tail (.publish 1 (.convert exDecode) [] ctx rfl rfl hc)
  have s6 := s5.tail (.get 0 .describe [.convert exEncode] ctx rfl rfl)
  have s7 := s6.tail (.run 0 .describe [.convert exEncode] ctx rfl)
  exact ⟨_, _, s7, rfl, _, List.mem_append_right _ (List.mem_singleton.2 rfl), trivial⟩

/-! ## C55: history independence -/

/-- C55: whatever the threads did before, each call is answered as the function `answer` of its
arguments, the processor and (in a build with the test hook) the last instruction set requested. -/
theorem C55_history (h : Steps t impls cpu n (Sys.init feature prog) s) {k : Nat} {e : Event}
    (he : s.history[k]? = some e) :
    e.res = answer t impls cpu (hookAfter feature (s.history.take k)) e.op :=
  (Inv.reachable h).answers k e he

/-- C55: in a normal build the same conversion gives the same result in any two executions of any
two programs, at any time and in any thread. -/
theorem C55_history_independent {prog' : Nat → List Op} {n' : Nat} {s' : Sys}
    (h : Steps t impls cpu n (Sys.init false prog) s)
    (h' : Steps t impls cpu n' (Sys.init false prog') s') {e e' : Event} {c : Call}
    (he : e ∈ s.history) (he' : e' ∈ s'.history) (hc : e.op = .convert c)
    (hc' : e'.op = .convert c) :
    e.res = .converted (convert t impls cpu c) ∧ e'.res = e.res := by
  obtain ⟨k, hk⟩ := List.mem_iff_getElem?.1 he
  obtain ⟨k', hk'⟩ := List.mem_iff_getElem?.1 he'
  have h1 := C55_history h hk
  have h2 := C55_history h' hk'
  rw [hc] at h1
  rw [hc'] at h2
  exact ⟨h1, h2.trans h1.symm⟩

end

/-- C55, idempotence: a conversion repeated on its own output, successful or not, gives the same
answer and leaves the output unchanged. Holds for all kernels. -/
theorem C55_idempotent {t : Target} {impls : InstructionSet → Impl} {cpu : Cpu}
    {hook : Option Int} {c : Call} {r : Except ErrorKind Unit} {out : List Buf}
    (h : convertHook t impls cpu hook c = .ok (r, out)) :
    convertHook t impls cpu hook { c with dst_buffers := out } = .ok (r, out) := by
  unfold convertHook at h ⊢
  cases hc : Context.new cpu with
  | error e => rw [hc] at h; cases h
  | ok ctx =>
    rw [hc] at h
    exact convert_image_idem h

/-- Its hypothesis is met by a conversion that stores something. -/
example : ∃ r out, convertHook .x64 crate plainCpu none exEncode = .ok (r, out) := by
  have h := (Runs.crate (cpu := plainCpu) exEncode_valid (.of_ne (by decide))).stores
  exact ⟨_, _, h⟩

/-! ## C56: describe_acceleration -/

/-- What a call does depends on the instruction set of the table and on its kernels only. -/
theorem table_congr {t : Target} {impls impls' : InstructionSet → Impl} {set : InstructionSet}
    {tb tb' : DispatchTable} (hT : TableFor set tb) (hT' : TableFor set tb')
    (hi : impls set = impls' set) (c : Call) :
    convert_image t impls tb c.width c.height c.src_format c.src_strides c.src_buffers
      c.dst_format c.dst_strides c.dst_buffers =
    convert_image t impls' tb' c.width c.height c.src_format c.src_strides c.src_buffers
      c.dst_format c.dst_strides c.dst_buffers := by
  rw [convert_image, convert_image]
  by_cases hl : Spec.LegalCall c
  · by_cases hs : Spec.Supported c.src_format.pixel_format c.dst_format.pixel_format
    · obtain ⟨r, k1, -, e1⟩ := convert_supported (t := t) (impls := impls) (ss := c.src_strides)
        (sb := c.src_buffers) (ds := c.dst_strides) (dl := dstSlices c.dst_buffers) hT hl.1 hl.2 hs
      obtain ⟨r', k2, -, e2⟩ := convert_supported (t := t) (impls := impls') (ss := c.src_strides)
        (sb := c.src_buffers) (ds := c.dst_strides) (dl := dstSlices c.dst_buffers) hT' hl.1 hl.2 hs
      rw [e1, e2, hi, key_inj _ _ (k1.trans k2.symm)]
    · rw [convert_unsupported hT hl.1 hl.2 hs, convert_unsupported hT' hl.1 hl.2 hs]
  · have hl' : ¬ Spec.Legal c.src_format c.width c.height ∨
        ¬ Spec.Legal c.dst_format c.width c.height := by
      by_cases h1 : Spec.Legal c.src_format c.width c.height
      · exact .inr fun h2 => hl ⟨h1, h2⟩
      · exact .inl h1
    rw [convert_invalid hl', convert_invalid hl']

/-- C56: the text names the manufacturer and the instruction set; the instruction set named is the
one whose kernels are used: kernels of other sets are irrelevant for every conversion. -/
theorem C56_describe {t : Target} {impls : InstructionSet → Impl} {cpu : Cpu} {ctx : Context}
    (h : Context.new cpu = .ok ctx) :
    ∃ set, describe_acceleration ctx = "{cpu-manufacturer:" ++ manufacturerName (CpuInfo.get cpu).1 ++
      ",instruction-set:" ++ setName set ++ "}" ∧
    ∀ impls', impls' set = impls set → ∀ c, convert t impls' cpu c = convert t impls cpu c := by
  refine ⟨cpu.set, ?_, ?_⟩
  · have e1 : ∀ m : CpuManufacturer, m.debug = manufacturerName m := by intro m; cases m <;> rfl
    have e2 : ∀ m : InstructionSet, m.debug = setName m := by intro m; cases m <;> rfl
    have e := describe_eq h
    unfold describeText at e
    rw [e1, e2] at e
    exact e
  · intro impls' hi c
    obtain ⟨tb, hT, e⟩ := convert_table t impls cpu
    obtain ⟨tb', hT', e'⟩ := convert_table t impls' cpu
    rw [e, e']
    exact table_congr hT' hT hi c

example : ∃ ctx, Context.new (.x86 amdAvx2) = .ok ctx ∧
    describe_acceleration ctx = "{cpu-manufacturer:Amd,instruction-set:Sse2}" :=
  ⟨_, rfl, by decide +kernel⟩

/-- C56: the names are different, so the text determines both. -/
theorem C56_names_injective :
    (∀ a b : InstructionSet, setName a = setName b → a = b) ∧
    (∀ a b : CpuManufacturer, manufacturerName a = manufacturerName b → a = b) := by
  constructor
  · intro a b; cases a <;> cases b <;> simp [setName]
  · intro a b; cases a <;> cases b <;> simp [manufacturerName]

/-- C56: the manufacturer is the one of the vendor string. -/
theorem C56_manufacturer (cpuid : UInt32 → CpuidResult) :
    (CpuInfo.get (.x86 cpuid)).1 = if (cpuid 0).eax ≠ 0 then manufacturerOf cpuid else .unknown := by
  rw [CpuInfo.get, get_x86_eq]
  split <;> rfl

example : describeText (.x86 intelAvx2) = "{cpu-manufacturer:Intel,instruction-set:Avx2}" := by
  decide +kernel

/-! ## C62: concurrent conversions -/

/-- C62: conversions whose destinations are separate from each other and from all sources, run at
the same time with their memory accesses interleaved in any order (each gets enough turns to
finish): every destination holds what the conversion stores when it runs alone, everything else
keeps its value. -/
theorem C62_concurrent {t : Target} {impls : InstructionSet → Impl} {cpu : Cpu} {jobs : List Job}
    (hs : Separate jobs) (m : Regions) (schedule : List Nat)
    (hfair : ∀ (k : Nat) (j : Job), jobs[k]? = some j →
      (writesOf t impls cpu (j.call m)).length ≤ schedule.count k) :
    let m' := (Shared.run t impls cpu jobs schedule ⟨m, fun _ => 0⟩).mem
    (∀ (k : Nat) (j : Job), jobs[k]? = some j → ∀ r out,
      convert t impls cpu (j.call m) = .ok (r, out) → buffersIn m' j.dst = out) ∧
    (∀ r, (∀ (k : Nat) (j : Job), jobs[k]? = some j → r ∉ j.dst.map Prod.fst) → m' r = m r) := by
  intro m'
  have hP := (Progress.init (t := t) (impls := impls) (cpu := cpu) (jobs := jobs) m).run hs schedule
  refine ⟨?_, hP.frame⟩
  intro k j hj r out hc
  have hpos := Shared.run_pos hs schedule (Progress.init (t := t) (impls := impls) (cpu := cpu) m) hj
  have hf := hfair k j hj
  have hk : (Shared.run t impls cpu jobs schedule ⟨m, fun _ => 0⟩).pos k =
      (writesOf t impls cpu (j.call m)).length := by rw [hpos]; omega
  rw [convert_writes hc]
  have hd := hP.dst k j hj
  rw [hk, List.take_length] at hd
  apply List.ext_getElem?
  intro p
  unfold withMem
  rw [List.getElem?_mapIdx]
  show (buffersIn m' j.dst)[p]? = ((buffersIn m j.dst)[p]?).map _
  unfold buffersIn
  rw [List.getElem?_map, List.getElem?_map]
  cases hr : j.dst[p]? with
  | none => rfl
  | some r => 
    simp only [Option.map_some, Option.some.injEq, Buf.mk.injEq, true_and]
    exact hd p r hr

/-- C62: hence the order of execution is irrelevant. -/
theorem C62_order_irrelevant {t : Target} {impls : InstructionSet → Impl} {cpu : Cpu}
    {jobs : List Job} (hs : Separate jobs) (m : Regions) (a b : List Nat)
    (ha : ∀ (k : Nat) (j : Job), jobs[k]? = some j →
      (writesOf t impls cpu (j.call m)).length ≤ a.count k)
    (hb : ∀ (k : Nat) (j : Job), jobs[k]? = some j →
      (writesOf t impls cpu (j.call m)).length ≤ b.count k) :
    (Shared.run t impls cpu jobs a ⟨m, fun _ => 0⟩).mem =
      (Shared.run t impls cpu jobs b ⟨m, fun _ => 0⟩).mem := by
  have hA := (Progress.init (t := t) (impls := impls) (cpu := cpu) (jobs := jobs) m).run hs a
  have hB := (Progress.init (t := t) (impls := impls) (cpu := cpu) (jobs := jobs) m).run hs b
  funext r
  by_cases hr : ∀ (k : Nat) (j : Job), jobs[k]? = some j → r ∉ j.dst.map Prod.fst
  · rw [hA.frame r hr, hB.frame r hr]
  · simp only [Classical.not_forall, Classical.not_not] at hr
    obtain ⟨k, j, hj, hm⟩ := hr
    obtain ⟨q, hq, rfl⟩ := List.mem_map.1 hm
    obtain ⟨p, hp⟩ := List.mem_iff_getElem?.1 hq
    rw [hA.dst k j hj p q hp, hB.dst k j hj p q hp]
    have h1 := Shared.run_pos hs a (Progress.init (t := t) (impls := impls) (cpu := cpu) m) hj
    have h2 := Shared.run_pos hs b (Progress.init (t := t) (impls := impls) (cpu := cpu) m) hj
    have h3 := ha k j hj
    have h4 := hb k j hj
    rw [h1, h2]
    have e : ∀ N x : Nat, N ≤ x → min ((⟨m, fun _ => 0⟩ : Shared).pos k + x) N = N := by
      intro N x h; show min (0 + x) N = N; omega
    rw [e _ _ h3, e _ _ h4]

/-- Two conversions reading the same source region 0 into the regions 1 and 2. -/
def exJobs : List Job := [
  ⟨2, 2, ⟨.bgra, .rgb, 1⟩, none, [(0, 16)], ⟨.rgb, .rgb, 1⟩, none, [(1, 12)]⟩,
  ⟨2, 2, ⟨.bgra, .rgb, 1⟩, none, [(0, 16)], ⟨.i444, .bt601, 3⟩, none, [(2, 4), (3, 4), (4, 4)]⟩]

example : Separate exJobs := by
  have two : ∀ (k : Nat) (j : Job), exJobs[k]? = some j → k = 0 ∧ j = exJobs[0] ∨
      k = 1 ∧ j = exJobs[1] := by
    intro k j h
    rcases k with _ | _ | k
    · left; cases h; exact ⟨rfl, rfl⟩
    · right; cases h; exact ⟨rfl, rfl⟩
    · cases h
  refine ⟨?_, ?_, ?_⟩
  · intro k j h
    rcases two k j h with ⟨-, rfl⟩ | ⟨-, rfl⟩ <;> decide
  · intro k k' j j' h h'
    rcases two k j h with ⟨-, rfl⟩ | ⟨-, rfl⟩ <;> rcases two k' j' h' with ⟨-, rfl⟩ | ⟨-, rfl⟩ <;>
    decide
  · intro k k' j j' h h' hne
    rcases two k j h with ⟨rfl, rfl⟩ | ⟨rfl, rfl⟩ <;>
    rcases two k' j' h' with ⟨rfl, rfl⟩ | ⟨rfl, rfl⟩ <;>
    first
      | exact absurd rfl hne
      | decide

/-! ## C63: the test hook -/

theorem select_named (cpu : Cpu) (name : String) (hn : ¬ (name = "neon" ∧ cpu.set = .avx2))
    {ctx : Context} (h : Context.new cpu = .ok ctx) :
    TableFor (expectedSet cpu.set name) (select_table ctx (some (testSetValue name))) := by
  obtain ⟨tx, hx, fx⟩ := set_dispatch_table_ok .x86
  obtain ⟨ts, hs, fs⟩ := set_dispatch_table_ok .sse2
  obtain ⟨ta, ha, fa⟩ := set_dispatch_table_ok .avx2
  obtain ⟨tn, hn', fn⟩ := set_dispatch_table_ok .neon
  revert hn
  unfold Context.new at h
  unfold Cpu.set
  revert h
  rcases CpuInfo.get cpu with ⟨m, set⟩
  intro h hn
  have hv : name = "x86" ∨ name = "sse2" ∨ name = "avx2" ∨ name = "neon" ∨
      (testSetValue name = 2 ∧ namedSet name = none) := by
    by_cases h1 : name = "x86"
    · exact .inl h1
    by_cases h2 : name = "sse2"
    · exact .inr (.inl h2)
    by_cases h3 : name = "avx2"
    · exact .inr (.inr (.inl h3))
    by_cases h4 : name = "neon"
    · exact .inr (.inr (.inr (.inl h4)))
    refine .inr (.inr (.inr (.inr ⟨?_, ?_⟩)))
    · simp [testSetValue, h1, h2, h4]
    · unfold namedSet
      split <;> simp_all
  rcases hv with rfl | rfl | rfl | rfl | ⟨hv, hs'⟩ <;> cases set <;>
    simp only [hx, hs, ha, hn'] at h <;> cases h <;>
    first
      | exact absurd ⟨rfl, rfl⟩ hn
      | (simp only [expectedSet, hs', hv]; first | exact fx | exact fs | exact fa | exact fn)
      | exact fx
      | exact fs
      | exact fa
      | exact fn

/-- C63: after `initialize_with_instruction_set(name)` every conversion does what it does on a
processor whose best set is the named one if this processor offers it, and what it does by default
otherwise. Missing: the name `neon` on a processor with AVX2 (see `C63_counterexample`). -/
theorem C63_hook_partial {t : Target} {impls : InstructionSet → Impl} {cpu : Cpu} (name : String)
    (hn : ¬ (name = "neon" ∧ cpu.set = .avx2)) {cpu' : Cpu}
    (hc : cpu'.set = expectedSet cpu.set name) (c : Call) :
    convertHook t impls cpu (some (testSetValue name)) c = convert t impls cpu' c := by
  obtain ⟨ctx, h1, -⟩ := context_new cpu
  obtain ⟨tb', hT', e'⟩ := convert_table t impls cpu'
  have e : convertHook t impls cpu (some (testSetValue name)) c =
      convert_image t impls (select_table ctx (some (testSetValue name))) c.width c.height
        c.src_format c.src_strides c.src_buffers c.dst_format c.dst_strides c.dst_buffers := by
    rw [convertHook, h1]; rfl
  rw [e, e']
  exact table_congr (select_named cpu name hn h1) (hc ▸ hT') rfl c

/-- A processor for every instruction set, as its hypothesis asks for. -/
example (set : InstructionSet) : ∃ cpu : Cpu, cpu.set = set := by
  cases set with
  | x86 => exact ⟨.other, by decide⟩
  | sse2 => exact ⟨.x86 amdAvx2, by decide +kernel⟩
  | avx2 => exact ⟨.x86 intelAvx2, by decide +kernel⟩
  | neon => exact ⟨.aarch64 true, by decide⟩

/-- C63, the remaining case: on every processor with AVX2 asking for `neon` makes every conversion run
as on a processor that only has SSE2. -/
theorem C63_neon {t : Target} {impls : InstructionSet → Impl} {cpu cpu' : Cpu}
    (ha : cpu.set = .avx2) (hc : cpu'.set = .sse2) (c : Call) :
    convertHook t impls cpu (some (testSetValue "neon")) c = convert t impls cpu' c := by
  obtain ⟨ta, hta, fa⟩ := set_dispatch_table_ok .avx2
  obtain ⟨ts, hs, fs⟩ := set_dispatch_table_ok .sse2
  obtain ⟨tx, hx, fx⟩ := set_dispatch_table_ok .x86
  have hctx : Context.new cpu =
      .ok ⟨(CpuInfo.get cpu).1, .avx2, ta, [some tx, some ts, none]⟩ := by
    unfold Context.new
    unfold Cpu.set at ha
    rcases hg : CpuInfo.get cpu with ⟨m, set⟩
    rw [hg] at ha
    obtain rfl : set = .avx2 := ha
    simp only [hta, hs, hx]
    rfl
  obtain ⟨tb', hT', e'⟩ := convert_table t impls cpu'
  rw [e', convertHook, hctx]
  exact table_congr fs (hc ▸ hT') rfl c

/-- C63 fails: asking for `neon` on a processor with AVX2 makes every conversion run as on a
processor that only has SSE2, instead of the default AVX2. -/
theorem C63_counterexample : ∃ cpu : Cpu, expectedSet cpu.set "neon" = .avx2 ∧
    ∀ t impls c (cpu' : Cpu), cpu'.set = .sse2 →
      convertHook t impls cpu (some (testSetValue "neon")) c = convert t impls cpu' c :=
  have h : (Cpu.x86 intelAvx2).set = .avx2 := by decide +kernel
  ⟨.x86 intelAvx2, by rw [h]; decide, fun _ _ c _ hc => C63_neon h hc c⟩

/-- C63: the hook never changes which conversions are accepted or what a rejected call answers. -/
theorem C63_support {t : Target} {impls : InstructionSet → Impl} {cpu : Cpu} (hook : Option Int)
    (c : Call) (hc : ¬ (Spec.LegalCall c ∧
      Spec.Supported c.src_format.pixel_format c.dst_format.pixel_format)) :
    convertHook t impls cpu hook c = convert t impls cpu c := by
  obtain ⟨set, tb, hT, e⟩ := hook_table t impls cpu hook
  obtain ⟨tb', hT', e'⟩ := convert_table t impls cpu
  rw [e, e', convert_image, convert_image]
  by_cases hl : Spec.LegalCall c
  · have hs := fun h => hc ⟨hl, h⟩
    rw [convert_unsupported hT hl.1 hl.2 hs, convert_unsupported hT' hl.1 hl.2 hs]
  · have hl' : ¬ Spec.Legal c.src_format c.width c.height ∨
        ¬ Spec.Legal c.dst_format c.width c.height := by
      by_cases h1 : Spec.Legal c.src_format c.width c.height
      · exact .inr fun h2 => hl ⟨h1, h2⟩
      · exact .inl h1
    rw [convert_invalid hl', convert_invalid hl']

example : convertHook .x64 crate avx2Cpu (some 0) { exEncode with width := 3 } =
    convert .x64 crate avx2Cpu { exEncode with width := 3 } :=
  C63_support _ _ (by unfold Spec.LegalCall; decide +kernel)

/-- C63: before the first request the default routines are used. -/
theorem C63_default {t : Target} {impls : InstructionSet → Impl} {cpu : Cpu} (c : Call) :
    convertHook t impls cpu (hookAfter true []) c = convert t impls cpu c := by
  obtain ⟨ctx, h1, -⟩ := context_new cpu
  unfold convert convertHook
  rw [h1]
  rfl

/-- The name most recently passed to `initialize_with_instruction_set` in a list of completed calls. -/
def lastRequest (l : List Event) : Option String :=
  l.reverse.findSome? fun e => match e.op with
    | .testSet name => some name
    | _ => none

theorem hook_last (l : List Event) :
    hookAfter true l = some ((lastRequest l).elim (-1) testSetValue) := by
  have key : ∀ (l : List Event) (v : Int),
      l.foldl (fun v e => match e.op with | .testSet n => testSetValue n | _ => v) v =
        (lastRequest l).elim v testSetValue := by
    intro l
    induction l with
    | nil => exact fun _ => rfl
    | cons e l ih =>
      intro v
      rw [List.foldl_cons, ih]
      unfold lastRequest
      rw [List.reverse_cons, List.findSome?_append]
      cases List.findSome? _ l.reverse with
      | some n => rfl
      | none => cases h : e.op <;> simp [h]
  exact congrArg some (key l _)

theorem convert_set {t : Target} {impls : InstructionSet → Impl} {cpu cpu' : Cpu}
    (h : cpu.set = cpu'.set) (c : Call) : convert t impls cpu c = convert t impls cpu' c := by
  obtain ⟨tb, hT, e⟩ := convert_table t impls cpu
  obtain ⟨tb', hT', e'⟩ := convert_table t impls cpu'
  rw [e, e']
  exact table_congr hT (h ▸ hT') rfl c

/-- C63 for whole executions of any number of threads in a build with the hook: a completed conversion
did what it does on a processor whose best set is the one named by the most recently completed
request, or by default if there was none. Missing: as in `C63_hook_partial`. -/
theorem C63_history_partial {t : Target} {impls : InstructionSet → Impl} {cpu cpu' : Cpu}
    {prog : Nat → List Op} {n : Nat} {s : Sys} (h : Steps t impls cpu n (Sys.init true prog) s)
    {k : Nat} {e : Event} (he : s.history[k]? = some e) {c : Call} (hc : e.op = .convert c)
    (hn : ¬ (lastRequest (s.history.take k) = some "neon" ∧ cpu.set = .avx2))
    (hs : cpu'.set = (lastRequest (s.history.take k)).elim cpu.set (expectedSet cpu.set)) :
    e.res = .converted (convert t impls cpu' c) := by
  have ha := C55_history h he
  rw [hc] at ha
  rw [ha]
  show Result.converted (convertHook t impls cpu (hookAfter true (s.history.take k)) c) = _
  congr 1
  cases hl : lastRequest (s.history.take k) with
  | none =>
    rw [hl] at hs
    have e0 : hookAfter true (s.history.take k) = hookAfter true [] := by
      rw [hook_last, hl]; rfl
    rw [e0, C63_default]
    exact convert_set hs.symm c
  | some name =>
    rw [hl] at hs hn
    rw [hook_last, hl]
    exact C63_hook_partial name (fun h => hn ⟨by rw [h.1], h.2⟩) hs c

/-- C63 for whole executions, without exception: the set used is the one named by the most recently
completed request, except SSE2 for `neon` on a processor with AVX2. -/
theorem C63_history {t : Target} {impls : InstructionSet → Impl} {cpu cpu' : Cpu}
    {prog : Nat → List Op} {n : Nat} {s : Sys} (h : Steps t impls cpu n (Sys.init true prog) s)
    {k : Nat} {e : Event} (he : s.history[k]? = some e) {c : Call} (hc : e.op = .convert c)
    (hs : cpu'.set =
      if lastRequest (s.history.take k) = some "neon" ∧ cpu.set = .avx2 then .sse2
      else (lastRequest (s.history.take k)).elim cpu.set (expectedSet cpu.set)) :
    e.res = .converted (convert t impls cpu' c) := by
  by_cases hn : lastRequest (s.history.take k) = some "neon" ∧ cpu.set = .avx2
  · rw [if_pos hn] at hs
    have ha := C55_history h he
    rw [hc] at ha
    rw [ha]
    show Result.converted (convertHook t impls cpu (hookAfter true (s.history.take k)) c) = _
    rw [hook_last, hn.1]
    exact congrArg _ (C63_neon hn.2 hs c)
  · rw [if_neg hn] at hs
    exact C63_history_partial h he hc hn hs

/-- In the execution shown with C54 the request of thread 1 governs a later conversion. -/
example : lastRequest [⟨1, .testSet "sse2", .unit⟩, ⟨0, .describe, .unit⟩, ⟨1, .testSet "x86", .unit⟩,
      ⟨0, .describe, .unit⟩] = some "x86" ∧
    (some "x86").elim (Cpu.x86 intelAvx2).set (expectedSet (Cpu.x86 intelAvx2).set) =
      (Cpu.other).set := by decide +kernel

example : expectedSet .avx2 "sse2" = .sse2 ∧ expectedSet .sse2 "avx2" = .sse2 ∧
    expectedSet .neon "x86" = .x86 ∧ expectedSet .avx2 "mmx" = .avx2 := by decide

end Verif
