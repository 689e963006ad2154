import Verif.Model.CpuInfo
/-!
# Processors and instruction sets, from the vendor manuals and the documentation
-/

namespace Verif

/-- Bytes of a CPUID register, lowest first. -/
def regBytes (r : UInt32) : List Nat :=
  [r.toNat % 256, r.toNat / 256 % 256, r.toNat / 65536 % 256, r.toNat / 16777216]

/-- The vendor string of a processor: leaf 0, registers ebx, edx, ecx. -/
def vendor (cpuid : UInt32 → CpuidResult) : List Nat :=
  regBytes (cpuid 0).ebx ++ regBytes (cpuid 0).edx ++ regBytes (cpuid 0).ecx

/-- ASCII codes of a string. -/
def ascii (s : String) : List Nat := s.toList.map Char.toNat

/-- The processor calls itself an AMD processor. -/
def IsAmd (cpuid : UInt32 → CpuidResult) : Prop :=
  vendor cpuid = ascii "AuthenticAMD" ∨ vendor cpuid = ascii "AMDisbetter!"

/-- Leaf 1, edx bit 26. -/
def ReportsSse2 (cpuid : UInt32 → CpuidResult) : Prop := (cpuid 1).edx.toNat.testBit 26 = true

/-- Leaf 7, ebx bit 5. -/
def ReportsAvx2 (cpuid : UInt32 → CpuidResult) : Prop := (cpuid 7).ebx.toNat.testBit 5 = true

instance (cpuid : UInt32 → CpuidResult) : Decidable (IsAmd cpuid) := by
  unfold IsAmd; infer_instance
instance (cpuid : UInt32 → CpuidResult) : Decidable (ReportsSse2 cpuid) := by
  unfold ReportsSse2; infer_instance
instance (cpuid : UInt32 → CpuidResult) : Decidable (ReportsAvx2 cpuid) := by
  unfold ReportsAvx2; infer_instance

/-- The manufacturer as a function of the vendor string. -/
def manufacturerOf (cpuid : UInt32 → CpuidResult) : CpuManufacturer :=
  if vendor cpuid = ascii "GenuineIntel" then .intel
  else if IsAmd cpuid then .amd else .unknown

/-- The documented names of the instruction sets. -/
def setName : InstructionSet → String
  | .x86 => "X86"
  | .sse2 => "Sse2"
  | .avx2 => "Avx2"
  | .neon => "Neon"

/-- The documented names of the manufacturers. -/
def manufacturerName : CpuManufacturer → String
  | .unknown => "Unknown"
  | .intel => "Intel"
  | .amd => "Amd"

/-- Instruction sets by the names `initialize_with_instruction_set` knows. -/
def namedSet : String → Option InstructionSet
  | "x86" => some .x86
  | "sse2" => some .sse2
  | "avx2" => some .avx2
  | "neon" => some .neon
  | _ => none

/-- The sets a processor with a given best set offers. -/
def Offers : (best named : InstructionSet) → Bool
  | _, .x86 => true
  | .sse2, .sse2 | .avx2, .sse2 | .avx2, .avx2 | .neon, .neon => true
  | _, _ => false

/-- The set one expects after asking for `name`: the named one if the processor offers it, the
default otherwise. -/
def expectedSet (best : InstructionSet) (name : String) : InstructionSet :=
  match namedSet name with
  | some s => if Offers best s then s else best
  | none => best

end Verif
