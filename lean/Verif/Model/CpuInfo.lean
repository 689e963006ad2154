import Verif.Model.Basic
/-!
# `src/cpu_info.rs`
-/

namespace Verif

/-- cpu_info.rs:24-30. -/
inductive CpuManufacturer where
  | unknown | intel | amd
  deriving DecidableEq, Repr

/-- cpu_info.rs:33-41. -/
inductive InstructionSet where
  | x86 | sse2 | avx2 | neon
  deriving DecidableEq, Repr

/-- Result registers of the CPUID instruction (core::arch::x86::CpuidResult). -/
structure CpuidResult where
  eax : UInt32
  ebx : UInt32
  ecx : UInt32
  edx : UInt32
  deriving DecidableEq, Repr

/-- The processor the program runs on, as far as it is observable by cpu_info.rs: the
architecture family selected at compile time plus CPUID or the result of the NEON probe. -/
inductive Cpu where
  /-- target_arch x86 or x86_64 -/
  | x86 (cpuid : UInt32 → CpuidResult)
  /-- target_arch aarch64 -/
  | aarch64 (neon : Bool)
  /-- everything else (wasm32) -/
  | other

namespace CpuInfo

/-- cpu_info.rs:44-46. -/
def four_cc (a b c d : UInt8) : UInt32 :=
  (d.toUInt32 <<< 24) ||| (c.toUInt32 <<< 16) ||| (b.toUInt32 <<< 8) ||| a.toUInt32

/-- Byte `i` of an ASCII byte-string literal `b"..."`. -/
def byteOf (s : List Char) (i : Nat) : UInt8 :=
  match s[i]? with
  | some c => UInt8.ofNat c.toNat
  | none => 0

/-- cpu_info.rs:60-64 (`features = [eax, ebx, ecx, edx]`, cpu_info.rs:49-57). -/
def compare_cpu_manufacturer (f : CpuidResult) (name : List Char) : UInt32 :=
  (f.ebx - four_cc (byteOf name 0) (byteOf name 1) (byteOf name 2) (byteOf name 3))
  ||| (f.edx - four_cc (byteOf name 4) (byteOf name 5) (byteOf name 6) (byteOf name 7))
  ||| (f.ecx - four_cc (byteOf name 8) (byteOf name 9) (byteOf name 10) (byteOf name 11))

/-- cpu_info.rs:67-103 (x86 / x86_64). -/
def get_x86 (cpuid : UInt32 → CpuidResult) : CpuManufacturer × InstructionSet :=
  let f0 := cpuid 0
  if f0.eax != 0 then
    let manufacturer : CpuManufacturer :=
      if compare_cpu_manufacturer f0 "GenuineIntel".toList == 0 then .intel
      else if compare_cpu_manufacturer f0 "AuthenticAMD".toList == 0
          || compare_cpu_manufacturer f0 "AMDisbetter!".toList == 0 then .amd
      else .unknown
    let f1 := cpuid 1
    if f1.edx &&& ((1 : UInt32) <<< 26) != 0 then
      let ebx : UInt32 := match manufacturer with
        | .amd => 0
        | _ => (cpuid 7).ebx
      (manufacturer, if ebx &&& ((1 : UInt32) <<< 5) == 0 then .sse2 else .avx2)
    else (manufacturer, .x86)
  else (.unknown, .x86)

/-- cpu_info.rs:67-120: the three conditional-compilation variants of `get`. -/
def get : Cpu → CpuManufacturer × InstructionSet
  | .x86 cpuid => get_x86 cpuid
  | .aarch64 neon => (.unknown, if neon then .neon else .x86)
  | .other => (.unknown, .x86)

end CpuInfo

end Verif
