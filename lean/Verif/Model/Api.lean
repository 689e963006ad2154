import Verif.Model.Lib
/-!
# The library as seen by a program

`convert_image` together with the lookup of the global context (lib.rs:521-524, 934).  One-time
initialisation and histories of calls are in `Verif/Model/Global.lean`; here the context is the one
`Context::new` creates for the processor.
-/

namespace Verif

/-- The arguments of one call of `convert_image` (lib.rs:891-900). -/
structure Call where
  width : UInt32
  height : UInt32
  src_format : ImageFormat
  src_strides : Option (List Nat)
  src_buffers : List Buf
  dst_format : ImageFormat
  dst_strides : Option (List Nat)
  dst_buffers : List Buf

/-- Outcome of a call: a fault (undefined behaviour or panic), or the returned value together with
the destination buffers after the call. -/
abbrev Outcome := R (Except ErrorKind Unit × List Buf)

/-- lib.rs:891-972 in a build with the feature `test_instruction_sets`; `hook` is the value of
`TEST_SET` (`none`: the feature is disabled). -/
def convertHook (t : Target) (impls : InstructionSet → Impl) (cpu : Cpu) (hook : Option Int)
    (c : Call) : Outcome := do
  let ctx ← Context.new cpu
  convert_image t impls (select_table ctx hook) c.width c.height c.src_format c.src_strides
    c.src_buffers c.dst_format c.dst_strides c.dst_buffers

/-- lib.rs:891-972 in a normal build, on processor `cpu`. -/
def convert (t : Target) (impls : InstructionSet → Impl) (cpu : Cpu) (c : Call) : Outcome :=
  convertHook t impls cpu none c

end Verif
