import Verif.Model.X86Impl
import Verif.Model.Sse2
import Verif.Model.Avx2
import Verif.Model.Neon
import Verif.Model.Api
/-! # The kernels compiled into the library -/

namespace Verif

/-- convert_image/mod.rs:17-24 together with the paths in `set_dispatch_table!` (lib.rs:435-505): the
module whose functions are registered for each instruction set. -/
def crate : InstructionSet → Impl
  | .x86 => X86.impl
  | .sse2 => Sse2.impl
  | .avx2 => Avx2.impl
  | .neon => Neon.impl

end Verif
