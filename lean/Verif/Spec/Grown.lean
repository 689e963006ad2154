import Verif.Spec.Result
/-!
# Longer buffers
-/

namespace Verif.Spec

/-- The same buffers with bytes appended. -/
structure Grown (bufs bufs' : List Buf) : Prop where
  length : bufs'.length = bufs.length
  buf : ∀ (i : Nat) (b b' : Buf), bufs[i]? = some b → bufs'[i]? = some b' →
    b.len ≤ b'.len ∧ ∀ k, k < b.len → b'.bytes k = b.bytes k

end Verif.Spec
