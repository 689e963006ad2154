import Verif.Spec.Valid
/-!
# Calls that need aligned destination buffers
-/

namespace Verif.Spec

/-- The call stores chroma samples four at a time as words. -/
def WordStores (set : InstructionSet) (c : Call) : Prop :=
  set = .neon ∧ c.dst_format.pixel_format = .i420 ∧ 8 ≤ c.width.toNat

/-- The lines of the two chroma planes of an I420 image begin at multiples of 4; `a` are the addresses
of the buffers. -/
def ChromaAligned (a : Nat → Nat) (c : Call) : Prop :=
  ∀ i, i = 1 ∨ i = 2 → ∀ y, y < c.height.toNat / 2 →
    (a i + strideOf c.dst_strides i (c.width.toNat / 2) * y) % 4 = 0

end Verif.Spec
