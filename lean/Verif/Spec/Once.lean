import Verif.Spec.Result
/-! # How often a byte may be stored -/

namespace Verif

open Spec (dims)

/-- The conversion whose stores overlap. -/
def Spec.Overlapping (set : InstructionSet) (c : Call) : Prop :=
  set = .avx2 ∧ c.src_format.pixel_format = .nv12 ∧ c.dst_format.pixel_format = .rgb ∧
    32 ≤ c.width.toNat

/-- Number of bytes of the destination image: lines times bytes of a line, over the planes. -/
def Spec.imageBytes (c : Call) : Nat :=
  ((dims c.dst_format.pixel_format c.dst_format.num_planes.toNat c.width.toNat c.height.toNat).map
    fun rc => rc.1 * rc.2).sum

end Verif
