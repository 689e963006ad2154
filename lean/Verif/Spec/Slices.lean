import Verif.Model.CSlices
/-!
# What Rust asks of a slice

The conditions of the documentation of `std::slice::from_raw_parts`.
-/

namespace Verif.Spec

/-- Number of bytes. -/
def sliceBytes (s : CApi.Slice) : Nat := s.len * s.elem

/-- "The total size `len * size_of::<T>()` of the slice must be no larger than `isize::MAX`, and adding
that size to `data` must not wrap around the address space." -/
def Permitted (t : Target) (s : CApi.Slice) : Prop :=
  sliceBytes s ≤ 2 ^ (t.bits - 1) - 1 ∧ s.addr + sliceBytes s ≤ 2 ^ t.bits

/-- The slice lies in an object of `n` bytes at address `a`. -/
def InObject (s : CApi.Slice) (a n : Nat) : Prop := a ≤ s.addr ∧ s.addr + sliceBytes s ≤ a + n

/-- Two slices have a byte in common. "The memory referenced by the returned slice must not be
accessed through any other pointer": this is excluded if one of them is a `&mut`. -/
def Overlap (s s' : CApi.Slice) : Prop :=
  ∃ a, (s.addr ≤ a ∧ a < s.addr + sliceBytes s) ∧ s'.addr ≤ a ∧ a < s'.addr + sliceBytes s'

/-- User programs have the lower half of the address space. -/
def LowerHalf (t : Target) (a : Nat) : Prop := a < 2 ^ (t.bits - 1)

end Verif.Spec
