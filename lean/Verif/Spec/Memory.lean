import Verif.Model.Memory
import Verif.Spec.Valid
import Verif.Spec.Room
/-!
# Images in one memory
-/

namespace Verif

open Spec (dims strideOf)

/-- Address `a` belongs to plane `i` of the image a task stores. -/
def Task.PlaneAt (j : Task) (i a : Nat) : Prop :=
  ∃ p row rows, j.dst[i]? = some p ∧
    (dims j.dst_format.pixel_format j.dst_format.num_planes.toNat j.width.toNat j.height.toNat)[i]? =
      some (row, rows) ∧
    ∃ y, y < rows ∧ ∃ x, x < row ∧ a = p.addr + (strideOf j.dst_strides i row * y + x)

/-- Address `a` belongs to the image a task stores. -/
def Task.ImageAt (j : Task) (a : Nat) : Prop := ∃ i, j.PlaneAt i a

/-- Address `a` belongs to the image a task converts. -/
def Task.SourceAt (j : Task) (a : Nat) : Prop :=
  ∃ i p row rows, j.src[i]? = some p ∧
    (dims j.src_format.pixel_format j.src_format.num_planes.toNat j.width.toNat j.height.toNat)[i]? =
      some (row, rows) ∧
    ∃ y, y < rows ∧ ∃ x, x < row ∧ a = p.addr + (strideOf j.src_strides i row * y + x)

/-- No byte is used for two things: it belongs to at most one plane of one stored image, and to no
converted image if it belongs to a stored image. The *buffers* may overlap, those of the source and
those of the destination too. -/
structure Apart (tasks : List Task) : Prop where
  planes : ∀ (k : Nat) (j : Task), tasks[k]? = some j →
    ∀ i i' a, j.PlaneAt i a → j.PlaneAt i' a → i = i'
  images : ∀ (k k' : Nat) (j j' : Task), tasks[k]? = some j → tasks[k']? = some j' →
    ∀ a, j.ImageAt a → j'.ImageAt a → k = k'
  sources : ∀ (k k' : Nat) (j j' : Task), tasks[k]? = some j → tasks[k']? = some j' →
    ∀ a, j.ImageAt a → ¬ j'.SourceAt a

/-- Every task is a valid call, with the room behind a Bgr source that the vector code needs. -/
def Ready (t : Target) (set : InstructionSet) (tasks : List Task) (m : Memory) : Prop :=
  ∀ (k : Nat) (j : Task), tasks[k]? = some j →
    Spec.Valid t (j.call m) ∧ Spec.VectorRoom set (j.call m)

end Verif
