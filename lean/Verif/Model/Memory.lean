import Verif.Model.Shared
/-!
# Conversions in one memory, with buffers that may overlap

A C program (lib.rs:1075-1178) may place the planes of an image, and the images of conversions running
at the same time, in the same memory in such a way that the *buffers* overlap although no byte belongs
to two images: chroma planes side by side, pictures side by side, fields of an interlaced frame. Here
memory is a function from addresses to bytes and a buffer is an address and a length. As in
`Model/Shared` a conversion performs its writes one after the other, byte by byte, and computes each
from the current contents of its sources; simplification: byte accesses are atomic and sequentially
consistent. The references the C functions form always overlap (C91); what a compiler may make of
overlapping references is left aside, an access is taken to act on the memory at its address. Lengths are
those of the memory the program provides, not the `isize::MAX` the C function claims (lib.rs:997); by
C58 and C81 this makes no difference for valid calls.
-/

namespace Verif

/-- Contents of the memory. -/
abbrev Memory := Nat → UInt8

/-- A buffer in memory: the address of its first byte and its length. -/
structure Place where
  addr : Nat
  len : Nat

/-- What a conversion sees of a buffer. -/
def Memory.buf (m : Memory) (p : Place) : Buf :=
  ⟨p.len, fun i => if i < p.len then m (p.addr + i) else 0⟩

/-- A conversion: the arguments of `convert_image` (lib.rs:891-900) with each buffer given by its
place. -/
structure Task where
  width : UInt32
  height : UInt32
  src_format : ImageFormat
  src_strides : Option (List Nat)
  src : List Place
  dst_format : ImageFormat
  dst_strides : Option (List Nat)
  dst : List Place

/-- The call a task makes when the memory is `m`. -/
def Task.call (j : Task) (m : Memory) : Call :=
  ⟨j.width, j.height, j.src_format, j.src_strides, j.src.map m.buf, j.dst_format, j.dst_strides,
    j.dst.map m.buf⟩

/-- Write one byte. -/
def Memory.put (m : Memory) (a : Nat) (v : UInt8) : Memory := fun a' => if a' = a then v else m a'

/-- Memory, and how many of its writes each task has performed. -/
structure Parallel where
  mem : Memory
  pos : Nat → Nat

/-- One memory write of task number `k`; nothing happens if it is finished. -/
def Parallel.step (t : Target) (impls : InstructionSet → Impl) (cpu : Cpu) (tasks : List Task)
    (s : Parallel) (k : Nat) : Parallel :=
  match tasks[k]? with
  | none => s
  | some j =>
    match (writesOf t impls cpu (j.call s.mem))[s.pos k]? with
    | none => s
    | some w =>
      ⟨match j.dst[w.plane]? with
        | none => s.mem
        | some p => s.mem.put (p.addr + w.idx) w.val,
       fun i => if i = k then s.pos k + 1 else s.pos i⟩

/-- Run a schedule: the list of the tasks whose turn it is. -/
def Parallel.run (t : Target) (impls : InstructionSet → Impl) (cpu : Cpu) (tasks : List Task) :
    List Nat → Parallel → Parallel
  | [], s => s
  | k :: ks, s => Parallel.run t impls cpu tasks ks (s.step t impls cpu tasks k)

end Verif
