import Verif.Model.Api
/-!
# Conversions running at the same time on shared memory

Memory is a set of regions (slices of different allocations, or disjoint slices of the same one).
A conversion refers to regions; it reads its sources and writes its destinations byte by byte, in
the order of the writes emitted by the kernels.  Simplification: byte accesses are atomic and
sequentially consistent, and at each of its steps a conversion computes its next write from the
*current* contents of its sources (so every interleaving of reads and writes of different
conversions is represented by a schedule of write steps).
-/

namespace Verif

/-- Contents of all regions: region number, byte index. -/
abbrev Regions := Nat → Nat → UInt8

/-- A conversion on shared memory: the arguments of `convert_image` (lib.rs:891-900) with each
buffer given by region number and length. -/
structure Job where
  width : UInt32
  height : UInt32
  src_format : ImageFormat
  src_strides : Option (List Nat)
  src : List (Nat × Nat)
  dst_format : ImageFormat
  dst_strides : Option (List Nat)
  dst : List (Nat × Nat)

/-- The buffers found in memory. -/
def buffersIn (m : Regions) (l : List (Nat × Nat)) : List Buf := l.map fun r => ⟨r.2, m r.1⟩

/-- The call a job makes when the memory is `m`. -/
def Job.call (j : Job) (m : Regions) : Call :=
  ⟨j.width, j.height, j.src_format, j.src_strides, buffersIn m j.src, j.dst_format, j.dst_strides,
    buffersIn m j.dst⟩

/-- The writes of a call, in order: none if it faults. -/
def writesOf (t : Target) (impls : InstructionSet → Impl) (cpu : Cpu) (c : Call) : List Write :=
  match Context.new cpu with
  | .error _ => []
  | .ok ctx =>
    match (convert_image_with t impls (select_table ctx none) c.width c.height c.src_format
        c.src_strides c.src_buffers c.dst_format c.dst_strides (dstSlices c.dst_buffers)).run with
    | .error _ => []
    | .ok (_, ws) => ws

/-- Write one byte to a region. -/
def Regions.put (m : Regions) (r i : Nat) (v : UInt8) : Regions :=
  fun r' i' => if r' = r ∧ i' = i then v else m r' i'

/-- Memory, and how many of its writes each job has performed. -/
structure Shared where
  mem : Regions
  pos : Nat → Nat

/-- One memory write of job number `k`; nothing happens if it is finished. -/
def Shared.step (t : Target) (impls : InstructionSet → Impl) (cpu : Cpu) (jobs : List Job)
    (s : Shared) (k : Nat) : Shared :=
  match jobs[k]? with
  | none => s
  | some j =>
    match (writesOf t impls cpu (j.call s.mem))[s.pos k]? with
    | none => s
    | some w =>
      ⟨match j.dst[w.plane]? with
        | none => s.mem
        | some r => s.mem.put r.1 w.idx w.val,
       fun i => if i = k then s.pos k + 1 else s.pos i⟩

/-- Run a schedule: the list of the jobs whose turn it is. -/
def Shared.run (t : Target) (impls : InstructionSet → Impl) (cpu : Cpu) (jobs : List Job) :
    List Nat → Shared → Shared
  | [], s => s
  | k :: ks, s => Shared.run t impls cpu jobs ks (s.step t impls cpu jobs k)

end Verif
