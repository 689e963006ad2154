import Verif.Model.CApi
/-!
# `src/lib.rs`: strings handed to C programs (lib.rs:1015-1031)

The heap is a list of live blocks: address and bytes. Address 0 is the null pointer. A string that
was turned into a raw pointer is a block that holds exactly the text and the NUL character (`CString`
keeps its bytes in a boxed slice).
-/

namespace Verif.CApi

/-- Live blocks of the heap: address, contents. -/
abbrev Heap := List (Nat × List Nat)

/-- The block with a given address. -/
def Heap.at (H : Heap) (p : Nat) : Option (List Nat) :=
  (H.find? fun b => b.1 == p).map (·.2)

/-- The ways in which a heap can be misused. -/
inductive HeapFault where
  /-- There is no live block at the address. -/
  | dangling
  /-- An access behind the end of a block. -/
  | outside
  /-- A block is released with a size that is not its size. -/
  | wrongSize
  deriving DecidableEq, Repr

/-- lib.rs:1015-1024 with `CString::into_raw`. `place` is the address the allocator chooses. -/
def describe_string (place : Nat) (ctx : Context) (H : Heap) : Heap × Nat :=
  match dcp_describe_acceleration ctx with
  | none => (H, 0)
  | some s => ((place, s) :: H, place)

/-- `strlen`: number of bytes before the first NUL character. -/
def strlen (s : List Nat) : Except HeapFault Nat :=
  if 0 ∈ s then .ok (s.takeWhile (· ≠ 0)).length else .error .outside

/-- lib.rs:1026-1031. `CString::from_raw` measures the string with `strlen` and rebuilds the box with
that size; dropping it gives a block of that size back. -/
def dcp_unref_string (H : Heap) (p : Nat) : Except HeapFault Heap :=
  if p = 0 then .ok H
  else match H.at p with
    | none => .error .dangling
    | some s => do
      let n ← strlen s
      if n + 1 = s.length then .ok (H.filter fun b => b.1 != p) else .error .wrongSize

/-- What a C program may do with such strings. Strings are numbered in the order in which they were
obtained. -/
inductive StringAct where
  /-- Obtain a string; the allocator chooses the given address. -/
  | describe (place : Nat)
  /-- Release string number `i`. -/
  | release (i : Nat)
  /-- Release the null pointer. -/
  | releaseNull
  /-- `s[k] = b` (the pointer is not `const`). -/
  | poke (i k b : Nat)

/-- One action: the heap and the addresses of all strings obtained so far. -/
def StringAct.step (ctx : Context) (H : Heap) (ps : List Nat) :
    StringAct → Except HeapFault (Heap × List Nat)
  | .describe place =>
    let (H', p) := describe_string place ctx H
    .ok (H', ps ++ [p])
  | .release i => do return (← dcp_unref_string H (ps.getD i 0), ps)
  | .releaseNull => do return (← dcp_unref_string H 0, ps)
  | .poke i k b =>
    match H.at (ps.getD i 0) with
    | none => .error .dangling
    | some s =>
      if k < s.length then
        .ok (H.map fun c => if c.1 = ps.getD i 0 then (c.1, s.set k b) else c, ps)
      else .error .outside

/-- A C program. -/
def runStrings (ctx : Context) : Heap → List Nat → List StringAct →
    Except HeapFault (Heap × List Nat)
  | H, ps, [] => .ok (H, ps)
  | H, ps, a :: rest => do
    let (H', ps') ← a.step ctx H ps
    runStrings ctx H' ps' rest

end Verif.CApi
