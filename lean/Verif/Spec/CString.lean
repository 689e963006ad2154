import Verif.Model.CString
/-!
# What a C program has to observe when it uses strings of the library
-/

namespace Verif.Spec

open CApi

/-- The rules. `live`: the strings that have not been released, with the address of each; `n`: the
number of strings obtained so far; `len`: the length of the text; `taken`: addresses the program
uses for something else. A string is released at most once, and is not used afterwards; the text may
be changed, but must not become shorter (no NUL character is stored in it). The allocator does not
give out an address twice at the same time. -/
def Disciplined (len : Nat) (taken : Nat → Prop) : (live : List (Nat × Nat)) → (n : Nat) →
    List StringAct → Prop
  | _, _, [] => True
  | live, n, .describe place :: rest =>
    (place ≠ 0 ∧ ¬ taken place ∧ ∀ q ∈ live, q.2 ≠ place) ∧
      Disciplined len taken ((n, place) :: live) (n + 1) rest
  | live, n, .release i :: rest =>
    (∃ p, (i, p) ∈ live) ∧ Disciplined len taken (live.filter fun q => q.1 != i) n rest
  | live, n, .releaseNull :: rest => Disciplined len taken live n rest
  | live, n, .poke i k b :: rest =>
    ((∃ p, (i, p) ∈ live) ∧ k < len ∧ b ≠ 0) ∧ Disciplined len taken live n rest

/-- The strings a program has not released in the end: number and address. -/
def unreleased : (live : List (Nat × Nat)) → (n : Nat) → List StringAct → List (Nat × Nat)
  | live, _, [] => live
  | live, n, .describe place :: rest => unreleased ((n, place) :: live) (n + 1) rest
  | live, n, .release i :: rest => unreleased (live.filter fun q => q.1 != i) n rest
  | live, n, .releaseNull :: rest => unreleased live n rest
  | live, n, .poke _ _ _ :: rest => unreleased live n rest

/-- The program stores something in string `i`. -/
def Pokes (i : Nat) (prog : List StringAct) : Prop := ∃ k b, StringAct.poke i k b ∈ prog

end Verif.Spec
