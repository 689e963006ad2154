import Verif.Lemmas.Args
import Verif.Props.Pixels
/-!
# C74: packed strides may be left out, superfluous strides and buffers are ignored

`None`, `STRIDE_AUTO` and the explicit length of a packed line are three ways of saying the same, and
elements of the stride and buffer slices beyond the planes of the image have no influence. This
holds for every call, also for calls that fail, on every target, whatever the kernels do.
-/

namespace Verif

variable {t : Target} {impls : InstructionSet → Impl} {cpu : Cpu} {hook : Option Int} {c c' : Call}

/-- Only the distances between lines and the buffers of the planes matter: with the same destination
buffers, the outcome is the same. -/
theorem C74_arguments (h : c.SameArguments t c') (hd : c'.dst_buffers = c.dst_buffers) :
    convertHook t impls cpu hook c' = convertHook t impls cpu hook c := by
  obtain ⟨set, tb, hT, e⟩ := hook_table t impls cpu hook
  rw [e, e, h.width, h.height, h.src_format, h.dst_format, convert_image, convert_image,
    convert_congr hT h.src_strides h.dst_strides h.src_buffers h.dst_buffers, hd]

theorem apply_congr {m m' : Mem} {n : Nat} (ws : List Write) (h : ∀ p i, p < n → m p i = m' p i) :
    ∀ p i, p < n → m.apply ws p i = m'.apply ws p i := by
  unfold Mem.apply
  induction ws generalizing m m' with
  | nil => exact h
  | cons w ws ih =>
    refine ih fun p i hp => ?_
    unfold Mem.set
    rw [h p i hp]

theorem withMem_take {db db' : List Buf} {n : Nat} (ws : List Write)
    (h : ∀ i, i < n → db[i]? = db'[i]?) :
    (withMem db ((memOf db).apply ws)).take n = (withMem db' ((memOf db').apply ws)).take n := by
  apply List.ext_getElem?
  intro i
  rw [List.getElem?_take, List.getElem?_take]
  split
  · rename_i hi
    rw [withMem, withMem, List.getElem?_mapIdx, List.getElem?_mapIdx, h i hi]
    have : (memOf db).apply ws i = (memOf db').apply ws i := by
      funext k
      exact apply_congr (n := n) ws (fun p j hp => by rw [memOf, memOf, h p hp]) i k hi
    rw [this]
  · rfl

/-- The buffers of the planes after the call. -/
def Outcome.planes (n : Nat) (o : Outcome) : Outcome := o.map fun r => (r.1, r.2.take n)

/-- With additional destination buffers: the same result and the same contents of the buffers of the
planes. -/
theorem C74_buffers (h : c.SameArguments t c') :
    (convertHook t impls cpu hook c').planes c.dst_format.num_planes.toNat =
      (convertHook t impls cpu hook c).planes c.dst_format.num_planes.toNat := by
  obtain ⟨set, tb, hT, e⟩ := hook_table t impls cpu hook
  rw [e, e, h.width, h.height, h.src_format, h.dst_format, convert_image, convert_image,
    convert_congr hT h.src_strides h.dst_strides h.src_buffers h.dst_buffers]
  split
  · rfl
  · rename_i r ws _
    show Except.ok (r, _) = Except.ok (r, _)
    rw [withMem_take ws h.dst_buffers]

/-- `exEncode` with the packed strides spelled out, two superfluous strides, a superfluous source
buffer and a superfluous destination buffer. -/
def exSpelled : Call := { exEncode with
  src_strides := some [20, 99]
  src_buffers := exEncode.src_buffers ++ [noise 7 9]
  dst_strides := some [4, 3, 2, 1]
  dst_buffers := exEncode.dst_buffers ++ [noise 5 8] }

theorem exSpelled_same : exEncode.SameArguments .x64 exSpelled := by
  refine ⟨rfl, rfl, rfl, rfl, ⟨?_, ?_, ?_, ?_⟩, ⟨?_, ?_, ?_, ?_⟩, ?_, ?_⟩
  · exact ⟨fun _ l e => by cases e; decide, fun _ l e => by cases e; decide⟩
  · intro i rc h
    rcases i with _ | i
    · rfl
    · simp [exEncode, Spec.dims] at h
  · intro l e a ha; cases e; revert a; decide
  · intro l e a ha; cases e; revert a; decide
  · exact ⟨fun _ l e => by cases e; decide, fun _ l e => by cases e; decide⟩
  · intro i rc h
    rcases i with _ | _ | _ | i
    · cases h; rfl
    · cases h; rfl
    · cases h; rfl
    · simp [exEncode, Spec.dims] at h
  · intro l e a ha; cases e; revert a; decide
  · intro l e a ha; cases e; revert a; decide
  · intro i hi
    obtain rfl : i = 0 := by simp [exEncode] at hi; omega
    rfl
  · intro i hi
    have : i < 3 := hi
    rcases (by omega : i = 0 ∨ i = 1 ∨ i = 2) with e | e | e <;> subst e <;> rfl

example : (convert .x64 crate avx2Cpu exSpelled).planes 3 =
    (convert .x64 crate avx2Cpu exEncode).planes 3 := C74_buffers exSpelled_same

/-- The second distance matters: with the packed one the second chroma line moves, and a call that is
one stride short is still refused. -/
example : ¬ exEncode.SameArguments .x64 { exEncode with dst_strides := some [0, 2, 0] } := by
  intro h
  exact absurd (h.dst_strides.same 1 (2, 1) rfl) (by decide)

example : ¬ exEncode.SameArguments .x64 { exEncode with dst_strides := some [0, 3] } := by
  intro h
  exact absurd (h.dst_strides.enough.1 (fun l e => by cases e; decide) _ rfl) (by decide)

end Verif
