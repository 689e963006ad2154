import Verif.Lemmas.Transient
import Verif.Props.Memory
/-!
# C103: no intermediate values

The vector code stores some bytes more than once, in groups that overlap, and stores groups in an order
of its own. C103 says that nobody who looks at the destination while a conversion runs can tell: every
single store already has the final value.
-/

namespace Verif

open Spec (bytesAt strideOf dims)

variable {t : Target} {cpu : Cpu} {c : Call} {out : List Buf}

/-- C103: every single write stores the value the byte has when the call is over. -/
theorem C103_final_value (hv : Spec.Valid t c) (ho : Stores t crate cpu c out) {w : Write}
    (hw : w ∈ writesOf t crate cpu c) : w.val = bytesAt out w.plane w.idx := by
  have hm := ho.room hv
  obtain ⟨b, hb, -⟩ := inImage_lt hv (writes_in hv hm hw)
  rw [← C101_result ho (List.getElem?_eq_some_iff.1 hb).1]
  exact (Mem.apply_mem _ _ _ _ w.val hw fun v' h' =>
    (Runs.crate hv hm).functional hw h' rfl rfl).symm

/-- C103: some of the writes, in any order (those another thread has seen so far, say): every byte is
what it was before the call or what it is after the call, and it is the latter exactly if one of these
writes is to it. -/
theorem C103_old_or_final (hv : Spec.Valid t c) (ho : Stores t crate cpu c out) {ws : List Write}
    (hs : ∀ w ∈ ws, w ∈ writesOf t crate cpu c) {i : Nat} (hi : i < c.dst_buffers.length) (k : Nat) :
    ((∃ w ∈ ws, w.plane = i ∧ w.idx = k) →
      (memOf c.dst_buffers).apply ws i k = bytesAt out i k) ∧
    ((¬ ∃ w ∈ ws, w.plane = i ∧ w.idx = k) →
      (memOf c.dst_buffers).apply ws i k = bytesAt c.dst_buffers i k) := by
  have h := apply_sub (fun w hw w' hw' => (Runs.crate hv (ho.room hv)).functional hw hw') hs
    (memOf c.dst_buffers) i k
  constructor
  · intro hw
    rw [h, if_pos hw, C101_result ho hi]
  · intro hw
    rw [h, if_neg hw]
    unfold memOf bytesAt
    cases c.dst_buffers[i]? <;> rfl

/-- The last byte of the first chroma plane of `exEncode`, at any moment. -/
example {out : List Buf} (ho : Stores .x64 crate avx2Cpu exEncode out) (n : Nat) :
    let now := (memOf exEncode.dst_buffers).apply ((writesOf .x64 crate avx2Cpu exEncode).take n) 1 1
    now = bytesAt exEncode.dst_buffers 1 1 ∨ now = bytesAt out 1 1 := by
  have h := C103_old_or_final exEncode_valid ho
    (ws := (writesOf .x64 crate avx2Cpu exEncode).take n) (fun w hw => List.mem_of_mem_take hw)
    (i := 1) (by decide) 1
  by_cases hw : ∃ w ∈ (writesOf .x64 crate avx2Cpu exEncode).take n, w.plane = 1 ∧ w.idx = 1
  · exact .inr (h.1 hw)
  · exact .inl (h.2 hw)

/-- It is in one state before and in the other after the call: the call does write it. -/
example : ∃ w ∈ writesOf .x64 crate avx2Cpu exEncode, w.plane = 1 ∧ w.idx = 1 :=
  written exEncode_valid (exEncode_room _) ⟨2, 1, rfl, 0, by omega, 1, by omega, rfl⟩

/-- C103: so the order in which the writes take effect is irrelevant, and repeating some is harmless. -/
theorem C103_any_order (hv : Spec.Valid t c) (ho : Stores t crate cpu c out) {ws : List Write}
    (hs : ∀ w, w ∈ ws ↔ w ∈ writesOf t crate cpu c) :
    withMem c.dst_buffers ((memOf c.dst_buffers).apply ws) = out := by
  rw [convert_writes ho]
  unfold withMem
  apply List.ext_getElem?
  intro i
  rw [List.getElem?_mapIdx, List.getElem?_mapIdx]
  cases hb : c.dst_buffers[i]? with
  | none => rfl
  | some b =>
    simp only [Option.map_some, Option.some.injEq, Buf.mk.injEq, true_and]
    funext k
    rw [apply_sub (fun w hw w' hw' => (Runs.crate hv (ho.room hv)).functional hw hw')
      (fun w hw => (hs w).1 hw)]
    split
    · rfl
    · rename_i h
      exact (apply_unwritten (fun w hw e => h ⟨w, (hs w).2 hw, e⟩) _).symm

/-- C103: a byte that has its final value keeps it. -/
theorem C103_once_final (hv : Spec.Valid t c) (ho : Stores t crate cpu c out) {i : Nat}
    (hi : i < c.dst_buffers.length) {n n' : Nat} (hn : n ≤ n') {k : Nat}
    (h : (memOf c.dst_buffers).apply ((writesOf t crate cpu c).take n) i k = bytesAt out i k) :
    (memOf c.dst_buffers).apply ((writesOf t crate cpu c).take n') i k = bytesAt out i k := by
  have sub : ∀ n, ∀ w ∈ (writesOf t crate cpu c).take n, w ∈ writesOf t crate cpu c :=
    fun _ _ hw => List.mem_of_mem_take hw
  obtain ⟨a1, a2⟩ := C103_old_or_final hv ho (sub n) hi k
  obtain ⟨b1, b2⟩ := C103_old_or_final hv ho (sub n') hi k
  by_cases hw : ∃ w ∈ (writesOf t crate cpu c).take n', w.plane = i ∧ w.idx = k
  · exact b1 hw
  · rw [b2 hw, ← a2, h]
    rintro ⟨w, h1, h2⟩
    exact hw ⟨w, (List.take_prefix_take_left hn).mem h1, h2⟩

end Verif
