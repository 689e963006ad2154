import Verif.Lemmas.Memory
/-!
# C101: every single write of a conversion

C101 speaks about the writes one by one and about every moment of a conversion, not only about its end:
a program that looks at other parts of a destination buffer while a conversion runs, or uses them for
something else, sees no change.
-/

namespace Verif

open Spec (bytesAt strideOf dims)

variable {t : Target} {cpu : Cpu} {c : Call}

/-- C101: all writes go to bytes of the image and every byte of the image is written. -/
theorem C101_footprint (hv : Spec.Valid t c) (hm : Spec.VectorRoom cpu.set c) (i k : Nat) :
    (∃ w ∈ writesOf t crate cpu c, w.plane = i ∧ w.idx = k) ↔ c.InImage i k :=
  ⟨fun ⟨_, hw, h1, h2⟩ => h1 ▸ h2 ▸ writes_in hv hm hw, written hv hm⟩

/-- C101: at no time during the conversion (after the first `n` writes) does a byte that is not part of
the image differ from what it was. -/
theorem C101_at_any_time (hv : Spec.Valid t c) (hm : Spec.VectorRoom cpu.set c) (n : Nat) {i k : Nat}
    (h : ¬ c.InImage i k) :
    (memOf c.dst_buffers).apply ((writesOf t crate cpu c).take n) i k = bytesAt c.dst_buffers i k := by
  rw [apply_unwritten]
  · unfold memOf bytesAt
    cases c.dst_buffers[i]? <;> rfl
  · rintro w hw ⟨rfl, rfl⟩
    exact h (writes_in hv hm (List.mem_of_mem_take hw))

/-- C101: these writes are what the call does: after the last one the buffers hold its result. -/
theorem C101_result {out : List Buf} (ho : Stores t crate cpu c out) {i : Nat}
    (hi : i < c.dst_buffers.length) (k : Nat) :
    (memOf c.dst_buffers).apply (writesOf t crate cpu c) i k = bytesAt out i k := by
  rw [convert_writes ho, bytesAt_withMem hi]

/-- C101: the bytes written are decided by formats, size and strides alone: other pixels, other old
contents, longer buffers or another processor make no difference. -/
theorem C101_oblivious {cpu' : Cpu} {sb db : List Buf} (hv : Spec.Valid t c)
    (hm : Spec.VectorRoom cpu.set c) (hv' : Spec.Valid t { c with src_buffers := sb, dst_buffers := db })
    (hm' : Spec.VectorRoom cpu'.set { c with src_buffers := sb, dst_buffers := db }) (i k : Nat) :
    (∃ w ∈ writesOf t crate cpu c, w.plane = i ∧ w.idx = k) ↔
      ∃ w ∈ writesOf t crate cpu' { c with src_buffers := sb, dst_buffers := db },
        w.plane = i ∧ w.idx = k :=
  (C101_footprint hv hm i k).trans (C101_footprint hv' hm' i k).symm

/-- The padding byte 2 of plane 1 of `exEncode` is never written, bytes 0 and 1 are. -/
example : ¬ (∃ w ∈ writesOf .x64 crate avx2Cpu exEncode, w.plane = 1 ∧ w.idx = 2) ∧
    (∃ w ∈ writesOf .x64 crate avx2Cpu exEncode, w.plane = 1 ∧ w.idx = 1) := by
  rw [C101_footprint exEncode_valid (exEncode_room _), C101_footprint exEncode_valid (exEncode_room _)]
  refine ⟨?_, 2, 1, rfl, 0, by omega, 1, by omega, rfl⟩
  rintro ⟨row, rows, h, y, hy, j, hj, e⟩
  cases h
  have hy : y < 1 := hy
  have hj : j < 2 := hj
  have e : 2 = 3 * y + j := e
  omega

end Verif
