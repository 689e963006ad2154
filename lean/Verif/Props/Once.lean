import Verif.Lemmas.CountCall
import Verif.Spec.Once
/-!
# How often a byte is stored

C106 tells how often a conversion stores each byte of the destination image: once, with one exception.
The 24-bit decoder of avx2.rs stores 48 bytes with two overlapping 32-byte stores (avx2.rs,
`pack_rgb_16x`), so that a line of `w` pixels takes `32 * (w / 32)` stores more than it has bytes.
-/

namespace Verif

open Spec (dims)

variable {t : Target} {cpu : Cpu} {c : Call}

/-- C106: how many single bytes a valid conversion stores: as many as the image has, plus 32 for each whole
group of 32 pixels of each line if Nv12 is decoded to Rgb by the AVX2 code. -/
theorem C106_count (hv : Spec.Valid t c) (hm : Spec.VectorRoom cpu.set c) :
    (writesOf t crate cpu c).length = Spec.imageBytes c +
      if cpu.set = .avx2 ∧ c.src_format.pixel_format = .nv12 ∧ c.dst_format.pixel_format = .rgb then
        32 * (c.width.toNat / 32) * c.height.toNat else 0 := by
  obtain ⟨r, hk, hr, h⟩ := writes_kcall (cpu := cpu) hv
  split
  · next ha =>
    obtain ⟨h1, h2, h3⟩ := ha
    have e : Spec.imageBytes c = 3 * c.width.toNat * c.height.toNat := by
      simp [Spec.imageBytes, h3, dims, Spec.bpp]
    rw [e]
    refine (h _).2 hm ?_
    rw [h1]
    exact kcall_puts24 hk h2 h3 hv.src_legal
  · next ha =>
    have le := (h _).1 (kcall_atMost hk hr hv.src_legal hv.dst_legal hv.width_ne ha)
    have ge := ((nodup_placesOf hv).subperm (placesOf_subset (cpu := cpu) hv hm)).length_le
    rw [List.length_map, placesOf, length_placesFrom] at ge
    exact Nat.le_antisymm le ge

/-- C106: no byte is stored twice, if and only if the call is not of the one overlapping kind. -/
theorem C106_once_iff (hv : Spec.Valid t c) (hm : Spec.VectorRoom cpu.set c) :
    ((writesOf t crate cpu c).map fun w => (w.plane, w.idx)).Nodup ↔ ¬ Spec.Overlapping cpu.set c := by
  have e : (placesOf c).length = Spec.imageBytes c := by rw [placesOf, length_placesFrom]; rfl
  rw [once_iff_length hv hm, C106_count hv hm, e]
  have h0 := u32_pos hv.height_ne
  split
  · next ha =>
    obtain ⟨h1, h2, h3⟩ := ha
    constructor
    · rintro h ⟨-, -, -, h4⟩
      have : 0 < 32 * (c.width.toNat / 32) * c.height.toNat :=
        Nat.mul_pos (by omega) h0
      omega
    · intro h
      have h4 : c.width.toNat / 32 = 0 := by
        by_contra h4
        exact h ⟨h1, h2, h3, by omega⟩
      simp [h4]
  · next ha => exact ⟨fun _ h => ha ⟨h.1, h.2.1, h.2.2.1⟩, fun _ => Nat.le_refl _⟩

/-- C106: in all other calls, each byte of the image is stored exactly once: there is exactly one moment at
which it is. -/
theorem C106_exactly_once (hv : Spec.Valid t c) (hm : Spec.VectorRoom cpu.set c)
    (ho : ¬ Spec.Overlapping cpu.set c) {i k : Nat} (h : c.InImage i k) :
    ∃! n : Nat, ∃ v : UInt8, (writesOf t crate cpu c)[n]? = some (⟨i, k, v⟩ : Write) := by
  have nd := (C106_once_iff hv hm).2 ho
  obtain ⟨w, hw, h1, h2⟩ := written hv hm h
  obtain ⟨n, hn⟩ := List.mem_iff_getElem?.1 hw
  refine ⟨n, ⟨w.val, by rw [hn, ← h1, ← h2]⟩, ?_⟩
  rintro n' ⟨v, hv'⟩
  have e : ((writesOf t crate cpu c).map fun w => (w.plane, w.idx))[n]? = some (i, k) := by
    rw [List.getElem?_map, hn, ← h1, ← h2]; rfl
  have e' : ((writesOf t crate cpu c).map fun w => (w.plane, w.idx))[n']? = some (i, k) := by
    rw [List.getElem?_map, hv']; rfl
  obtain ⟨hl', -⟩ := List.getElem?_eq_some_iff.1 e'
  exact (List.getElem?_inj hl' nd).1 (e'.trans e.symm)

/-- C106: until that moment the byte has its old value, from then on its final one. -/
theorem C106_moment (hv : Spec.Valid t c) (hm : Spec.VectorRoom cpu.set c)
    (ho : ¬ Spec.Overlapping cpu.set c) {i k : Nat} (h : c.InImage i k) :
    ∃ n, n < Spec.imageBytes c ∧ ∀ m,
      (memOf c.dst_buffers).apply ((writesOf t crate cpu c).take m) i k =
        if m ≤ n then (memOf c.dst_buffers) i k
        else (memOf c.dst_buffers).apply (writesOf t crate cpu c) i k := by
  obtain ⟨n, ⟨v, hn⟩, hu⟩ := C106_exactly_once hv hm ho h
  have hlen : (writesOf t crate cpu c).length = Spec.imageBytes c := by
    rw [C106_count hv hm]
    split
    · next ha =>
      have h4 : c.width.toNat / 32 = 0 := by
        by_contra h4
        exact ho ⟨ha.1, ha.2.1, ha.2.2, by omega⟩
      simp [h4]
    · rfl
  obtain ⟨hl, e⟩ := List.getElem?_eq_some_iff.1 hn
  refine ⟨n, hlen ▸ hl, fun m => ?_⟩
  split
  · next hmn =>
    refine apply_unwritten (fun w hw => ?_) _
    rintro ⟨rfl, rfl⟩
    obtain ⟨n', hn'⟩ := List.mem_iff_getElem?.1 hw
    rw [List.getElem?_take] at hn'
    split at hn'
    · have := hu n' ⟨w.val, hn'⟩
      omega
    · cases hn'
  · next hmn =>
    conv_rhs => rw [← List.take_append_drop m (writesOf t crate cpu c)]
    rw [show ∀ a b, (memOf c.dst_buffers).apply (a ++ b) = ((memOf c.dst_buffers).apply a).apply b from
      fun a b => List.foldl_append]
    refine (apply_unwritten (fun w hw => ?_) _).symm
    rintro ⟨rfl, rfl⟩
    obtain ⟨n', hn'⟩ := List.mem_iff_getElem?.1 hw
    rw [List.getElem?_drop] at hn'
    have := hu _ ⟨w.val, hn'⟩
    omega

/-- `exEncode` stores each byte of its image once, also with AVX2. -/
example : ((writesOf .x64 crate avx2Cpu exEncode).map fun w => (w.plane, w.idx)).Nodup :=
  (C106_once_iff exEncode_valid (exEncode_room _)).2 fun h => by cases h.2.1

/-- An Nv12 image of 32 by 2 pixels, to be decoded to Rgb. -/
def exWide24 : Call where
  width := 32
  height := 2
  src_format := ⟨.nv12, .bt601, 2⟩
  src_strides := none
  src_buffers := [⟨64, fun _ => 100⟩, ⟨32, fun _ => 90⟩]
  dst_format := ⟨.rgb, .rgb, 1⟩
  dst_strides := none
  dst_buffers := [⟨192, fun _ => 0⟩]

theorem exWide24_valid : Spec.Valid .x64 exWide24 := valid_of_check (by decide +kernel)

/-- AVX2 stores 256 bytes for the 192 bytes of the image, some of them twice; without AVX2 each is
stored once. -/
example : (writesOf .x64 crate avx2Cpu exWide24).length = 256 ∧
    ¬ ((writesOf .x64 crate avx2Cpu exWide24).map fun w => (w.plane, w.idx)).Nodup ∧
    ∀ cpu, cpu.set ≠ .avx2 → (writesOf .x64 crate cpu exWide24).length = 192 ∧
      ((writesOf .x64 crate cpu exWide24).map fun w => (w.plane, w.idx)).Nodup := by
  have hm : ∀ set, Spec.VectorRoom set exWide24 := fun _ => .of_ne (by decide)
  refine ⟨(C106_count exWide24_valid (hm _)).trans (by decide +kernel), ?_, fun cpu h => ⟨?_, ?_⟩⟩
  · rw [C106_once_iff exWide24_valid (hm _)]
    exact fun h => h ⟨by decide, rfl, rfl, by decide⟩
  · rw [C106_count exWide24_valid (hm _), if_neg fun h' => h h'.1]
    decide
  · exact (C106_once_iff exWide24_valid (hm _)).2 fun h' => h h'.1

end Verif
