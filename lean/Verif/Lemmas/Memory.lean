import Verif.Lemmas.Shared
import Verif.Lemmas.Extra
import Verif.Props.Overwrite
/-! # Where the writes of a conversion go -/

namespace Verif

open Spec (bytesAt strideOf dims)

variable {t : Target} {impls : InstructionSet → Impl} {cpu : Cpu} {c : Call} {out : List Buf}

theorem ne_succ (v : UInt8) : v ≠ v + 1 := by
  intro h
  have h := congrArg UInt8.toNat h
  have h1 := v.toNat_lt
  rw [UInt8.toNat_add] at h
  have : (1 : UInt8).toNat = 1 := rfl
  omega

/-- A byte that is written does not depend on the old contents. -/
theorem apply_written {ws : List Write} {p i : Nat} (h : ∃ w ∈ ws, w.plane = p ∧ w.idx = i) (m m' : Mem) :
    m.apply ws p i = m'.apply ws p i := by
  unfold Mem.apply
  induction ws generalizing m m' with
  | nil => obtain ⟨w, hw, -⟩ := h; cases hw
  | cons a ws ih =>
    simp only [List.foldl_cons]
    by_cases h' : ∃ w ∈ ws, w.plane = p ∧ w.idx = i
    · exact ih h' _ _
    · have miss : ∀ m : Mem, ws.foldl Mem.set m p i = m p i := by
        clear ih h
        induction ws with
        | nil => intro m; rfl
        | cons b ws ih' =>
          intro m
          rw [List.foldl_cons, ih' fun ⟨w, hw, e⟩ => h' ⟨w, List.mem_cons_of_mem _ hw, e⟩, Mem.set,
            if_neg]
          rintro ⟨rfl, rfl⟩
          exact h' ⟨b, List.mem_cons_self .., rfl, rfl⟩
      rw [miss, miss]
      obtain ⟨w, hw, rfl, rfl⟩ := h
      rcases List.mem_cons.1 hw with rfl | hw
      · simp only [Mem.set, and_self, if_true]
      · exact absurd ⟨w, hw, rfl, rfl⟩ h'

/-- A byte that is not written keeps its value. -/
theorem apply_unwritten {ws : List Write} {p i : Nat} (h : ∀ w ∈ ws, ¬ (w.plane = p ∧ w.idx = i)) (m : Mem) :
    m.apply ws p i = m p i := by
  unfold Mem.apply
  induction ws generalizing m with
  | nil => rfl
  | cons b ws ih =>
    rw [List.foldl_cons, ih fun w hw => h w (List.mem_cons_of_mem _ hw), Mem.set, if_neg]
    rintro ⟨rfl, rfl⟩
    exact h b (List.mem_cons_self ..) ⟨rfl, rfl⟩

/-- The writes of a call are decided by the lengths of the first destination buffers. -/
theorem writesOf_dst (hv : Spec.Valid t c) {db : List Buf} (hl : c.dst_buffers.length ≤ db.length)
    (h : ∀ i, i < c.dst_buffers.length → db[i]?.map Buf.len = c.dst_buffers[i]?.map Buf.len) :
    writesOf t impls cpu { c with dst_buffers := db } = writesOf t impls cpu c := by
  unfold writesOf
  obtain ⟨ctx, h1, -, -, h2, -⟩ := context_new cpu
  rw [h1]
  simp only
  have len4 : ∀ {f : ImageFormat} {w h : UInt32} {s : Option (List Nat)} {b : List Buf},
      Spec.Legal f w h → Spec.Fits f w h s b →
      f.num_planes.toNat ≤ (s.getD PixFmt.DEFAULT_STRIDES).length := by
    intro f w h s b hl hf
    cases s with
    | some l => exact hf.strides_len l rfl
    | none =>
      have := hl.planes
      show f.num_planes.toNat ≤ 4
      revert this
      unfold Spec.PlanesOk
      cases f.pixel_format <;> simp only <;> omega
  have hs := len4 hv.src_legal hv.src_fits
  have hd := len4 hv.dst_legal hv.dst_fits
  have hb := hv.dst_fits.bufs_len
  rw [convert_image_with_agree (t := t) (impls := impls) (tb := select_table ctx none)
    (w := c.width) (h := c.height) (sf := c.src_format) (df := c.dst_format)
    (dl := dstSlices db) (dl' := dstSlices c.dst_buffers) h2
    ⟨hs, hs, fun _ _ => rfl⟩
    ⟨hv.src_fits.bufs_len, hv.src_fits.bufs_len, fun _ _ => rfl⟩
    ⟨hd, hd, fun _ _ => rfl⟩
    ⟨by simp [dstSlices]; omega, by simp [dstSlices]; omega, fun i hi => by
      have := h i (by omega)
      revert this
      simp only [dstSlices, List.getElem?_mapIdx]
      cases db[i]? <;> cases c.dst_buffers[i]? <;> simp⟩]

/-- More buffers of any contents, the first ones of the same lengths. -/
theorem valid_extend (hv : Spec.Valid t c) {db : List Buf} (hl : c.dst_buffers.length ≤ db.length)
    (h : ∀ i, i < c.dst_buffers.length → db[i]?.map Buf.len = c.dst_buffers[i]?.map Buf.len)
    (hr : Spec.Real t db) : Spec.Valid t { c with dst_buffers := db } := by
  have old : ∀ (i : Nat) (b : Buf) (rc : Nat × Nat), db[i]? = some b →
      (dims c.dst_format.pixel_format c.dst_format.num_planes.toNat c.width.toNat
        c.height.toNat)[i]? = some rc → ∃ b', c.dst_buffers[i]? = some b' ∧ b'.len = b.len := by
    intro i b rc hb hrc
    have hi := plane_lt hv hrc
    refine ⟨_, List.getElem?_eq_getElem hi, ?_⟩
    have := h i hi
    rw [hb, List.getElem?_eq_getElem hi] at this
    simpa using this.symm
  refine { hv with dst_fits := ⟨hv.dst_fits.strides_len, ?_, ?_, ?_⟩, dst_real := hr }
  · exact Nat.le_trans hv.dst_fits.bufs_len hl
  · intro i b rc hb hrc
    obtain ⟨b', hb', e⟩ := old i b rc hb hrc
    rw [← e]
    exact hv.dst_fits.plane i b' rc hb' hrc
  · intro b hb hpf hn
    have hpos : 0 < c.dst_buffers.length := by
      have h1 := hv.dst_fits.bufs_len
      rw [hn] at h1
      exact h1
    have := h 0 hpos
    rw [hb, List.getElem?_eq_getElem hpos] at this
    have e : b.len = (c.dst_buffers[0]).len := by simpa using this
    rw [e]
    exact hv.dst_fits.chroma _ (List.getElem?_eq_getElem hpos) hpf hn

theorem writes_in (hv : Spec.Valid t c) (hm : Spec.VectorRoom cpu.set c) {w : Write}
    (hw : w ∈ writesOf t crate cpu c) : c.InImage w.plane w.idx := by
  by_contra hn
  let v := (memOf c.dst_buffers).apply (writesOf t crate cpu c) w.plane w.idx
  let N := max c.dst_buffers.length (w.plane + 1)
  let db : List Buf := (List.range N).map fun i =>
    ⟨(c.dst_buffers[i]?.map Buf.len).getD 0, fun _ => v + 1⟩
  have hl : c.dst_buffers.length ≤ db.length := by
    simp only [db, List.length_map, List.length_range, N]
    omega
  have hlen : ∀ i, i < c.dst_buffers.length →
      db[i]?.map Buf.len = c.dst_buffers[i]?.map Buf.len := by
    intro i hi
    have : i < N := by simp only [N]; omega
    simp [db, List.getElem?_range this, List.getElem?_eq_getElem hi]
  have hr : Spec.Real t db := by
    intro b hb
    obtain ⟨i, -, rfl⟩ := List.mem_map.1 hb
    show (c.dst_buffers[i]?.map Buf.len).getD 0 ≤ t.imax
    cases hi : c.dst_buffers[i]? with
    | none => exact Nat.zero_le _
    | some b => exact hv.dst_real b (List.mem_of_getElem? hi)
  have hv' := valid_extend hv hl hlen hr
  obtain ⟨out, ho⟩ := valid_stores (cpu := cpu) hv' hm
  have h1 := (C19_frame hv' ho).2.2 w.plane w.idx hn
  have hi : w.plane < db.length := by
    simp only [db, List.length_map, List.length_range, N]
    omega
  rw [convert_writes ho, writesOf_dst hv hl hlen] at h1
  show False
  rw [show ({ c with dst_buffers := db } : Call).dst_buffers = db from rfl, bytesAt_withMem hi,
    apply_written ⟨w, hw, rfl, rfl⟩ _ (memOf c.dst_buffers)] at h1
  have h2 : bytesAt db w.plane w.idx = v + 1 := by
    have : w.plane < N := by simp only [N]; omega
    simp [bytesAt, db, List.getElem?_range this]
  rw [h2] at h1
  exact ne_succ v h1

theorem written (hv : Spec.Valid t c) (hm : Spec.VectorRoom cpu.set c) {i k : Nat}
    (h : c.InImage i k) : ∃ w ∈ writesOf t crate cpu c, w.plane = i ∧ w.idx = k := by
  by_contra hn
  have miss : ∀ w ∈ writesOf t crate cpu c, ¬ (w.plane = i ∧ w.idx = k) :=
    fun w hw e => hn ⟨w, hw, e⟩
  obtain ⟨row, rows, hrc, -⟩ := id h
  have hi := plane_lt hv hrc
  obtain ⟨out, ho⟩ := valid_stores (cpu := cpu) hv hm
  let db : List Buf := c.dst_buffers.map fun b => ⟨b.len, fun n => b.bytes n + 1⟩
  have hlen : db.map Buf.len = c.dst_buffers.map Buf.len := by
    simp [db, Function.comp_def]
  have hv' := valid_same_lengths hlen hv
  obtain ⟨out', ho'⟩ := valid_stores (cpu := cpu) hv' hm
  have e := C80_image hlen hv ho ho' h
  have hd : db.length = c.dst_buffers.length := by simp [db]
  rw [convert_writes ho, convert_writes ho', writesOf_dst hv hd.ge fun i _ => by
      simpa [List.getElem?_map] using congrArg (·[i]?) hlen,
    bytesAt_withMem hi, show ({ c with dst_buffers := db } : Call).dst_buffers = db from rfl,
    bytesAt_withMem (by omega), apply_unwritten miss, apply_unwritten miss] at e
  simp only [memOf, db, List.getElem?_map, List.getElem?_eq_getElem hi, Option.map_some] at e
  exact ne_succ _ e.symm

/-- The image lies inside the buffers. -/
theorem inImage_lt (hv : Spec.Valid t c) {i k : Nat} (h : c.InImage i k) :
    ∃ b, c.dst_buffers[i]? = some b ∧ k < b.len := by
  obtain ⟨row, rows, hrc, y, hy, z, hz, rfl⟩ := h
  have hi := plane_lt hv hrc
  refine ⟨_, List.getElem?_eq_getElem hi, ?_⟩
  have hf := hv.dst_fits.plane i _ _ (List.getElem?_eq_getElem hi) hrc
  have h1 := hf.extent
  have h2 : strideOf c.dst_strides i row * y ≤ strideOf c.dst_strides i row * (rows - 1) :=
    Nat.mul_le_mul_left _ (by omega)
  simp only at h1
  omega

end Verif
