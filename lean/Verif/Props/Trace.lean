import Verif.Lemmas.TraceCall
import Verif.Props.Transient
import Verif.Props.Verdict
/-!
# C104: the sequence of stores does not depend on the picture

C101 says which bytes are written; C104 says in which order and how often, store by store: formats,
size, strides and lengths of the buffers decide it, the pixels do not. An observer of the places a
conversion stores to (a cache, a debugger, another thread) learns nothing about the picture.
-/

namespace Verif

open Spec (bytesAt strideOf dims verdictOf)

variable {t : Target} {cpu : Cpu} {c c' : Call} {out : List Buf}

/-- Destination slices are decided by the lengths. -/
theorem dstSlices_lens {db db' : List Buf} (h : db'.map Buf.len = db.map Buf.len) :
    dstSlices db' = dstSlices db := by
  unfold dstSlices
  apply List.ext_getElem?
  intro i
  have hi := congrArg (·[i]?) h
  simp only [List.getElem?_map] at hi
  simp only [List.getElem?_mapIdx]
  cases hb : db[i]? <;> cases hb' : db'[i]? <;> simp_all

/-- C104: two calls with the same sizes, formats, strides and lengths of buffers write to the same
places, in the same order and equally often, whatever the buffers contain. (A call that does not
complete has no writes here.) -/
theorem C104_places (h : Spec.SameShape c c') (h32 : 32 ≤ t.bits)
    (hsr : ∀ b, b ∈ c.src_buffers → b.len ≤ t.imax) (hdr : ∀ b, b ∈ c.dst_buffers → b.len ≤ t.imax) :
    (writesOf t crate cpu c').map (fun w => (w.plane, w.idx)) =
      (writesOf t crate cpu c).map (fun w => (w.plane, w.idx)) := by
  have hver := C77_contents (cpu := cpu) h h32 hsr hdr
  rcases c with ⟨w, hh, sf, ss, sb, df, ds, db⟩
  rcases c' with ⟨w', hh', sf', ss', sb', df', ds', db'⟩
  obtain ⟨h1, h2, h3, h4, h5, h6, h7, h8⟩ := h
  simp only at h1 h2 h3 h4 h5 h6 h7 h8
  subst h1 h2 h3 h4 h5 h6
  unfold convert convertHook at hver
  unfold writesOf
  obtain ⟨ctx, e, -⟩ := context_new cpu
  rw [e] at hver ⊢
  simp only [bind, Except.bind, convert_image] at hver ⊢
  have hT := (convert_image_with_trace crate_oblivious t (select_table ctx none) (width := w')
    (height := hh') (sf := sf') (df := df') (ss := ss') (ds := ds') (db := dstSlices db) h7).out
  simp only [dstSlices_lens h8] at hver ⊢
  revert hver hT
  generalize (convert_image_with t crate (select_table ctx none) w' hh' sf' ss' sb' df' ds'
    (dstSlices db)).run = r'
  generalize (convert_image_with t crate (select_table ctx none) w' hh' sf' ss' sb df' ds'
    (dstSlices db)).run = r
  intro hT hver
  have ended : ∀ (x : Except ErrorKind Unit × List Buf) (f : Fault),
      verdictOf (.ok x) ≠ verdictOf (.error f) := by
    rintro ⟨_ | ⟨⟩, _⟩ f <;> cases f <;> simp [verdictOf]
  rcases r with f | ⟨a, ws⟩ <;> rcases r' with f' | ⟨a', ws'⟩
  · rfl
  · exact absurd hver (ended _ _)
  · exact absurd hver.symm (ended _ _)
  · exact (hT _ _ _ _ rfl rfl).2

/-- Validity is decided by the lengths of the source buffers. -/
theorem valid_source_lengths {sb' : List Buf} (h : sb'.map Buf.len = c.src_buffers.map Buf.len)
    (hv : Spec.Valid t c) : Spec.Valid t { c with src_buffers := sb' } := by
  have hl : sb'.length = c.src_buffers.length := by simpa using congrArg List.length h
  exact { hv with
    src_fits := fits_grow hv.src_fits hl fun i b b' hb hb' => (len_of_map h i b b' hb hb').ge
    src_real := real_lens h hv.src_real }

/-- So is the room behind a Bgr source. -/
theorem room_source_lengths {set : InstructionSet} {sb' : List Buf}
    (h : sb'.map Buf.len = c.src_buffers.map Buf.len) (hm : Spec.VectorRoom set c) :
    Spec.VectorRoom set { c with src_buffers := sb' } := by
  intro h1 h2 b' hb'
  have hl : sb'.length = c.src_buffers.length := by simpa using congrArg List.length h
  have hi : 0 < c.src_buffers.length := by
    rw [← hl]
    exact (List.getElem?_eq_some_iff.1 hb').1
  have hb := List.getElem?_eq_getElem hi
  rw [len_of_map h 0 _ _ hb hb']
  exact hm h1 h2 _ hb

/-- C104: buffers that show the same picture (whatever their alpha bytes, padding and bytes after the
image, and whatever the destination held) make a valid call perform the same writes, one by one and value
by value. -/
theorem C104_identical (hv : Spec.Valid t c) (hm : Spec.VectorRoom cpu.set c) {sb db : List Buf}
    (hs : sb.map Buf.len = c.src_buffers.map Buf.len) (hd : db.map Buf.len = c.dst_buffers.map Buf.len)
    (hp : SameSource c { c with src_buffers := sb }) :
    writesOf t crate cpu { c with src_buffers := sb, dst_buffers := db } = writesOf t crate cpu c := by
  have hv1 := valid_source_lengths hs hv
  have hm1 := room_source_lengths hs hm
  have hld : db.length = c.dst_buffers.length := by simpa using congrArg List.length hd
  rw [writesOf_dst (c := { c with src_buffers := sb }) hv1 (Nat.le_of_eq hld.symm) fun i _ => by
    simpa only [List.getElem?_map] using congrArg (·[i]?) hd]
  obtain ⟨out, ho⟩ := valid_stores (cpu := cpu) hv hm
  have ho1 : Stores t crate cpu { c with src_buffers := sb } out :=
    (C25_source_noninterference hv hm hv1 hm1 hp).trans ho
  have hpl := C104_places (t := t) (cpu := cpu) (c := c) (c' := { c with src_buffers := sb })
    ⟨rfl, rfl, rfl, rfl, rfl, rfl, hs, rfl⟩ hv.bits hv.src_real hv.dst_real
  have back : ∀ {c : Call}, Spec.Valid t c → Stores t crate cpu c out → writesOf t crate cpu c =
      ((writesOf t crate cpu c).map fun w => (w.plane, w.idx)).map
        fun p => ⟨p.1, p.2, bytesAt out p.1 p.2⟩ := by
    intro c hv ho
    rw [List.map_map]
    conv => lhs; rw [← List.map_id (writesOf t crate cpu c)]
    refine List.map_congr_left fun w hw => ?_
    simp only [Function.comp_apply, id_eq, ← C103_final_value hv ho hw]
  rw [back hv1 ho1, hpl, ← back hv ho]

/-- Other pixels: same places. -/
example : (writesOf .x64 crate avx2Cpu (exEncode.refill 77)).map (fun w => (w.plane, w.idx)) =
    (writesOf .x64 crate avx2Cpu exEncode).map (fun w => (w.plane, w.idx)) :=
  C104_places ⟨rfl, rfl, rfl, rfl, rfl, rfl, by decide +kernel, rfl⟩ (by decide)
    exEncode_valid.src_real exEncode_valid.dst_real

/-- There are such places. -/
example : writesOf .x64 crate avx2Cpu exEncode ≠ [] := by
  obtain ⟨w, hw, -⟩ := written (cpu := avx2Cpu) exEncode_valid (exEncode_room _) (i := 1) (k := 1)
    ⟨2, 1, rfl, 0, by omega, 1, by omega, rfl⟩
  exact List.ne_nil_of_mem hw

/-- Other alpha bytes and padding: same writes. -/
example : writesOf .x64 crate avx2Cpu { exEncode with src_buffers := exAlpha } =
    writesOf .x64 crate avx2Cpu exEncode :=
  C104_identical (db := exEncode.dst_buffers) exEncode_valid (exEncode_room _) (by decide +kernel) rfl
    exAlpha_same

end Verif
