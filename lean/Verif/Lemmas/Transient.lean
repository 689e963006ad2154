import Verif.Lemmas.Memory
/-! # The values of the single writes of a conversion -/

namespace Verif

open Spec (bytesAt strideOf dims)

variable {t : Target} {impls : InstructionSet → Impl} {cpu : Cpu} {S : Sem} {c : Call}

/-- The set of the writes of a valid call: the planes of its result. -/
theorem Runs.writes (hr : Runs t impls cpu S c) (w : Write) : w ∈ writesOf t impls cpu c ↔
    PlaneWrites (dims c.dst_format.pixel_format c.dst_format.num_planes.toNat c.width.toNat
      c.height.toNat) (strideOf c.dst_strides)
      (S.resultPlanes c.width c.height c.src_format c.src_strides c.src_buffers c.dst_format) w := by
  have hv := hr.valid
  have h0 := u32_pos hv.height_ne
  obtain ⟨ctx, h1, -, -, hT, -⟩ := context_new cpu
  obtain ⟨r, hk, hreg, e⟩ := convert_checked (impls := impls) (t := t) hT hv.src_legal hv.dst_legal
    hv.supported hv.width_ne hv.height_ne (present_of_fits hv.src_fits) (present_of_fits hv.dst_fits)
    (small_of_fits hv.bits_pos hv.src_legal h0 hv.src_fits hv.src_real)
    (small_of_fits hv.bits_pos hv.dst_legal h0 hv.dst_fits hv.dst_real)
  rw [if_pos ⟨acc_image_of_fits hv.src_legal h0 hv.src_fits _,
    acc_image_of_fits hv.dst_legal h0 hv.dst_fits _⟩] at e
  have hE := kcall_emits hr.impl hk hreg hv.src_legal hv.dst_legal hv.width_ne hv.height_ne
    hv.src_fits hv.dst_fits hv.src_real hv.dst_real hr.room
  obtain ⟨ws, h2, h3⟩ := hE.then_pure (b := (.ok () : Except ErrorKind Unit))
  unfold writesOf
  rw [h1]
  simp only
  rw [show select_table ctx none = ctx.converters from rfl, e, h2]
  exact h3 w

/-- No two writes of a valid call give different values to the same byte. -/
theorem Runs.functional (hr : Runs t impls cpu S c) {w w' : Write} (h : w ∈ writesOf t impls cpu c)
    (h' : w' ∈ writesOf t impls cpu c) (hp : w'.plane = w.plane) (hi : w'.idx = w.idx) :
    w'.val = w.val := by
  obtain ⟨p, i, v⟩ := w
  obtain ⟨p', i', v'⟩ := w'
  simp only at hp hi
  subst hp hi
  rw [hr.writes] at h h'
  obtain ⟨rc, f, h1, h2, y, hy, x, hx, e, hv⟩ := h
  obtain ⟨rc', f', h1', h2', y', hy', x', hx', e', hv'⟩ := h'
  simp only at h1 h2 e hv h1' h2' e' hv'
  cases h1.symm.trans h1'
  cases h2.symm.trans h2'
  have hb := plane_lt hr.valid h1
  have hle := (hr.valid.dst_fits.plane p' _ _ (List.getElem?_eq_getElem hb) h1).row_le
  obtain ⟨rfl, rfl⟩ := addr_inj hle hx hx' (e.symm.trans e')
  rw [hv, hv']

/-- Some of the writes `ws`, each with the value that all of `ws` leave behind: every byte is old or
final. -/
theorem apply_sub {ws ws' : List Write} (hf : ∀ w ∈ ws, ∀ w' ∈ ws, w'.plane = w.plane → w'.idx = w.idx →
    w'.val = w.val) (hs : ∀ w ∈ ws', w ∈ ws) (m : Mem) (p i : Nat) :
    m.apply ws' p i = if ∃ w ∈ ws', w.plane = p ∧ w.idx = i then m.apply ws p i else m p i := by
  split
  · rename_i h
    obtain ⟨⟨p', i', v⟩, hw, rfl, rfl⟩ := h
    rw [Mem.apply_mem m ws' _ _ v hw fun v' h' => hf _ (hs _ hw) _ (hs _ h') rfl rfl,
      Mem.apply_mem m ws _ _ v (hs _ hw) fun v' h' => hf _ (hs _ hw) _ h' rfl rfl]
  · rename_i h
    exact apply_unwritten (fun w hw e => h ⟨w, hw, e⟩) m

end Verif
