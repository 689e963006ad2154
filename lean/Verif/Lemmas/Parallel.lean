import Verif.Spec.Memory
import Verif.Props.Trace
/-! # The invariant of conversions in one memory -/

namespace Verif

open Spec (bytesAt strideOf dims)

variable {t : Target} {impls : InstructionSet → Impl} {cpu : Cpu} {c : Call} {out : List Buf}
variable {tasks : List Task} {m : Memory}

/-- Nothing but lengths matters for validity. -/
theorem Task.valid_mem {j : Task} {m : Memory} (m' : Memory) (h : Spec.Valid t (j.call m)) :
    Spec.Valid t (j.call m') := by
  have len : ∀ (l : List Place) (i : Nat) (b : Buf), (l.map m'.buf)[i]? = some b →
      ∃ b', (l.map m.buf)[i]? = some b' ∧ b'.len = b.len := by
    intro l i b hb
    rw [List.getElem?_map] at hb ⊢
    cases hp : l[i]? with
    | none => rw [hp] at hb; cases hb
    | some p => rw [hp] at hb; cases hb; exact ⟨_, rfl, rfl⟩
  have fits : ∀ {f : ImageFormat} {w h : UInt32} {s : Option (List Nat)} {l : List Place},
      Spec.Fits f w h s (l.map m.buf) → Spec.Fits f w h s (l.map m'.buf) := by
    intro f w h s l hf
    refine ⟨hf.strides_len, by simpa using hf.bufs_len, ?_, ?_⟩
    · intro i b rc hb hrc
      obtain ⟨b', hb', e⟩ := len l i b hb
      exact e ▸ hf.plane i b' rc hb' hrc
    · intro b hb hp hn
      obtain ⟨b', hb', e⟩ := len l 0 b hb
      exact e ▸ hf.chroma b' hb' hp hn
  have real : ∀ {l : List Place}, Spec.Real t (l.map m.buf) → Spec.Real t (l.map m'.buf) := by
    intro l hr b hb
    obtain ⟨p, hp, rfl⟩ := List.mem_map.1 hb
    exact hr (m.buf p) (List.mem_map_of_mem hp)
  exact ⟨h.bits, h.src_legal, h.dst_legal, h.supported, h.width_ne, h.height_ne, fits h.src_fits,
    fits h.dst_fits, real h.src_real, real h.dst_real⟩

theorem Task.dst_at {j : Task} {m : Memory} {i : Nat} {p : Place} (hp : j.dst[i]? = some p) :
    (j.call m).dst_buffers[i]? = some (m.buf p) := by
  show (j.dst.map m.buf)[i]? = _
  rw [List.getElem?_map, hp]
  rfl

theorem Task.planeAt {j : Task} {m : Memory} {i x : Nat} {p : Place} (hp : j.dst[i]? = some p)
    (h : (j.call m).InImage i x) : j.PlaneAt i (p.addr + x) := by
  obtain ⟨row, rows, hrc, y, hy, z, hz, rfl⟩ := h
  exact ⟨p, row, rows, hp, hrc, y, hy, z, hz, rfl⟩

theorem Task.of_planeAt {j : Task} (m : Memory) {i a : Nat} (h : j.PlaneAt i a) :
    ∃ p x, j.dst[i]? = some p ∧ (j.call m).InImage i x ∧ a = p.addr + x := by
  obtain ⟨p, row, rows, hp, hrc, y, hy, z, hz, rfl⟩ := h
  exact ⟨p, _, hp, ⟨row, rows, hrc, y, hy, z, hz, rfl⟩, rfl⟩

theorem Task.inImage_mem {j : Task} {m : Memory} (m' : Memory) {i x : Nat}
    (h : (j.call m).InImage i x) : (j.call m').InImage i x := h

theorem Task.inImage_dst {j : Task} {m : Memory} (hv : Spec.Valid t (j.call m)) {i x : Nat}
    (h : (j.call m).InImage i x) : ∃ p, j.dst[i]? = some p ∧ x < p.len := by
  obtain ⟨b, hb, hx⟩ := inImage_lt hv h
  have hb : (j.dst.map m.buf)[i]? = some b := hb
  rw [List.getElem?_map] at hb
  cases hp : j.dst[i]? with
  | none => rw [hp] at hb; cases hb
  | some p => rw [hp] at hb; cases hb; exact ⟨p, rfl, hx⟩

/-- The image is where the task says. -/
theorem Task.sourceAt {j : Task} {m : Memory} (hv : Spec.Valid t (j.call m)) {i x : Nat}
    (h : (j.call m).InSource i x) : ∃ p, j.src[i]? = some p ∧ x < p.len ∧ j.SourceAt (p.addr + x) := by
  obtain ⟨row, rows, hrc, y, hy, z, hz, rfl⟩ := h
  have hi := source_plane_lt hv hrc
  have hi' : i < j.src.length := by simpa [Task.call] using hi
  have hp := List.getElem?_eq_getElem hi'
  have hb : (j.call m).src_buffers[i]? = some (m.buf j.src[i]) := by
    show (j.src.map m.buf)[i]? = _
    rw [List.getElem?_map, hp]
    rfl
  have := fits_line (hv.src_fits.plane i _ _ hb hrc) hy
  refine ⟨_, hp, ?_, i, _, row, rows, hp, hrc, y, hy, z, hz, rfl⟩
  simp only [Memory.buf] at this
  show strideOf j.src_strides i row * y + z < _
  have e : (j.call m).src_strides = j.src_strides := rfl
  rw [e] at this
  omega

/-- The writes of a task are decided by the image it converts. -/
theorem Task.writes_congr {j : Task} {m m' : Memory} (hv : Spec.Valid t (j.call m))
    (hm : Spec.VectorRoom cpu.set (j.call m)) (h : ∀ a, j.SourceAt a → m' a = m a) :
    writesOf t crate cpu (j.call m') = writesOf t crate cpu (j.call m) := by
  have lens : ∀ l : List Place, (l.map m'.buf).map Buf.len = (l.map m.buf).map Buf.len := by
    intro l
    rw [List.map_map, List.map_map]
    rfl
  refine C104_identical (c := j.call m) (sb := j.src.map m'.buf) (db := j.dst.map m'.buf) hv hm
    (lens _) (lens _) (same_source_of_bytes hv fun i k hk => ?_)
  obtain ⟨p, hp, hlt, ha⟩ := j.sourceAt hv hk
  show bytesAt (j.src.map m'.buf) i k = bytesAt (j.src.map m.buf) i k
  simp only [bytesAt, List.getElem?_map, hp, Option.map_some, Memory.buf, hlt, if_true]
  exact h _ ha

/-- State of the memory after every task has performed the first `pos` of its writes. -/
structure Advance (t : Target) (impls : InstructionSet → Impl) (cpu : Cpu) (tasks : List Task)
    (m : Memory) (s : Parallel) : Prop where
  frame : ∀ a, (∀ (k : Nat) (j : Task), tasks[k]? = some j → ¬ j.ImageAt a) → s.mem a = m a
  pos : ∀ (k : Nat) (j : Task), tasks[k]? = some j →
    s.pos k ≤ (writesOf t impls cpu (j.call m)).length
  dst : ∀ (k : Nat) (j : Task), tasks[k]? = some j → ∀ (i : Nat) (p : Place), j.dst[i]? = some p →
    ∀ x, (j.call m).InImage i x → s.mem (p.addr + x) =
      (memOf (j.call m).dst_buffers).apply ((writesOf t impls cpu (j.call m)).take (s.pos k)) i x

theorem Advance.init (hr : Ready t cpu.set tasks m) :
    Advance t crate cpu tasks m ⟨m, fun _ => 0⟩ := by
  refine ⟨fun _ _ => rfl, fun _ _ _ => Nat.zero_le _, fun k j hj i p hp x hx => ?_⟩
  obtain ⟨p', hp', hlt⟩ := j.inImage_dst (hr k j hj).1 hx
  cases hp.symm.trans hp'
  simp only [List.take_zero, Mem.apply, List.foldl_nil, memOf, j.dst_at hp, Memory.buf, hlt, if_true]

theorem Advance.same_writes (hs : Apart tasks) (hr : Ready t cpu.set tasks m) {s : Parallel}
    (h : Advance t crate cpu tasks m s) {k : Nat} {j : Task} (hj : tasks[k]? = some j) :
    writesOf t crate cpu (j.call s.mem) = writesOf t crate cpu (j.call m) :=
  Task.writes_congr (hr k j hj).1 (hr k j hj).2 fun a ha => h.frame a fun k' j' hj' hi => hs.sources k' k j' j hj' hj a hi ha

theorem Advance.step (hs : Apart tasks) (hr : Ready t cpu.set tasks m) {s : Parallel}
    (h : Advance t crate cpu tasks m s) (k : Nat) :
    Advance t crate cpu tasks m (s.step t crate cpu tasks k) := by
  unfold Parallel.step
  cases hj : tasks[k]? with
  | none => exact h
  | some j =>
    simp only
    rw [h.same_writes hs hr hj]
    cases hw : (writesOf t crate cpu (j.call m))[s.pos k]? with
    | none => exact h
    | some w =>
      have hlt := (List.getElem?_eq_some_iff.1 hw).1
      have hin := writes_in (hr k j hj).1 (hr k j hj).2 (List.mem_of_getElem? hw)
      obtain ⟨q, hq, hql⟩ := j.inImage_dst (hr k j hj).1 hin
      have hat := Task.planeAt hq hin
      simp only [hq]
      refine ⟨?_, ?_, ?_⟩
      · intro a ha
        have : a ≠ q.addr + w.idx := by rintro rfl; exact ha k j hj ⟨_, hat⟩
        simp only [Memory.put, this, if_false]
        exact h.frame a ha
      · intro k' j' hj'
        simp only
        split
        · rename_i e
          subst e
          rw [hj] at hj'
          cases hj'
          omega
        · exact h.pos k' j' hj'
      · intro k' j' hj' i p hp x hx
        have hold := h.dst k' j' hj' i p hp x hx
        have hat' := Task.planeAt hp hx
        simp only
        by_cases e : k' = k
        · subst e
          rw [hj] at hj'
          cases hj'
          rw [if_pos rfl, List.take_add_one, hw, Option.toList_some, apply_append]
          simp only [Memory.put, Mem.apply, List.foldl_cons, List.foldl_nil, Mem.set]
          by_cases ea : p.addr + x = q.addr + w.idx
          · rw [ea] at hat'
            have ei := hs.planes k' j hj _ _ _ hat' hat
            subst ei
            rw [hq] at hp
            cases hp
            have ex : x = w.idx := by omega
            subst ex
            simp only [and_self, if_true]
          · have : ¬ (i = w.plane ∧ x = w.idx) := by
              rintro ⟨rfl, rfl⟩
              rw [hq] at hp
              cases hp
              exact ea rfl
            rw [if_neg ea, if_neg this, hold]
            rfl
        · have hne : p.addr + x ≠ q.addr + w.idx := by
            intro ea
            rw [ea] at hat'
            exact e (hs.images k' k j' j hj' hj _ ⟨_, hat'⟩ ⟨_, hat⟩)
          simp only [Memory.put, hne, e, if_false]
          exact hold

theorem Advance.run (hs : Apart tasks) (hr : Ready t cpu.set tasks m) (ks : List Nat) {s : Parallel}
    (h : Advance t crate cpu tasks m s) :
    Advance t crate cpu tasks m (Parallel.run t crate cpu tasks ks s) := by
  induction ks generalizing s with
  | nil => exact h
  | cons k ks ih => exact ih (h.step hs hr k)

theorem Parallel.run_pos (hs : Apart tasks) (hr : Ready t cpu.set tasks m) (ks : List Nat)
    {s : Parallel} (h : Advance t crate cpu tasks m s) {k : Nat} {j : Task}
    (hj : tasks[k]? = some j) :
    (Parallel.run t crate cpu tasks ks s).pos k =
      min (s.pos k + ks.count k) (writesOf t crate cpu (j.call m)).length := by
  induction ks generalizing s with
  | nil => have := h.pos k j hj; simp only [Parallel.run, List.count_nil]; omega
  | cons k' ks ih =>
    rw [Parallel.run, ih (h.step hs hr k')]
    have hp := h.pos k j hj
    by_cases e : k' = k
    · subst e
      have : (s.step t crate cpu tasks k').pos k' =
          min (s.pos k' + 1) (writesOf t crate cpu (j.call m)).length := by
        unfold Parallel.step
        rw [hj]
        simp only
        rw [h.same_writes hs hr hj]
        cases hw : (writesOf t crate cpu (j.call m))[s.pos k']? with
        | none => have := List.getElem?_eq_none_iff.1 hw; simp only; omega
        | some w =>
          have := (List.getElem?_eq_some_iff.1 hw).1
          simp only [if_true]; omega
      rw [this, List.count_cons_self]
      omega
    · have : (s.step t crate cpu tasks k').pos k = s.pos k := by
        unfold Parallel.step
        split
        · rfl
        · split
          · rfl
          · simp only [Ne.symm e, if_false]
      rw [this, List.count_cons_of_ne e]

end Verif
