import Verif.Lemmas.Parallel
/-!
# C102: images that share memory

Conversions that run at the same time on images placed in one memory, with buffers that overlap: two
fields of a frame, pictures side by side, a source and a destination that are parts of the same frame.
-/

namespace Verif

open Spec (bytesAt strideOf dims)

variable {t : Target} {cpu : Cpu} {c : Call} {out : List Buf}
variable {tasks : List Task} {m : Memory}

/-- C102: conversions in one memory, running at the same time in any order, no byte of which is used for
two things. Each of them stores the image it would store alone, whatever is between its lines; every
byte that belongs to no image keeps its value. -/
theorem C102_parallel (hs : Apart tasks) (hr : Ready t cpu.set tasks m) (schedule : List Nat)
    (hfair : ∀ (k : Nat) (j : Task), tasks[k]? = some j →
      (writesOf t crate cpu (j.call m)).length ≤ schedule.count k) :
    let m' := (Parallel.run t crate cpu tasks schedule ⟨m, fun _ => 0⟩).mem
    (∀ (k : Nat) (j : Task), tasks[k]? = some j → ∃ out, Stores t crate cpu (j.call m) out ∧
      ∀ (i : Nat) (p : Place) (x : Nat), j.dst[i]? = some p → (j.call m).InImage i x →
        m' (p.addr + x) = bytesAt out i x) ∧
    (∀ a, (∀ (k : Nat) (j : Task), tasks[k]? = some j → ¬ j.ImageAt a) → m' a = m a) := by
  intro m'
  have hA := (Advance.init (t := t) (cpu := cpu) hr).run hs hr schedule
  refine ⟨fun k j hj => ?_, hA.frame⟩
  obtain ⟨out, ho⟩ := valid_stores (cpu := cpu) (hr k j hj).1 (hr k j hj).2
  refine ⟨out, ho, fun i p x hp hx => ?_⟩
  have hpos := Parallel.run_pos hs hr schedule (Advance.init (t := t) (cpu := cpu) hr) hj
  have hf := hfair k j hj
  have hk : (Parallel.run t crate cpu tasks schedule ⟨m, fun _ => 0⟩).pos k =
      (writesOf t crate cpu (j.call m)).length := by rw [hpos]; omega
  have hi : i < (j.call m).dst_buffers.length :=
    (List.getElem?_eq_some_iff.1 (Task.dst_at (m := m) hp)).1
  rw [← C101_result ho hi]
  have hd := hA.dst k j hj i p hp x hx
  rw [hk, List.take_length] at hd
  exact hd

/-- C102: whatever the order and however far the conversions have come, all memory outside the images is
as before; in particular the sources are. -/
theorem C102_meanwhile (hs : Apart tasks) (hr : Ready t cpu.set tasks m) (schedule : List Nat) (a : Nat)
    (ha : ∀ (k : Nat) (j : Task), tasks[k]? = some j → ¬ j.ImageAt a) :
    (Parallel.run t crate cpu tasks schedule ⟨m, fun _ => 0⟩).mem a = m a :=
  ((Advance.init (t := t) (cpu := cpu) hr).run hs hr schedule).frame a ha

/-- C102: hence the order of execution is irrelevant, for every byte of the memory. -/
theorem C102_order_irrelevant (hs : Apart tasks) (hr : Ready t cpu.set tasks m) (a b : List Nat)
    (ha : ∀ (k : Nat) (j : Task), tasks[k]? = some j →
      (writesOf t crate cpu (j.call m)).length ≤ a.count k)
    (hb : ∀ (k : Nat) (j : Task), tasks[k]? = some j →
      (writesOf t crate cpu (j.call m)).length ≤ b.count k) :
    (Parallel.run t crate cpu tasks a ⟨m, fun _ => 0⟩).mem =
      (Parallel.run t crate cpu tasks b ⟨m, fun _ => 0⟩).mem := by
  obtain ⟨a1, a2⟩ := C102_parallel hs hr a ha
  obtain ⟨b1, b2⟩ := C102_parallel hs hr b hb
  funext x
  by_cases hx : ∀ (k : Nat) (j : Task), tasks[k]? = some j → ¬ j.ImageAt x
  · rw [a2 x hx, b2 x hx]
  · simp only [Classical.not_forall, Classical.not_not] at hx
    obtain ⟨k, j, hj, i, hi⟩ := hx
    obtain ⟨p, z, hp, hz, rfl⟩ := Task.of_planeAt m hi
    obtain ⟨o, ho, h1⟩ := a1 k j hj
    obtain ⟨o', ho', h2⟩ := b1 k j hj
    cases ho.symm.trans ho'
    rw [h1 i p z hp hz, h2 i p z hp hz]

/-- C103: the same for conversions that run at the same time in one memory: at every moment every byte
of every image is as it was or as it will be. -/
theorem C103_parallel {tasks : List Task} {m : Memory} (hs : Apart tasks) (hr : Ready t cpu.set tasks m)
    (schedule : List Nat) {k : Nat} {j : Task} (hj : tasks[k]? = some j)
    (ho : Stores t crate cpu (j.call m) out) {i : Nat} {p : Place} (hp : j.dst[i]? = some p) {x : Nat}
    (hx : (j.call m).InImage i x) :
    (Parallel.run t crate cpu tasks schedule ⟨m, fun _ => 0⟩).mem (p.addr + x) = m (p.addr + x) ∨
    (Parallel.run t crate cpu tasks schedule ⟨m, fun _ => 0⟩).mem (p.addr + x) = bytesAt out i x := by
  have hA := (Advance.init (t := t) (cpu := cpu) hr).run hs hr schedule
  obtain ⟨p', hp', hlt⟩ := j.inImage_dst (hr k j hj).1 hx
  cases hp.symm.trans hp'
  have hi : i < (j.call m).dst_buffers.length :=
    (List.getElem?_eq_some_iff.1 (Task.dst_at (m := m) hp)).1
  rw [hA.dst k j hj i p hp x hx]
  obtain ⟨h1, h2⟩ := C103_old_or_final (hr k j hj).1 ho
    (ws := (writesOf t crate cpu (j.call m)).take
      ((Parallel.run t crate cpu tasks schedule ⟨m, fun _ => 0⟩).pos k))
    (fun w hw => List.mem_of_mem_take hw) hi x
  by_cases hw : ∃ w ∈ (writesOf t crate cpu (j.call m)).take
      ((Parallel.run t crate cpu tasks schedule ⟨m, fun _ => 0⟩).pos k), w.plane = i ∧ w.idx = x
  · exact .inr (h1 hw)
  · left
    rw [h2 hw]
    simp only [bytesAt, j.dst_at hp, Memory.buf, hlt, if_true]

/-! ## Cases -/

/-- All bytes of the images of some tasks: task, plane, address. -/
def imageBytes (tasks : List Task) : List ((Nat × Nat) × Nat) :=
  (List.range tasks.length).flatMap fun k =>
    match tasks[k]? with
    | none => []
    | some j => (List.range 3).flatMap fun i =>
      match j.dst[i]?, (dims j.dst_format.pixel_format j.dst_format.num_planes.toNat j.width.toNat
          j.height.toNat)[i]? with
      | some p, some (row, rows) => (List.range rows).flatMap fun y => (List.range row).map fun x =>
          ((k, i), p.addr + (strideOf j.dst_strides i row * y + x))
      | _, _ => []

theorem mem_imageBytes {k i a : Nat} {j : Task} (hj : tasks[k]? = some j) (h : j.PlaneAt i a) :
    ((k, i), a) ∈ imageBytes tasks := by
  obtain ⟨p, row, rows, hp, hrc, y, hy, x, hx, rfl⟩ := h
  have hk := (List.getElem?_eq_some_iff.1 hj).1
  have hi : i < 3 := by
    have := dims_length j.dst_format.pixel_format j.dst_format.num_planes.toNat j.width.toNat
      j.height.toNat
    have := (List.getElem?_eq_some_iff.1 hrc).1
    omega
  unfold imageBytes
  simp only [List.mem_flatMap, List.mem_range]
  refine ⟨k, hk, ?_⟩
  rw [hj]
  simp only [List.mem_flatMap, List.mem_range]
  refine ⟨i, hi, ?_⟩
  rw [hp, hrc]
  simp only [List.mem_flatMap, List.mem_range, List.mem_map]
  exact ⟨y, hy, x, hx, rfl⟩

/-- The conversion in the other direction. -/
def Task.reverse (j : Task) : Task :=
  ⟨j.width, j.height, j.dst_format, j.dst_strides, j.dst, j.src_format, j.src_strides, j.src⟩

theorem apart_of_check
    (h1 : ∀ b ∈ imageBytes tasks, ∀ b' ∈ imageBytes tasks, b.2 = b'.2 → b.1 = b'.1)
    (h2 : ∀ b ∈ imageBytes tasks, ∀ b' ∈ imageBytes (tasks.map Task.reverse), b.2 ≠ b'.2) :
    Apart tasks where
  planes k j hj i i' a h h' :=
    congrArg Prod.snd (h1 _ (mem_imageBytes hj h) _ (mem_imageBytes hj h') rfl)
  images := by
    rintro k k' j j' hj hj' a ⟨i, h⟩ ⟨i', h'⟩
    exact congrArg Prod.fst (h1 _ (mem_imageBytes hj h) _ (mem_imageBytes hj' h') rfl)
  sources := by
    rintro k k' j j' hj hj' a ⟨i, h⟩ ⟨i', p, h'⟩
    have hj' : (tasks.map Task.reverse)[k']? = some j'.reverse := by rw [List.getElem?_map, hj']; rfl
    exact h2 _ (mem_imageBytes hj h) _ (mem_imageBytes (i := i') (a := a) hj' ⟨p, h'⟩) rfl

/-- The two fields of a 2x4 picture, converted from Bgra (at address 0, lines of 8 bytes) to Rgb (at
address 100, lines of 6 bytes): every second line each. The buffers of the fields overlap. -/
def exFields : List Task := [
  ⟨2, 2, ⟨.bgra, .rgb, 1⟩, some [16], [⟨0, 24⟩], ⟨.rgb, .rgb, 1⟩, some [12], [⟨100, 18⟩]⟩,
  ⟨2, 2, ⟨.bgra, .rgb, 1⟩, some [16], [⟨8, 24⟩], ⟨.rgb, .rgb, 1⟩, some [12], [⟨106, 18⟩]⟩]

/-- A 4x4 picture encoded as I420 whose chroma planes lie side by side below luma: the lines of both
have distance 4 and the buffers overlap. -/
def exSideBySide : List Task := [
  ⟨4, 4, ⟨.bgra, .rgb, 1⟩, none, [⟨0, 64⟩], ⟨.i420, .bt601, 3⟩, some [4, 4, 4],
    [⟨64, 16⟩, ⟨80, 6⟩, ⟨82, 6⟩]⟩]

/-- The left half of a 4x2 picture (lines of 12 bytes at address 0) converted from Bgr to Rgb into its
right half: the buffers of source and destination overlap. -/
def exHalves : List Task := [
  ⟨2, 2, ⟨.bgr, .rgb, 1⟩, some [12], [⟨0, 18⟩], ⟨.rgb, .rgb, 1⟩, some [12], [⟨6, 18⟩]⟩]

theorem exFields_ready (m : Memory) : Ready .x64 avx2Cpu.set exFields m := by
  have valid : Spec.Valid .x64 (exFields[0].call m) ∧ Spec.Valid .x64 (exFields[1].call m) :=
    ⟨Task.valid_mem m (m := fun _ => 0) (valid_of_check (by decide +kernel)),
      Task.valid_mem m (m := fun _ => 0) (valid_of_check (by decide +kernel))⟩
  intro k j hj
  rcases k with _ | _ | k
  · cases hj; exact ⟨valid.1, .of_ne (fun h => by cases h)⟩
  · cases hj; exact ⟨valid.2, .of_ne (fun h => by cases h)⟩
  · cases hj

theorem exSideBySide_ready (m : Memory) : Ready .x64 avx2Cpu.set exSideBySide m := by
  intro k j hj
  rcases k with _ | k
  · cases hj
    exact ⟨Task.valid_mem m (m := fun _ => 0) (valid_of_check (by decide +kernel)),
      .of_ne (fun h => by cases h)⟩
  · cases hj

theorem exHalves_ready (m : Memory) : Ready .x64 avx2Cpu.set exHalves m := by
  intro k j hj
  rcases k with _ | k
  · cases hj
    exact ⟨Task.valid_mem m (m := fun _ => 0) (valid_of_check (by decide +kernel)), .of_rgb rfl⟩
  · cases hj

theorem exHalves_apart : Apart exHalves := apart_of_check (by decide +kernel) (by decide +kernel)

/-- The left half stays as it is, at any time. -/
example (m : Memory) (schedule : List Nat) :
    (Parallel.run .x64 crate avx2Cpu exHalves schedule ⟨m, fun _ => 0⟩).mem 17 = m 17 := by
  refine C102_meanwhile exHalves_apart (exHalves_ready m) schedule 17 fun k j hj ⟨i, hi⟩ => ?_
  have h : ∀ b ∈ imageBytes exHalves, b.2 ≠ 17 := by decide +kernel
  exact h _ (mem_imageBytes hj hi) rfl

theorem exFields_apart : Apart exFields := apart_of_check (by decide +kernel) (by decide +kernel)
theorem exSideBySide_apart : Apart exSideBySide :=
  apart_of_check (by decide +kernel) (by decide +kernel)

/-- Some order in which both fields get enough turns. -/
example (m : Memory) : ∃ schedule : List Nat, ∀ (k : Nat) (j : Task), exFields[k]? = some j →
    (writesOf .x64 crate avx2Cpu (j.call m)).length ≤ schedule.count k := by
  let n0 := (writesOf .x64 crate avx2Cpu (exFields[0].call m)).length
  let n1 := (writesOf .x64 crate avx2Cpu (exFields[1].call m)).length
  refine ⟨List.replicate n0 0 ++ List.replicate n1 1, fun k j hj => ?_⟩
  rcases k with _ | _ | k
  · cases hj
    rw [List.count_append, List.count_replicate_self]
    exact Nat.le_add_right _ _
  · cases hj
    rw [List.count_append, List.count_replicate_self]
    exact Nat.le_add_left _ _
  · cases hj

/-- Blue of the last pixel of the picture is the last byte of the second field, however the conversions
of the fields are interleaved. -/
example (m : Memory) (schedule : List Nat)
    (hfair : ∀ (k : Nat) (j : Task), exFields[k]? = some j →
      (writesOf .x64 crate avx2Cpu (j.call m)).length ≤ schedule.count k) :
    ∃ out, Stores .x64 crate avx2Cpu (exFields[1].call m) out ∧
      (Parallel.run .x64 crate avx2Cpu exFields schedule ⟨m, fun _ => 0⟩).mem 123 = bytesAt out 0 17 := by
  obtain ⟨out, ho, h⟩ := (C102_parallel exFields_apart (exFields_ready m) schedule hfair).1 1 _ rfl
  exact ⟨out, ho, h 0 ⟨106, 18⟩ 17 rfl ⟨6, 2, rfl, 1, by omega, 5, by omega, rfl⟩⟩

/-- Without `Apart` it fails: the hypothesis rules out fields that overlap by a byte. -/
example : ¬ Apart [exFields[0],
    { exFields[1] with dst := [⟨105, 18⟩] }] := by
  intro h
  have := h.images 0 1 _ _ rfl rfl 105
    ⟨0, ⟨100, 18⟩, 6, 2, rfl, rfl, 0, by omega, 5, by omega, rfl⟩
    ⟨0, ⟨105, 18⟩, 6, 2, rfl, rfl, 0, by omega, 0, by omega, rfl⟩
  cases this

end Verif
