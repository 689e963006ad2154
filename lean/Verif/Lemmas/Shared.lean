import Verif.Model.Shared
/-! # Conversions on shared memory: the invariant of any schedule -/

namespace Verif

variable {t : Target} {impls : InstructionSet → Impl} {cpu : Cpu} {jobs : List Job}

/-- What Rust's borrow rules guarantee for conversions running at the same time: the destination
regions of a conversion are different from each other, from all sources, and from the destinations
of the other conversions. -/
structure Separate (jobs : List Job) : Prop where
  own : ∀ (k : Nat) (j : Job), jobs[k]? = some j → (j.dst.map Prod.fst).Nodup
  src : ∀ (k k' : Nat) (j j' : Job), jobs[k]? = some j → jobs[k']? = some j' →
    ∀ r, r ∈ j.dst.map Prod.fst → r ∉ j'.src.map Prod.fst
  dst : ∀ (k k' : Nat) (j j' : Job), jobs[k]? = some j → jobs[k']? = some j' → k ≠ k' →
    ∀ r, r ∈ j.dst.map Prod.fst → r ∉ j'.dst.map Prod.fst

theorem buffersIn_congr {m m' : Regions} {l : List (Nat × Nat)}
    (h : ∀ r, r ∈ l.map Prod.fst → m r = m' r) : buffersIn m l = buffersIn m' l := by
  unfold buffersIn
  apply List.map_congr_left
  intro r hr
  rw [h r.1 (List.mem_map_of_mem hr)]

theorem dstSlices_buffersIn (m m' : Regions) (l : List (Nat × Nat)) :
    dstSlices (buffersIn m l) = dstSlices (buffersIn m' l) := by
  unfold dstSlices buffersIn
  apply List.ext_getElem?
  intro i
  simp only [List.getElem?_mapIdx, List.getElem?_map]
  cases l[i]? <;> rfl

/-- The writes of a job depend on the contents of its sources only. -/
theorem writesOf_congr (j : Job) {m m' : Regions} (h : ∀ r, r ∈ j.src.map Prod.fst → m r = m' r) :
    writesOf t impls cpu (j.call m) = writesOf t impls cpu (j.call m') := by
  unfold writesOf Job.call
  simp only [buffersIn_congr h, dstSlices_buffersIn m m']

theorem apply_append (m : Mem) (a b : List Write) : m.apply (a ++ b) = (m.apply a).apply b := by
  unfold Mem.apply
  rw [List.foldl_append]

/-- State of the memory after every job has performed the first `pos` of its writes. -/
structure Progress (t : Target) (impls : InstructionSet → Impl) (cpu : Cpu) (jobs : List Job)
    (m : Regions) (s : Shared) : Prop where
  frame : ∀ r, (∀ (k : Nat) (j : Job), jobs[k]? = some j → r ∉ j.dst.map Prod.fst) → s.mem r = m r
  pos : ∀ (k : Nat) (j : Job), jobs[k]? = some j →
    s.pos k ≤ (writesOf t impls cpu (j.call m)).length
  dst : ∀ (k : Nat) (j : Job), jobs[k]? = some j → ∀ (p : Nat) (r : Nat × Nat), j.dst[p]? = some r →
    s.mem r.1 = ((memOf (buffersIn m j.dst)).apply
      ((writesOf t impls cpu (j.call m)).take (s.pos k))) p

theorem Progress.init (m : Regions) : Progress t impls cpu jobs m ⟨m, fun _ => 0⟩ := by
  refine ⟨fun _ _ => rfl, fun _ _ _ => Nat.zero_le _, fun k j _ p r hr => ?_⟩
  funext i
  simp only [List.take_zero, Mem.apply, List.foldl_nil, memOf, buffersIn, List.getElem?_map, hr,
    Option.map_some]

theorem nodup_getElem? {l : List (Nat × Nat)} (h : (l.map Prod.fst).Nodup) {p q : Nat}
    {r r' : Nat × Nat} (hp : l[p]? = some r) (hq : l[q]? = some r') (he : r.1 = r'.1) : p = q := by
  have h1 : (l.map Prod.fst)[p]? = some r.1 := by rw [List.getElem?_map, hp]; rfl
  have h2 : (l.map Prod.fst)[q]? = some r.1 := by rw [List.getElem?_map, hq, he]; rfl
  have hlt : p < (l.map Prod.fst).length := (List.getElem?_eq_some_iff.1 h1).1
  exact (List.getElem?_inj hlt h).1 (h1.trans h2.symm)

theorem mem_fst {l : List (Nat × Nat)} {p : Nat} {r : Nat × Nat} (h : l[p]? = some r) :
    r.1 ∈ l.map Prod.fst := List.mem_map_of_mem (List.mem_of_getElem? h)

theorem Progress.same_writes (hs : Separate jobs) {m : Regions} {s : Shared}
    (h : Progress t impls cpu jobs m s) {k : Nat} {j : Job} (hj : jobs[k]? = some j) :
    writesOf t impls cpu (j.call s.mem) = writesOf t impls cpu (j.call m) := by
  apply writesOf_congr
  intro r hr
  exact h.frame r fun k' j' hj' hd => hs.src k' k j' j hj' hj r hd hr

theorem Progress.step (hs : Separate jobs) {m : Regions} {s : Shared}
    (h : Progress t impls cpu jobs m s) (k : Nat) :
    Progress t impls cpu jobs m (s.step t impls cpu jobs k) := by
  unfold Shared.step
  cases hj : jobs[k]? with
  | none => exact h
  | some j =>
    simp only
    rw [h.same_writes hs hj]
    cases hw : (writesOf t impls cpu (j.call m))[s.pos k]? with
    | none => exact h
    | some w =>
      simp only
      have htake : (writesOf t impls cpu (j.call m)).take (s.pos k + 1) =
          (writesOf t impls cpu (j.call m)).take (s.pos k) ++ [w] := by
        rw [List.take_add_one, hw]; rfl
      have hlt : s.pos k < (writesOf t impls cpu (j.call m)).length :=
        (List.getElem?_eq_some_iff.1 hw).1
      have hpos : ∀ (k' : Nat) (j' : Job), jobs[k']? = some j' →
          (if k' = k then s.pos k + 1 else s.pos k') ≤
            (writesOf t impls cpu (j'.call m)).length := by
        intro k' j' hj'
        split
        · rename_i e
          subst e
          rw [hj] at hj'
          cases hj'
          omega
        · exact h.pos k' j' hj'
      cases hd : j.dst[w.plane]? with
      | none =>
        refine ⟨h.frame, hpos, ?_⟩
        intro k' j' hj' p r hr
        simp only
        split
        · rename_i e
          subst e
          rw [hj] at hj'
          cases hj'
          rw [htake, apply_append, h.dst k' j hj p r hr]
          funext i
          have hne : p ≠ w.plane := by rintro rfl; rw [hd] at hr; cases hr
          simp only [Mem.apply, List.foldl_cons, List.foldl_nil, Mem.set, hne, false_and, if_false]
        · exact h.dst k' j' hj' p r hr
      | some r0 =>
        simp only
        refine ⟨?_, hpos, ?_⟩
        · intro r hr
          have hne : r ≠ r0.1 := by rintro rfl; exact hr k j hj (mem_fst hd)
          funext i
          simp only [Regions.put, hne, false_and, if_false]
          rw [h.frame r hr]
        · intro k' j' hj' p r hr
          simp only
          by_cases e : k' = k
          · subst e
            rw [hj] at hj'
            cases hj'
            rw [if_pos rfl, htake, apply_append]
            have hold := h.dst k' j hj p r hr
            funext i
            simp only [Regions.put, Mem.apply, List.foldl_cons, List.foldl_nil, Mem.set]
            by_cases ep : p = w.plane
            · subst ep
              rw [hd] at hr
              cases hr
              simp only [true_and]
              split
              · rfl
              · rw [hold]; rfl
            · have hne : r.1 ≠ r0.1 := fun e => ep (nodup_getElem? (hs.own k' j hj) hr hd e)
              simp only [hne, ep, false_and, if_false]
              rw [hold]; rfl
          · rw [if_neg e]
            have hne : r.1 ≠ r0.1 := by
              intro e'
              exact hs.dst k' k j' j hj' hj e r.1 (mem_fst hr) (e' ▸ mem_fst hd)
            funext i
            simp only [Regions.put, hne, false_and, if_false]
            rw [h.dst k' j' hj' p r hr]

theorem Progress.run (hs : Separate jobs) {m : Regions} (ks : List Nat) {s : Shared}
    (h : Progress t impls cpu jobs m s) :
    Progress t impls cpu jobs m (Shared.run t impls cpu jobs ks s) := by
  induction ks generalizing s with
  | nil => exact h
  | cons k ks ih => exact ih (h.step hs k)

/-- Turns are not wasted: a job's position is its number of turns, until it is finished. -/
theorem Shared.run_pos (hs : Separate jobs) {m : Regions} (ks : List Nat) {s : Shared}
    (h : Progress t impls cpu jobs m s) {k : Nat} {j : Job} (hj : jobs[k]? = some j) :
    (Shared.run t impls cpu jobs ks s).pos k =
      min (s.pos k + ks.count k) (writesOf t impls cpu (j.call m)).length := by
  induction ks generalizing s with
  | nil => have := h.pos k j hj; simp only [Shared.run, List.count_nil]; omega
  | cons k' ks ih =>
    rw [Shared.run, ih (h.step hs k')]
    have hp := h.pos k j hj
    by_cases e : k' = k
    · subst e
      have : (s.step t impls cpu jobs k').pos k' =
          min (s.pos k' + 1) (writesOf t impls cpu (j.call m)).length := by
        unfold Shared.step
        rw [hj]
        simp only
        rw [h.same_writes hs hj]
        cases hw : (writesOf t impls cpu (j.call m))[s.pos k']? with
        | none => have := List.getElem?_eq_none_iff.1 hw; simp only; omega
        | some w =>
          have := (List.getElem?_eq_some_iff.1 hw).1
          simp only [if_true]; omega
      rw [this, List.count_cons_self]
      omega
    · have : (s.step t impls cpu jobs k').pos k = s.pos k := by
        unfold Shared.step
        split
        · rfl
        · split
          · rfl
          · simp only [Ne.symm e, if_false]
      rw [this, List.count_cons_of_ne e]

/-- The result of a call in terms of its writes. -/
theorem convert_writes {c : Call} {r : Except ErrorKind Unit} {out : List Buf}
    (h : convert t impls cpu c = .ok (r, out)) :
    out = withMem c.dst_buffers ((memOf c.dst_buffers).apply (writesOf t impls cpu c)) := by
  unfold convert convertHook at h
  unfold writesOf
  cases hc : Context.new cpu with
  | error e => rw [hc] at h; cases h
  | ok ctx =>
    rw [hc] at h
    simp only [bind, Except.bind] at h
    unfold convert_image at h
    simp only
    split at h
    · cases h
    · rename_i r' ws hw
      rw [hw]
      cases h
      rfl

end Verif
