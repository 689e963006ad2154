import Verif.Props.CApi
import Verif.Spec.CString
/-!
# C88: strings handed to C programs are released exactly once
-/

namespace Verif

open CApi
open Spec (Disciplined unreleased Pokes)

/-- The characters of the description. -/
def Spec.descriptionText (ctx : Context) : List Nat :=
  (describe_acceleration ctx).toList.map Char.toNat

namespace CApi

theorem at_cons (H : Heap) (p q : Nat) (s : List Nat) :
    Heap.at ((p, s) :: H) q = if p = q then some s else H.at q := by
  unfold Heap.at
  rw [List.find?_cons]
  by_cases h : p = q
  · simp [h]
  · rw [show (p == q) = false from beq_eq_false_iff_ne.2 h, if_neg h]

theorem at_filter (H : Heap) (p q : Nat) :
    Heap.at (H.filter fun b => b.1 != p) q = if p = q then none else H.at q := by
  induction H with
  | nil => simp [Heap.at]
  | cons b H ih =>
    obtain ⟨a, s⟩ := b
    rw [List.filter_cons, at_cons]
    by_cases h1 : a = p
    · subst h1
      simp only [bne_self_eq_false, Bool.false_eq_true, if_false, ih]
      split <;> rfl
    · rw [if_pos (by simpa using h1), at_cons, ih]
      by_cases h2 : a = q
      · subst h2; simp [Ne.symm h1]
      · simp [h2]

theorem at_set (H : Heap) (p q : Nat) (s : List Nat) :
    Heap.at (H.map fun c => if c.1 = p then (c.1, s) else c) q =
      if p = q then (H.at q).map fun _ => s else H.at q := by
  induction H with
  | nil => simp [Heap.at]
  | cons b H ih =>
    obtain ⟨a, r⟩ := b
    rw [List.map_cons, at_cons]
    by_cases h1 : a = p
    · subst h1
      simp only [if_true, at_cons, ih]
      by_cases h2 : a = q <;> simp [h2]
    · simp only [if_neg h1, at_cons, ih]
      by_cases h2 : a = q
      · subst h2; simp [Ne.symm h1]
      · simp [h2]

/-- A string of `len` characters in a block of its size. -/
structure StringBlock (len : Nat) (s : List Nat) : Prop where
  text : ∀ k, k < len → ∃ b, s[k]? = some b ∧ b ≠ 0
  nul : s[len]? = some 0
  size : s.length = len + 1

theorem StringBlock.strlen {len : Nat} {s : List Nat} (h : StringBlock len s) :
    strlen s = .ok len ∧ (s.takeWhile (· ≠ 0)).length = len := by
  have hs : s = s.take len ++ [0] := by
    apply List.ext_getElem?
    intro k
    have hl : (s.take len).length = len := by rw [List.length_take, h.size]; omega
    rcases Nat.lt_trichotomy k len with hk | rfl | hk
    · rw [List.getElem?_append_left (by omega), List.getElem?_take_of_lt hk]
    · rw [List.getElem?_append_right (by omega), hl, Nat.sub_self, h.nul]; rfl
    · rw [List.getElem?_eq_none (by rw [h.size]; omega), List.getElem?_eq_none (by simp; omega)]
  have hn : ∀ a ∈ s.take len, decide (a ≠ 0) = true := by
    intro a ha
    obtain ⟨k, hk, rfl⟩ := List.getElem_of_mem ha
    have hk' : k < len := by rw [List.length_take] at hk; omega
    obtain ⟨b, h1, h2⟩ := h.text k hk'
    rw [List.getElem_take, decide_eq_true_eq]
    rw [List.getElem?_eq_getElem (by rw [h.size]; omega)] at h1
    rwa [Option.some.inj h1]
  have hl : (s.takeWhile (· ≠ 0)).length = len := by
    rw [hs, List.takeWhile_append_of_pos hn]
    simp [h.size]
  refine ⟨?_, hl⟩
  unfold CApi.strlen
  rw [if_pos (List.mem_of_getElem? h.nul), hl]

theorem StringBlock.set {len : Nat} {s : List Nat} (h : StringBlock len s) {k b : Nat}
    (hk : k < len) (hb : b ≠ 0) : StringBlock len (s.set k b) := by
  refine ⟨?_, ?_, by rw [List.length_set, h.size]⟩
  · intro j hj
    rw [List.getElem?_set]
    split
    · rw [if_pos (by rw [h.size]; omega)]; exact ⟨b, rfl, hb⟩
    · exact h.text j hj
  · rw [List.getElem?_set, if_neg (by omega), h.nul]

theorem describe_block {cpu : Cpu} {ctx : Context} (h : Context.new cpu = .ok ctx) :
    dcp_describe_acceleration ctx = some (Spec.descriptionText ctx ++ [0]) ∧
    StringBlock (Spec.descriptionText ctx).length (Spec.descriptionText ctx ++ [0]) := by
  have hn : 0 ∉ Spec.descriptionText ctx := by
    intro h0
    obtain ⟨s, e, -⟩ := C56_c_string h
    rw [show dcp_describe_acceleration ctx = none from if_pos h0] at e
    cases e
  refine ⟨if_neg hn, ?_, by simp, by simp⟩
  intro k hk
  rw [List.getElem?_append_left hk, List.getElem?_eq_getElem hk]
  exact ⟨_, rfl, fun e => hn (e ▸ List.getElem_mem hk)⟩

theorem step_poke {ctx : Context} {H : Heap} {ps s : List Nat} {i k b p : Nat}
    (hg : ps.getD i 0 = p) (h1 : H.at p = some s) (hk : k < s.length) :
    StringAct.step ctx H ps (.poke i k b) =
      .ok (H.map fun c => if c.1 = p then (c.1, s.set k b) else c, ps) := by
  unfold StringAct.step
  simp only [hg, h1, if_pos hk]

theorem run_cons {ctx : Context} {H H' : Heap} {ps ps' : List Nat} {a : StringAct}
    {rest : List StringAct} (e : a.step ctx H ps = .ok (H', ps')) :
    runStrings ctx H ps (a :: rest) = runStrings ctx H' ps' rest := by
  show (do
    let x ← a.step ctx H ps
    runStrings ctx x.1 x.2 rest) = _
  rw [e]
  rfl

theorem run_fault {ctx : Context} {H : Heap} {ps : List Nat} {a : StringAct}
    {rest : List StringAct} {f : HeapFault} (e : a.step ctx H ps = .error f) :
    runStrings ctx H ps (a :: rest) = .error f := by
  show (do
    let x ← a.step ctx H ps
    runStrings ctx x.1 x.2 rest) = _
  rw [e]
  rfl

theorem step_describe {cpu : Cpu} {ctx : Context} (h : Context.new cpu = .ok ctx) (H : Heap)
    (ps : List Nat) (place : Nat) : StringAct.step ctx H ps (.describe place) =
      .ok ((place, Spec.descriptionText ctx ++ [0]) :: H, ps ++ [place]) := by
  show (.ok ((describe_string place ctx H).1, ps ++ [(describe_string place ctx H).2]) :
    Except HeapFault (Heap × List Nat)) = _
  unfold describe_string
  rw [(describe_block h).1]

theorem step_release {ctx : Context} {H : Heap} {ps : List Nat} {i p : Nat}
    {r : Except HeapFault Heap} (hg : ps.getD i 0 = p) (h1 : dcp_unref_string H p = r) :
    StringAct.step ctx H ps (.release i) = r.map fun H' => (H', ps) := by
  subst h1 hg
  show (do return (← dcp_unref_string H (ps.getD i 0), ps)) = _
  cases dcp_unref_string H (ps.getD i 0) <;> rfl

theorem unref_block {H : Heap} {p len : Nat} {s : List Nat} (hp : p ≠ 0) (h1 : H.at p = some s)
    (h2 : StringBlock len s) : dcp_unref_string H p = .ok (H.filter fun b => b.1 != p) := by
  unfold dcp_unref_string
  rw [if_neg hp, h1]
  simp only [h2.strlen.1]
  exact if_pos h2.size.symm

theorem unref_short {H : Heap} {p : Nat} {s : List Nat} (hp : p ≠ 0) (h1 : H.at p = some s)
    (h2 : 0 ∈ s) (h3 : (s.takeWhile (· ≠ 0)).length + 1 ≠ s.length) :
    dcp_unref_string H p = .error .wrongSize := by
  unfold dcp_unref_string
  rw [if_neg hp, h1]
  simp only [CApi.strlen, if_pos h2]
  exact if_neg h3

theorem unref_dangling {H : Heap} {p : Nat} (hp : p ≠ 0) (h1 : H.at p = none) :
    dcp_unref_string H p = .error .dangling := by
  unfold dcp_unref_string
  rw [if_neg hp, h1]

theorem takeWhile_le {s : List Nat} {k : Nat} (h : s[k]? = some 0) :
    (s.takeWhile (· ≠ 0)).length ≤ k := by
  induction s generalizing k with
  | nil => cases h
  | cons a s ih =>
    rw [List.takeWhile_cons]
    split
    · cases k with
      | zero => rename_i ha; cases h; exact absurd ha (by decide)
      | succ k => exact Nat.succ_le_succ (ih h)
    · exact Nat.zero_le _

/-- The heap while a program runs. -/
structure StringInv (text : List Nat) (H0 : Heap) (H : Heap) (ps : List Nat)
    (live : List (Nat × Nat)) (poked : Nat → Prop) : Prop where
  handle : ∀ i p, (i, p) ∈ live → ps[i]? = some p
  nonnull : ∀ i p, (i, p) ∈ live → p ≠ 0
  own : ∀ i p, (i, p) ∈ live → H0.at p = none
  apart : ∀ i p j, (i, p) ∈ live → (j, p) ∈ live → i = j
  block : ∀ i p, (i, p) ∈ live → ∃ s, H.at p = some s ∧ StringBlock text.length s ∧
    (¬ poked i → s = text ++ [0])
  rest : ∀ p, (∀ q ∈ live, q.2 ≠ p) → H.at p = H0.at p

theorem run_strings {cpu : Cpu} {ctx : Context} (h : Context.new cpu = .ok ctx) {H0 : Heap}
    (prog : List StringAct) : ∀ {H : Heap} {ps : List Nat} {live : List (Nat × Nat)}
    {poked : Nat → Prop}, StringInv (Spec.descriptionText ctx) H0 H ps live poked →
    Disciplined (Spec.descriptionText ctx).length (fun p => H0.at p ≠ none) live ps.length prog →
    ∃ H' ps', runStrings ctx H ps prog = .ok (H', ps') ∧
      StringInv (Spec.descriptionText ctx) H0 H' ps' (unreleased live ps.length prog)
        (fun i => poked i ∨ Pokes i prog) := by
  induction prog with
  | nil =>
    intro H ps live poked hi _
    refine ⟨H, ps, rfl, hi.handle, hi.nonnull, hi.own, hi.apart, ?_, hi.rest⟩
    intro i p hm
    obtain ⟨s, h1, h2, h3⟩ := hi.block i p hm
    exact ⟨s, h1, h2, fun hp => h3 fun hq => hp (.inl hq)⟩
  | cons a rest ih =>
    intro H ps live poked hi hd
    have weak : ∀ {H' : Heap} {ps' : List Nat} {l : List (Nat × Nat)} {poked' : Nat → Prop},
        (∀ i, poked' i → poked i ∨ Pokes i (a :: rest)) →
        StringInv (Spec.descriptionText ctx) H0 H' ps' l (fun i => poked' i ∨ Pokes i rest) →
        StringInv (Spec.descriptionText ctx) H0 H' ps' l (fun i => poked i ∨ Pokes i (a :: rest)) := by
      intro H' ps' l poked' hp hj
      refine ⟨hj.handle, hj.nonnull, hj.own, hj.apart, ?_, hj.rest⟩
      intro i p hm
      obtain ⟨s, h1, h2, h3⟩ := hj.block i p hm
      refine ⟨s, h1, h2, fun hq => h3 ?_⟩
      rintro (hr | ⟨k, b, hr⟩)
      · exact hq (hp i hr)
      · exact hq (.inr ⟨k, b, List.mem_cons_of_mem _ hr⟩)
    have d2 := (describe_block h).2
    cases a with
    | describe place =>
      obtain ⟨⟨c1, c2, c3⟩, hd⟩ := hd
      have c2 : H0.at place = none := by
        cases e : H0.at place with
        | none => rfl
        | some _ => exact absurd (fun h : H0.at place = none => nomatch e.symm.trans h) c2
      have e := step_describe h H ps place
      have hlt : ∀ i p, (i, p) ∈ live → i < ps.length := by
        intro i p hm
        have := hi.handle i p hm
        exact (List.getElem?_eq_some_iff.1 this).1
      have inv : StringInv (Spec.descriptionText ctx) H0
          ((place, Spec.descriptionText ctx ++ [0]) :: H) (ps ++ [place])
          ((ps.length, place) :: live) poked := by
        refine ⟨?_, ?_, ?_, ?_, ?_, ?_⟩
        · intro i p hm
          rcases List.mem_cons.1 hm with e | hm
          · cases e
            rw [List.getElem?_append_right (Nat.le_refl _), Nat.sub_self]; rfl
          · rw [List.getElem?_append_left (hlt i p hm)]; exact hi.handle i p hm
        · intro i p hm
          rcases List.mem_cons.1 hm with e | hm
          · cases e; exact c1
          · exact hi.nonnull i p hm
        · intro i p hm
          rcases List.mem_cons.1 hm with e | hm
          · cases e; exact c2
          · exact hi.own i p hm
        · intro i p j hm hn
          rcases List.mem_cons.1 hm with e | hm <;> rcases List.mem_cons.1 hn with e' | hn
          · cases e; cases e'; rfl
          · cases e; exact absurd rfl (c3 _ hn)
          · cases e'; exact absurd rfl (c3 _ hm)
          · exact hi.apart i p j hm hn
        · intro i p hm
          rw [at_cons]
          rcases List.mem_cons.1 hm with e | hm
          · cases e
            exact ⟨_, if_pos rfl, d2, fun _ => rfl⟩
          · rw [if_neg (fun e => c3 _ hm e.symm)]
            exact hi.block i p hm
        · intro p hp
          rw [at_cons, if_neg (hp _ (List.mem_cons_self ..))]
          exact hi.rest p fun q hq => hp q (List.mem_cons_of_mem _ hq)
      obtain ⟨H', ps', e', hj⟩ := ih inv (by rw [List.length_append]; exact hd)
      refine ⟨H', ps', ?_, weak (fun i => .inl) ?_⟩
      · rw [run_cons e]; exact e'
      · rw [List.length_append] at hj; exact hj
    | releaseNull =>
      obtain ⟨H', ps', e', hj⟩ := ih hi hd
      exact ⟨H', ps', e', weak (fun i => .inl) hj⟩
    | release i =>
      obtain ⟨⟨p, hm⟩, hd⟩ := hd
      obtain ⟨s, h1, h2, -⟩ := hi.block i p hm
      have hp := hi.handle i p hm
      have hg : ps.getD i 0 = p := by rw [List.getD_eq_getElem?_getD, hp]; rfl
      have e : StringAct.step ctx H ps (.release i) = .ok (H.filter fun b => b.1 != p, ps) :=
        step_release hg (unref_block (hi.nonnull i p hm) h1 h2)
      have sub : ∀ j q, (j, q) ∈ live.filter (fun q => q.1 != i) ↔ (j, q) ∈ live ∧ j ≠ i := by
        intro j q
        rw [List.mem_filter]
        simp
      have inv : StringInv (Spec.descriptionText ctx) H0 (H.filter fun b => b.1 != p) ps
          (live.filter fun q => q.1 != i) poked := by
        refine ⟨fun j q hq => hi.handle j q ((sub j q).1 hq).1,
          fun j q hq => hi.nonnull j q ((sub j q).1 hq).1,
          fun j q hq => hi.own j q ((sub j q).1 hq).1,
          fun j q k hq hr => hi.apart j q k ((sub j q).1 hq).1 ((sub k q).1 hr).1, ?_, ?_⟩
        · intro j q hq
          obtain ⟨hq, hne⟩ := (sub j q).1 hq
          rw [at_filter, if_neg ?_]
          · exact hi.block j q hq
          · rintro rfl; exact hne (hi.apart j p i hq hm)
        · intro q hq
          rw [at_filter]
          split
          · rename_i e; subst e
            exact (hi.own i p hm).symm
          · rename_i hne
            apply hi.rest
            rintro ⟨j, r⟩ hr er
            by_cases hj : j = i
            · subst hj
              have := hi.handle j r hr
              rw [hp] at this
              exact hne ((Option.some.inj this).trans er)
            · exact hq _ ((sub j r).2 ⟨hr, hj⟩) er
      obtain ⟨H', ps', e', hj⟩ := ih inv hd
      refine ⟨H', ps', ?_, weak (fun i => .inl) hj⟩
      rw [run_cons e]; exact e'
    | poke i k b =>
      obtain ⟨⟨⟨p, hm⟩, hk, hb⟩, hd⟩ := hd
      obtain ⟨s, h1, h2, -⟩ := hi.block i p hm
      have hp := hi.handle i p hm
      have hg : ps.getD i 0 = p := by rw [List.getD_eq_getElem?_getD, hp]; rfl
      have e : StringAct.step ctx H ps (.poke i k b) =
          .ok (H.map fun c => if c.1 = p then (c.1, s.set k b) else c, ps) := by
        exact step_poke hg h1 (by rw [h2.size]; omega)
      have inv : StringInv (Spec.descriptionText ctx) H0
          (H.map fun c => if c.1 = p then (c.1, s.set k b) else c) ps live
          (fun j => poked j ∨ j = i) := by
        refine ⟨hi.handle, hi.nonnull, hi.own, hi.apart, ?_, ?_⟩
        · intro j q hq
          rw [at_set]
          split
          · rename_i e; subst e
            refine ⟨_, by rw [h1]; rfl, h2.set hk hb, fun hn => ?_⟩
            exact absurd (.inr (hi.apart j p i hq hm)) hn
          · obtain ⟨s', j1, j2, j3⟩ := hi.block j q hq
            exact ⟨s', j1, j2, fun hn => j3 fun hm => hn (.inl hm)⟩
        · intro q hq
          rw [at_set, if_neg (hq _ hm)]
          exact hi.rest q hq
      obtain ⟨H', ps', e', hj⟩ := ih inv hd
      refine ⟨H', ps', ?_, weak (fun j => ?_) hj⟩
      · rw [run_cons e]; exact e'
      · rintro (hj | rfl)
        · exact .inl hj
        · exact .inr ⟨k, b, List.mem_cons_self ..⟩

end CApi

/-- **C88.** A C program that releases each string at most once, does not use it afterwards and does
not store NUL characters in it never misuses the heap, whatever addresses the allocator chooses.
Strings it has not released are at the addresses it was given, still have the length of the
description, and are the description if the program did not write to them. Everything else on the
heap is what it was in the beginning: strings that were released are gone, and no other block was
touched. -/
theorem C88_strings {cpu : Cpu} {ctx : Context} (h : Context.new cpu = .ok ctx) (H0 : Heap)
    (prog : List StringAct)
    (hd : Disciplined (Spec.descriptionText ctx).length (fun p => H0.at p ≠ none) [] 0 prog) :
    ∃ H ps, runStrings ctx H0 [] prog = .ok (H, ps) ∧
      (∀ i p, (i, p) ∈ unreleased [] 0 prog → ps[i]? = some p ∧
        ∃ s, H.at p = some s ∧ (s.takeWhile (· ≠ 0)).length = (Spec.descriptionText ctx).length ∧
          (¬ Pokes i prog → s = Spec.descriptionText ctx ++ [0])) ∧
      (∀ p, (∀ q ∈ unreleased [] 0 prog, q.2 ≠ p) → H.at p = H0.at p) := by
  obtain ⟨H, ps, e, hi⟩ := run_strings h (H0 := H0) prog (H := H0) (ps := []) (live := [])
    (poked := fun _ => False)
    ⟨fun _ _ h => (nomatch h), fun _ _ h => (nomatch h), fun _ _ h => (nomatch h),
      fun _ _ _ h => (nomatch h), fun _ _ h => (nomatch h), fun _ _ => rfl⟩ hd
  refine ⟨H, ps, e, ?_, hi.rest⟩
  intro i p hm
  obtain ⟨s, h1, h2, h3⟩ := hi.block i p hm
  exact ⟨hi.handle i p hm, s, h1, h2.strlen.2, fun hp => h3 fun hq => hq.elim id hp⟩

/-- **C88.** No leak: if all strings are released, the heap is what it was. -/
theorem C88_no_leak {cpu : Cpu} {ctx : Context} (h : Context.new cpu = .ok ctx) (H0 : Heap)
    (prog : List StringAct)
    (hd : Disciplined (Spec.descriptionText ctx).length (fun p => H0.at p ≠ none) [] 0 prog)
    (hr : unreleased [] 0 prog = []) :
    ∃ H ps, runStrings ctx H0 [] prog = .ok (H, ps) ∧ ∀ p, H.at p = H0.at p := by
  obtain ⟨H, ps, e, -, h2⟩ := C88_strings h H0 prog hd
  refine ⟨H, ps, e, fun p => h2 p ?_⟩
  rw [hr]
  exact fun _ h => nomatch h

/-- A program that meets the hypotheses: two strings, one of them changed, the address of the first
used again for a third; everything is released. -/
example (len : Nat) (hl : 1 < len) : ∃ prog : List StringAct, prog.length = 8 ∧
    Disciplined len (fun p => Heap.at [(40, [1, 2])] p ≠ none) [] 0 prog ∧
    unreleased [] 0 prog = [] := by
  refine ⟨[.describe 8, .describe 16, .poke 1 1 65, .release 0, .describe 8, .releaseNull,
    .release 2, .release 1], rfl, ?_, rfl⟩
  refine ⟨⟨by decide, by decide, fun _ h => (nomatch h)⟩, ⟨by decide, by decide, by decide⟩,
    ⟨⟨16, by decide⟩, hl, by decide⟩, ⟨8, by decide⟩, ⟨by decide, by decide, by decide⟩,
    ⟨8, by decide⟩, ⟨16, by decide⟩, trivial⟩

/-- **C88.** The rules cannot be relaxed: a string that is released twice, or whose text was made
shorter by a NUL character, is undefined behaviour (of the allocator). -/
theorem C88_misuse {cpu : Cpu} {ctx : Context} (h : Context.new cpu = .ok ctx) (H0 : Heap)
    {place k : Nat} (hp : place ≠ 0)
    (hk : k < (Spec.descriptionText ctx).length) :
    runStrings ctx H0 [] [.describe place, .release 0, .release 0] = .error .dangling ∧
    runStrings ctx H0 [] [.describe place, .poke 0 k 0, .release 0] = .error .wrongSize := by
  have d2 := (describe_block h).2
  have a0 : Heap.at ((place, Spec.descriptionText ctx ++ [0]) :: H0) place =
      some (Spec.descriptionText ctx ++ [0]) := by rw [at_cons, if_pos rfl]
  rw [run_cons (step_describe h H0 [] place), run_cons (step_describe h H0 [] place)]
  generalize (place, Spec.descriptionText ctx ++ [0]) :: H0 = H at a0
  generalize Spec.descriptionText ctx ++ [0] = s at a0 d2
  constructor
  · rw [run_cons (step_release (p := place) rfl (unref_block hp a0 d2))]
    exact run_fault (step_release (p := place) rfl (unref_dangling hp (by
      rw [at_filter, if_pos rfl])))
  · have hl : k < s.length := by rw [d2.size]; omega
    have e0 : (s.set k 0)[k]? = some 0 := by rw [List.getElem?_set_self hl]
    have e1 := takeWhile_le e0
    rw [run_cons (step_poke (p := place) rfl a0 hl)]
    refine run_fault (step_release (p := place) rfl (unref_short (s := s.set k 0) hp ?_
      (List.mem_of_getElem? e0) ?_))
    · show Heap.at (H.map fun c => if c.1 = place then (c.1, s.set k 0) else c) place = _
      rw [at_set, if_pos rfl, a0]; rfl
    · rw [List.length_set, d2.size]; omega

/-- There are such strings: the text is not empty. -/
example : ∃ ctx, Context.new avx2Cpu = .ok ctx ∧ 3 < (Spec.descriptionText ctx).length :=
  ⟨_, rfl, by decide +kernel⟩

end Verif
