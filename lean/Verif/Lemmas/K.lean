import Verif.Model.Basic
/-! # Reasoning rules for the execution model -/

namespace Verif

namespace K

theorem bind_def {α β : Type} (x : K α) (f : α → K β) : (x >>= f) = K.bind x f := rfl
theorem pure_def {α : Type} (a : α) : (pure a : K α) = K.ok a [] := rfl

@[simp] theorem ok_nil_bind {α β : Type} (a : α) (f : α → K β) : (K.ok a [] >>= f) = f a := by
  simp only [bind_def, K.bind]
  rcases h : (f a) with ⟨r⟩
  cases r with
  | error e => rfl
  | ok p => rfl

theorem kpure_bind {α β : Type} (a : α) (f : α → K β) : (pure a >>= f) = f a := ok_nil_bind a f

@[simp] theorem throw_bind {α β : Type} (e : Fault) (f : α → K β) :
    (K.throw e >>= f) = K.throw e := rfl

theorem bind_pure' {α : Type} (x : K α) : (x >>= fun a => pure a) = x := by
  rcases x with ⟨r⟩
  cases r with
  | error e => rfl
  | ok p => simp [bind_def, K.bind, pure_def]

theorem bind_assoc' {α β γ : Type} (x : K α) (f : α → K β) (g : β → K γ) :
    (x >>= f >>= g) = (x >>= fun a => f a >>= g) := by
  rcases x with ⟨r⟩
  cases r with
  | error e => rfl
  | ok p =>
    rcases p with ⟨a, w⟩
    simp only [bind_def, K.bind]
    rcases h : (f a) with ⟨r⟩
    cases r with
    | error e => rfl
    | ok p =>
      rcases p with ⟨b, w'⟩
      simp only
      rcases h : (g b) with ⟨r⟩
      cases r with
      | error e => rfl
      | ok p => simp

instance : LawfulMonad K :=
  LawfulMonad.mk' (m := K)
    (id_map := fun x => by
      show K.bind x (fun a => pure (id a)) = x
      exact bind_pure' x)
    (pure_bind := fun a f => kpure_bind a f)
    (bind_assoc := fun x f g => bind_assoc' x f g)

@[simp] theorem lift_ok {α : Type} (a : α) : K.lift (.ok a) = (pure a : K α) := rfl
@[simp] theorem lift_error {α : Type} (e : Fault) : K.lift (.error e : R α) = K.throw e := rfl
theorem lift_pure {α : Type} (a : α) : K.lift (pure a) = (pure a : K α) := rfl
@[simp] theorem monadLift_eq {α : Type} (x : R α) : (monadLift x : K α) = K.lift x := rfl
@[simp] theorem liftM_eq {α : Type} (x : R α) : (liftM x : K α) = K.lift x := rfl

end K

theorem rd_eq {s : Buf} {i : Nat} (h : i < s.len) : rd s i = pure (s.bytes i) := by
  simp [rd, h]

theorem wr_eq {d : Dst} {i : Nat} {v : UInt8} (h : i < d.len) :
    wr d i v = K.ok () [⟨d.plane, d.off + i, v⟩] := by
  simp [wr, h]

/-- `Emits k a G`: the routine runs without fault, returns `a`, and the set of its writes
is `G`. -/
def Emits {α : Type} (k : K α) (a : α) (G : Write → Prop) : Prop :=
  ∃ ws, k.run = .ok (a, ws) ∧ ∀ p, p ∈ ws ↔ G p

namespace Emits

theorem congr {α : Type} {k : K α} {a : α} {G H : Write → Prop} (h : Emits k a G)
    (hg : ∀ p, G p ↔ H p) : Emits k a H := by
  obtain ⟨ws, h1, h2⟩ := h
  exact ⟨ws, h1, fun p => (h2 p).trans (hg p)⟩

theorem pure {α : Type} (a : α) : Emits (Pure.pure a) a (fun _ => False) :=
  ⟨[], rfl, by simp⟩

theorem bind {α β : Type} {k : K α} {f : α → K β} {a : α} {b : β} {G H : Write → Prop}
    (h1 : Emits k a G) (h2 : Emits (f a) b H) : Emits (k >>= f) b (fun p => G p ∨ H p) := by
  obtain ⟨ws, e1, m1⟩ := h1
  obtain ⟨ws', e2, m2⟩ := h2
  refine ⟨ws ++ ws', ?_, ?_⟩
  · rw [K.bind_def, K.bind, e1]; simp only [e2]
  · intro p; simp [m1, m2]

/-- Sequencing where the first part writes nothing new to the description. -/
theorem seq {β : Type} {k : K Unit} {f : Unit → K β} {b : β} {G H : Write → Prop}
    (h1 : Emits k () G) (h2 : Emits (f ()) b H) : Emits (k >>= f) b (fun p => G p ∨ H p) :=
  bind h1 h2

theorem then_pure {β : Type} {k : K Unit} {b : β} {G : Write → Prop} (h : Emits k () G) :
    Emits (k >>= fun _ => Pure.pure b) b G :=
  (bind h (pure b)).congr (by simp)

theorem wr {d : Dst} {i : Nat} {v : UInt8} (h : i < d.len) :
    Emits (wr d i v) () (fun p => p = ⟨d.plane, d.off + i, v⟩) := by
  refine ⟨[⟨d.plane, d.off + i, v⟩], ?_, ?_⟩
  · rw [wr_eq h]
  · simp

theorem forFrom {n lo : Nat} {f : Nat → K Unit} {G : Nat → Write → Prop}
    (h : ∀ i, i < n → Emits (f (lo + i)) () (G (lo + i))) :
    Emits (forFrom lo n f) () (fun p => ∃ i, i < n ∧ G (lo + i) p) := by
  induction n generalizing lo with
  | zero => exact (Emits.pure ()).congr (by simp)
  | succ n ih =>
    unfold Verif.forFrom
    refine (bind (h 0 (by omega)) (ih (lo := lo + 1) ?_)).congr ?_
    · intro i hi
      have := h (i + 1) (by omega)
      rwa [show lo + (i + 1) = lo + 1 + i by omega] at this
    · intro p
      constructor
      · rintro (h | ⟨i, hi, h⟩)
        · exact ⟨0, by omega, h⟩
        · exact ⟨i + 1, by omega, by rwa [show lo + (i + 1) = lo + 1 + i by omega]⟩
      · rintro ⟨i, hi, h⟩
        cases i with
        | zero => exact .inl h
        | succ i => exact .inr ⟨i, by omega, by rwa [show lo + (i + 1) = lo + 1 + i by omega] at h⟩

theorem forK {n : Nat} {f : Nat → K Unit} {G : Nat → Write → Prop}
    (h : ∀ i, i < n → Emits (f i) () (G i)) :
    Emits (forK n f) () (fun p => ∃ i, i < n ∧ G i p) := by
  have := forFrom (lo := 0) (n := n) (f := f) (G := G) (by simpa using h)
  simpa [Verif.forK] using this

theorem iterK {σ : Type} {n : Nat} {f : σ → K σ} {s : Nat → σ} {G : Nat → Write → Prop}
    (h : ∀ i, i < n → Emits (f (s i)) (s (i + 1)) (G i)) :
    Emits (iterK n f (s 0)) (s n) (fun p => ∃ i, i < n ∧ G i p) := by
  induction n generalizing s G with
  | zero => exact (Emits.pure _).congr (by simp)
  | succ n ih =>
    unfold Verif.iterK
    refine (bind (h 0 (by omega)) (ih (s := fun i => s (i + 1)) (G := fun i => G (i + 1)) ?_)).congr ?_
    · intro i hi; exact h (i + 1) (by omega)
    · intro p
      constructor
      · rintro (h | ⟨i, hi, h⟩)
        · exact ⟨0, by omega, h⟩
        · exact ⟨i + 1, by omega, h⟩
      · rintro ⟨i, hi, h⟩
        cases i with
        | zero => exact .inl h
        | succ i => exact .inr ⟨i, by omega, h⟩

theorem whileK {σ : Type} {n fuel : Nat} {cond : σ → Bool} {f : σ → K σ} {s : Nat → σ}
    {G : Nat → Write → Prop} (hf : n ≤ fuel)
    (hc : ∀ i, i < n → cond (s i) = true) (hn : cond (s n) = false)
    (h : ∀ i, i < n → Emits (f (s i)) (s (i + 1)) (G i)) :
    Emits (whileK fuel cond f (s 0)) (s n) (fun p => ∃ i, i < n ∧ G i p) := by
  induction fuel generalizing n s G with
  | zero =>
    have : n = 0 := by omega
    subst this
    unfold Verif.whileK
    simp only [hn]
    exact (Emits.pure _).congr (by simp)
  | succ fuel ih =>
    unfold Verif.whileK
    cases n with
    | zero =>
      simp only [hn]
      exact (Emits.pure _).congr (by simp)
    | succ n =>
      simp only [hc 0 (by omega), if_true]
      refine (bind (h 0 (by omega)) (ih (n := n) (s := fun i => s (i + 1))
        (G := fun i => G (i + 1)) (by omega) ?_ hn ?_)).congr ?_
      · intro i hi; exact hc (i + 1) (by omega)
      · intro i hi; exact h (i + 1) (by omega)
      · intro p
        constructor
        · rintro (h | ⟨i, hi, h⟩)
          · exact ⟨0, by omega, h⟩
          · exact ⟨i + 1, by omega, h⟩
        · rintro ⟨i, hi, h⟩
          cases i with
          | zero => exact .inl h
          | succ i => exact .inr ⟨i, by omega, h⟩

end Emits

/-- At most one value is written to each location. -/
def Functional (G : Write → Prop) : Prop :=
  ∀ p i v v', G ⟨p, i, v⟩ → G ⟨p, i, v'⟩ → v = v'

theorem Mem.apply_cons (m : Mem) (w : Write) (ws : List Write) :
    m.apply (w :: ws) = (m.set w).apply ws := rfl

theorem Mem.apply_append (m : Mem) (ws ws' : List Write) :
    m.apply (ws ++ ws') = (m.apply ws).apply ws' := by
  simp [Mem.apply]

theorem Mem.apply_not_mem (m : Mem) (ws : List Write) (p i : Nat)
    (h : ∀ v, (⟨p, i, v⟩ : Write) ∉ ws) : m.apply ws p i = m p i := by
  induction ws generalizing m with
  | nil => rfl
  | cons w ws ih =>
    rw [Mem.apply_cons, ih]
    · simp only [Mem.set]
      rw [if_neg]
      rintro ⟨rfl, rfl⟩
      exact h w.val (by simp)
    · intro v hv; exact h v (by simp [hv])

theorem Mem.apply_mem (m : Mem) (ws : List Write) (p i : Nat) (v : UInt8)
    (hm : (⟨p, i, v⟩ : Write) ∈ ws) (hf : ∀ v', (⟨p, i, v'⟩ : Write) ∈ ws → v' = v) :
    m.apply ws p i = v := by
  induction ws generalizing m with
  | nil => simp at hm
  | cons w ws ih =>
    rw [Mem.apply_cons]
    by_cases h : ∃ v', (⟨p, i, v'⟩ : Write) ∈ ws
    · obtain ⟨v', hv'⟩ := h
      have : v' = v := hf v' (by simp [hv'])
      subst this
      exact ih _ hv' (fun v'' h => hf v'' (by simp [h]))
    · have hne : ∀ v', (⟨p, i, v'⟩ : Write) ∉ ws := fun v' hv' => h ⟨v', hv'⟩
      rw [Mem.apply_not_mem _ _ _ _ hne]
      rcases List.mem_cons.1 hm with hw | hw
      · subst hw; simp [Mem.set]
      · exact absurd hw (hne v)

end Verif
