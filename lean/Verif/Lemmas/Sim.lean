import Verif.Lemmas.WpX86
/-!
# Offsets do not overflow before an access out of bounds

The kernels compute their offsets in `usize`. The lemmas about them are proved for exact offsets. Here
are the rules to show that both agree: an offset is at most one line beyond an access made before,
which was within the buffer.
-/

namespace Verif

/-- What holds if `k` completes. -/
def K.Post {α : Type} (k : K α) (Q : α → Prop) : Prop := ∀ a ws, k.run = .ok (a, ws) → Q a

namespace K.Post

variable {α β : Type}

theorem wp {k : K α} {Q : α → Prop} (h : K.Wp False True k Q) : K.Post k Q :=
  fun _ _ hr => h.post hr

theorem any {k : K α} : K.Post k (fun _ => True) := fun _ _ _ => trivial

theorem mono {k : K α} {P Q : α → Prop} (h : K.Post k P) (h' : ∀ a, P a → Q a) : K.Post k Q :=
  fun a ws hr => h' a (h a ws hr)

theorem bind {k : K α} {f : α → K β} {P : α → Prop} {Q : β → Prop} (h : K.Post k P)
    (h' : ∀ a, P a → K.Post (f a) Q) : K.Post (k >>= f) Q := by
  intro b ws hr
  rw [K.bind_def, K.bind] at hr
  rcases k with ⟨_ | ⟨a, w1⟩⟩
  · cases hr
  · simp only at hr
    rcases hf : (f a).run with _ | ⟨b', w2⟩
    · rw [hf] at hr; cases hr
    · rw [hf] at hr
      cases hr
      exact h' a (h a w1 rfl) _ _ hf

theorem last {k : K α} {f : α → K β} {Q : β → Prop} (h : ∀ a, K.Post (f a) Q) :
    K.Post (k >>= f) Q := any.bind fun a _ => h a

theorem first {k : K α} {f : α → K β} {P : Prop} (h : K.Post k (fun _ => P)) :
    K.Post (k >>= f) (fun _ => P) := h.bind fun _ hp _ _ _ => hp

end K.Post

/-- `k` and `k'` behave alike, and `Q` holds if they complete. -/
def K.Sim {α : Type} (k k' : K α) (Q : α → Prop) : Prop := k = k' ∧ K.Post k' Q

namespace K.Sim

variable {α β : Type}

theorem refl {k : K α} {Q : α → Prop} (h : K.Post k Q) : K.Sim k k Q := ⟨rfl, h⟩

theorem any {k : K α} : K.Sim k k (fun _ => True) := refl .any

theorem mono {k k' : K α} {P Q : α → Prop} (h : K.Sim k k' P) (h' : ∀ a, P a → Q a) :
    K.Sim k k' Q := ⟨h.1, h.2.mono h'⟩

theorem bind {k k' : K α} {f f' : α → K β} {P : α → Prop} {Q : β → Prop} (h : K.Sim k k' P)
    (h' : ∀ a, P a → K.Sim (f a) (f' a) Q) : K.Sim (k >>= f) (k' >>= f') Q := by
  refine ⟨?_, h.2.bind fun a ha => (h' a ha).2⟩
  obtain ⟨rfl, hp⟩ := h
  rw [K.bind_def, K.bind, K.bind_def, K.bind]
  rcases k with ⟨_ | ⟨a, ws⟩⟩
  · rfl
  · simp only
    rw [(h' a (hp a ws rfl)).1]

theorem forFrom {n : Nat} {f g : Nat → K Unit} {P : Nat → Prop} : ∀ {lo : Nat},
    (∀ i, lo ≤ i → i < lo + n → (∀ j, lo ≤ j → j < i → P j) → K.Sim (f i) (g i) (fun _ => P i)) →
    K.Sim (Verif.forFrom lo n f) (Verif.forFrom lo n g)
      (fun _ => ∀ i, lo ≤ i → i < lo + n → P i) := by
  induction n with
  | zero => intro lo _; exact refl fun _ _ _ i h1 h2 => absurd h2 (by omega)
  | succ n ih =>
    intro lo h
    rw [Verif.forFrom, Verif.forFrom]
    refine bind (h lo (by omega) (by omega) fun j h1 h2 => absurd h1 (by omega)) fun _ h0 => ?_
    refine (ih fun i h1 h2 h3 => h i (by omega) (by omega) fun j h4 h5 => ?_).mono
      fun _ h1 i h2 h3 => ?_
    · rcases Nat.eq_or_lt_of_le h4 with e | e
      · exact e ▸ h0
      · exact h3 j e h5
    · rcases Nat.eq_or_lt_of_le h2 with e | e
      · exact e ▸ h0
      · exact h1 i e (by omega)

theorem forK {n : Nat} {f g : Nat → K Unit} {P : Nat → Prop}
    (h : ∀ i, i < n → (∀ j, j < i → P j) → K.Sim (f i) (g i) (fun _ => P i)) :
    K.Sim (Verif.forK n f) (Verif.forK n g) (fun _ => ∀ i, i < n → P i) :=
  (forFrom fun i _ h2 h3 => h i (by omega) fun j h4 => h3 j (by omega) h4).mono
    fun _ h i hi => h i (by omega) (by omega)

/-- A cell of a grid may use that the cells of the lines before, and those before it in its own line,
have completed. -/
theorem grid {n m : Nat} {f g : Nat → Nat → K Unit} {P : Nat → Nat → Prop}
    (h : ∀ y, y < n → (∀ z, z < y → ∀ x, x < m → P z x) → ∀ x, x < m → (∀ j, j < x → P y j) →
      K.Sim (f y x) (g y x) (fun _ => P y x)) :
    (Verif.forK n fun y => Verif.forK m (f y)) = Verif.forK n fun y => Verif.forK m (g y) :=
  (forK (P := fun y => ∀ x, x < m → P y x) fun y hy h1 =>
    forK fun x hx h2 => h y hy h1 x hx h2).1

theorem forFrom_last (n : Nat) (f : Nat → K Unit) : ∀ lo,
    Verif.forFrom lo (n + 1) f = Verif.forFrom lo n f >>= fun _ => f (lo + n) := by
  induction n with
  | zero =>
    intro lo
    simp only [Verif.forFrom, pure_bind, Nat.add_zero]
    exact bind_pure (f lo)
  | succ n ih =>
    intro lo
    rw [Verif.forFrom, ih, Verif.forFrom, bind_assoc]
    congr 1
    funext _
    congr 1
    funext _
    congr 1
    omega

/-- An iteration may use that those before it have completed. -/
theorem prefixes {n : Nat} {f g : Nat → K Unit}
    (h : ∀ i, i < n → (0 < i → ∃ r, (Verif.forK i g).run = .ok r) → f i = g i) :
    Verif.forK n f = Verif.forK n g := by
  induction n with
  | zero => rfl
  | succ n ih =>
    have e := ih fun i hi => h i (by omega)
    unfold Verif.forK at e ⊢
    rw [forFrom_last, forFrom_last, e]
    refine (bind (P := fun _ => ∃ r, (Verif.forFrom 0 n g).run = .ok r) (refl ?_) fun _ hr =>
      (⟨?_, .any⟩ : K.Sim _ _ (fun _ => True))).1
    · exact fun a ws hr => ⟨_, hr⟩
    · rw [Nat.zero_add]
      exact h n (by omega) fun _ => hr

/-- A product that does not overflow. -/
theorem product {t : Target} {a b : Nat} (hb : a * b < 2 ^ t.bits) : t.mul a b = exactMul a b :=
  X86.mul_ok hb

/-- An offset that does not overflow. -/
theorem index {t : Target} {x y w h : Nat} (hb : h * y + x * w < 2 ^ t.bits) :
    K.Sim (K.lift (wg_index t x y w h)) (K.lift (exactIx x y w h)) (fun a => a = h * y + x * w) := by
  have e : wg_index t x y w h = exactIx x y w h := by
    unfold wg_index exactIx
    rw [X86.mul_ok (by omega), X86.mul_ok (by omega)]
    exact X86.add_ok hb
  rw [e, exactIx, K.lift_ok]
  refine refl fun a ws hr => ?_
  cases hr
  rfl

end K.Sim

/-! ## Bounds -/

/-- A line apart within reach of `usize`. -/
structure Close (t : Target) (len stride : Nat) : Prop where
  sum : len + stride < 2 ^ t.bits
  twice : 2 * len < 2 ^ t.bits

/-- The offset of a line, given that the one before was accessed. -/
theorem line_next {B ss len y o : Nat} (hs : len + ss < B) (h0 : o < B)
    (hz : ∀ z, z < y → ss * z + o ≤ len) : ss * y + o < B := by
  rcases y with _ | n
  · omega
  · have := hz n (by omega)
    rw [Nat.mul_add, Nat.mul_one]
    omega

/-- The offset of an even line, given that the odd one before was accessed. -/
theorem line_even {B ss len y o : Nat} (hs : len + ss < B) (h0 : o < B)
    (hz : ∀ z, z < y → ss * (2 * z + 1) + o ≤ len) : ss * (2 * y) + o < B := by
  rcases y with _ | n
  · omega
  · have := hz n (by omega)
    rw [show 2 * (n + 1) = 2 * n + 1 + 1 by omega, Nat.mul_add ss (2 * n + 1), Nat.mul_one]
    omega

/-- The offset of an odd line, given that the odd one before, or the block to the left, was accessed. -/
theorem line_odd {B ss len y o o' x : Nat} (hl : 2 * len < B) (h0 : ss < B) (ho : 0 < x → o ≤ o' + len)
    (h3 : 0 < y → 3 * ss < B) (hx0 : x = 0 → o = 0)
    (hx : 0 < x → ss * (2 * y + 1) + o' ≤ len)
    (hz : ∀ z, z < y → ss * (2 * z + 1) + o ≤ len) : ss * (2 * y + 1) + o < B := by
  rcases Nat.eq_zero_or_pos x with e | e
  · have := hx0 e
    rcases y with _ | _ | n
    · omega
    · have := h3 (by omega)
      omega
    · have h5 := hz (n + 1) (by omega)
      have : ss * (2 * (n + 1) + 1) = ss * (2 * n) + 3 * ss := by
        rw [show 2 * (n + 1) + 1 = 2 * n + 3 by omega, Nat.mul_add]; omega
      have : ss * (2 * (n + 2) + 1) = ss * (2 * n) + 5 * ss := by
        rw [show 2 * (n + 2) + 1 = 2 * n + 5 by omega, Nat.mul_add]; omega
      show ss * (2 * (n + 2) + 1) + o < B
      omega
  · have := hx e
    have := ho e
    omega

theorem succ_line (ss y : Nat) : ss * (y + 1) = ss * y + ss := by rw [Nat.mul_add, Nat.mul_one]

/-- Next step: an offset. -/
macro "sim_ix" : tactic =>
  `(tactic| (refine K.Sim.bind (K.Sim.index (by omega)) ?_; rintro _ rfl))

/-- Next step: an access with a rule for what it establishes. -/
macro "sim_op " r:term : tactic =>
  `(tactic| refine K.Sim.bind (K.Sim.refl (K.Post.wp ($r))) fun _ _ => ?_)

/-- Next step: something that does not matter. -/
macro "sim_any" : tactic => `(tactic| refine K.Sim.bind K.Sim.any fun _ _ => ?_)

end Verif
