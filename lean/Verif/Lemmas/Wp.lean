import Verif.Lemmas.ImplOk
import Verif.Lemmas.SimdImpl
/-!
# Exactly when a kernel stays in bounds

`Wp S X k Q`: if `k` completes its value satisfies `Q`; if it accesses memory out of bounds then `S` is
false; the only other fault is an overflow, which is possible only if `X`. With `S` and `Q` both "the
planes lie inside their buffers" and `X` false this says that the kernel completes if and only if they
do, and that nothing but an out-of-bounds access happens otherwise.
-/

namespace Verif

/-- See the head of this file. -/
def K.Wp {α : Type} (S X : Prop) (k : K α) (Q : α → Prop) : Prop :=
  match k.run with
  | .ok (a, _) => Q a
  | .error e => (¬ S ∧ (e = .oobRead ∨ e = .oobWrite)) ∨ (e = .overflow ∧ X)

namespace K.Wp

variable {α β : Type} {S X : Prop}

theorem pure {a : α} {Q : α → Prop} (h : Q a) : K.Wp S X (Pure.pure a) Q := h

theorem bind {k : K α} {f : α → K β} {P : α → Prop} {Q : β → Prop} (h : K.Wp S X k P)
    (h' : ∀ a, P a → K.Wp S X (f a) Q) : K.Wp S X (k >>= f) Q := by
  rw [K.bind_def, K.bind]
  unfold K.Wp at h ⊢
  rcases k with ⟨_ | ⟨a, ws⟩⟩
  · exact h
  · simp only at h ⊢
    have := h' a h
    unfold K.Wp at this
    rcases hf : (f a).run with _ | ⟨b, ws'⟩
    · rw [hf] at this; simp only at this ⊢; exact this
    · rw [hf] at this; simp only at this ⊢; exact this

theorem mono {k : K α} {P Q : α → Prop} (h : K.Wp S X k P) (h' : ∀ a, P a → Q a) :
    K.Wp S X k Q := by
  unfold K.Wp at h ⊢
  split at h
  · rename_i e; exact h' _ h
  · exact h

theorem weaken {S' X' : Prop} {k : K α} {Q : α → Prop} (h : K.Wp S X k Q) (hS : S' → S)
    (hX : X → X') : K.Wp S' X' k Q := by
  unfold K.Wp at h ⊢
  split at h
  · exact h
  · exact h.imp (fun h => ⟨fun s => h.1 (hS s), h.2⟩) fun h => ⟨h.1, hX h.2⟩

theorem lift {r : R α} {v : α} {Q : α → Prop} (h : r = .ok v) (hq : Q v) :
    K.Wp S X (K.lift r) Q := by
  rw [h]; exact hq

theorem rd {s : Buf} {i : Nat} (h : S → i < s.len) :
    K.Wp S X (Verif.rd s i) (fun _ => i < s.len) := by
  unfold Verif.rd
  split
  · exact pure (by assumption)
  · exact .inl ⟨fun hs => absurd (h hs) (by assumption), .inl rfl⟩

theorem wr {d : Dst} {i : Nat} {v : UInt8} (h : S → i < d.len) :
    K.Wp S X (Verif.wr d i v) (fun _ => i < d.len) := by
  unfold Verif.wr
  split
  · rename_i hi; exact hi
  · exact .inl ⟨fun hs => absurd (h hs) (by assumption), .inr rfl⟩

theorem load {s : Buf} {i n : Nat} (h : S → i + n ≤ s.len) :
    K.Wp S X (Simd.load s i n) (fun _ => i + n ≤ s.len) := by
  unfold Simd.load
  split
  · exact pure (by assumption)
  · exact .inl ⟨fun hs => absurd (h hs) (by assumption), .inl rfl⟩

theorem loadu64 {s : Buf} {i : Nat} (h : S → i + 8 ≤ s.len) :
    K.Wp S X (X86.loadu64 s i) (fun _ => i + 8 ≤ s.len) := by
  unfold X86.loadu64
  split
  · exact pure (by assumption)
  · exact .inl ⟨fun hs => absurd (h hs) (by assumption), .inl rfl⟩

theorem loadu32 {s : Buf} {i : Nat} (h : S → i + 4 ≤ s.len) :
    K.Wp S X (X86.loadu32 s i) (fun _ => i + 4 ≤ s.len) := by
  unfold X86.loadu32
  split
  · exact pure (by assumption)
  · exact .inl ⟨fun hs => absurd (h hs) (by assumption), .inl rfl⟩

theorem storeu64 {s : Dst} {i : Nat} {v : BitVec 64} (h : S → i + 8 ≤ s.len) :
    K.Wp S X (X86.storeu64 s i v) (fun _ => i + 8 ≤ s.len) := by
  unfold X86.storeu64
  split
  · rename_i hi; exact hi
  · exact .inl ⟨fun hs => absurd (h hs) (by assumption), .inr rfl⟩

theorem storeu32 {s : Dst} {i : Nat} {v : BitVec 32} (h : S → i + 4 ≤ s.len) :
    K.Wp S X (X86.storeu32 s i v) (fun _ => i + 4 ≤ s.len) := by
  unfold X86.storeu32
  split
  · rename_i hi; exact hi
  · exact .inl ⟨fun hs => absurd (h hs) (by assumption), .inr rfl⟩

/-- A loop; iteration `i` may use what the previous ones established. -/
theorem forFrom {n : Nat} {f : Nat → K Unit} {P : Nat → Prop} : ∀ {lo : Nat},
    (∀ i, i < n → (∀ j, j < i → P (lo + j)) → K.Wp S X (f (lo + i)) (fun _ => P (lo + i))) →
    K.Wp S X (Verif.forFrom lo n f) (fun _ => ∀ i, i < n → P (lo + i)) := by
  induction n with
  | zero => intro lo _; exact pure (by intro i hi; omega)
  | succ n ih =>
    intro lo h
    rw [Verif.forFrom]
    refine bind (h 0 (by omega) (by intro j hj; omega)) fun _ h0 => ?_
    refine (ih (lo := lo + 1) ?_).mono ?_
    · intro i hi hp
      have := h (i + 1) (by omega) ?_
      · rwa [show lo + (i + 1) = lo + 1 + i by omega] at this
      · intro j hj
        rcases j with _ | j
        · exact h0
        · have := hp j (by omega)
          rwa [show lo + (j + 1) = lo + 1 + j by omega]
    · intro _ hp i hi
      rcases i with _ | i
      · exact h0
      · have := hp i (by omega)
        rwa [show lo + (i + 1) = lo + 1 + i by omega]

theorem forK' {n : Nat} {f : Nat → K Unit} {P : Nat → Prop}
    (h : ∀ i, i < n → (∀ j, j < i → P j) → K.Wp S X (f i) (fun _ => P i)) :
    K.Wp S X (Verif.forK n f) (fun _ => ∀ i, i < n → P i) := by
  have := forFrom (S := S) (X := X) (lo := 0) (n := n) (f := f) (P := P) (by simpa using h)
  simpa [Verif.forK] using this

theorem forK {n : Nat} {f : Nat → K Unit} {P : Nat → Prop}
    (h : ∀ i, i < n → K.Wp S X (f i) (fun _ => P i)) :
    K.Wp S X (Verif.forK n f) (fun _ => ∀ i, i < n → P i) := forK' fun i hi _ => h i hi

theorem grid {n m : Nat} {f : Nat → Nat → K Unit} {P : Nat → Nat → Prop}
    (h : ∀ y, y < n → ∀ x, x < m → K.Wp S X (f y x) (fun _ => P y x)) :
    K.Wp S X (Verif.forK n fun y => Verif.forK m fun x => f y x)
      (fun _ => ∀ y, y < n → ∀ x, x < m → P y x) :=
  forK fun y hy => forK fun x hx => h y hy x hx

theorem iterK {σ : Type} {n : Nat} {f : σ → K σ} : ∀ {I : Nat → σ → Prop} {s : σ}, I 0 s →
    (∀ i s, i < n → I i s → K.Wp S X (f s) (I (i + 1))) → K.Wp S X (Verif.iterK n f s) (I n) := by
  induction n with
  | zero => intro I s h0 _; exact pure h0
  | succ n ih =>
    intro I s h0 h
    rw [Verif.iterK]
    exact bind (h 0 s (by omega) h0) fun s' h1 =>
      ih (I := fun i => I (i + 1)) h1 fun i s hi hs => h (i + 1) s (by omega) hs

theorem whileK {σ : Type} {n : Nat} {cond : σ → Bool} {f : σ → K σ} :
    ∀ {I : Nat → σ → Prop} {s : σ} {fuel : Nat}, n ≤ fuel → I 0 s →
    (∀ i s, i < n → I i s → cond s = true ∧ K.Wp S X (f s) (I (i + 1))) →
    (∀ s, I n s → cond s = false) → K.Wp S X (Verif.whileK fuel cond f s) (I n) := by
  induction n with
  | zero =>
    intro I s fuel _ h0 _ hf
    rcases fuel with _ | fuel <;> rw [Verif.whileK, if_neg (by simp [hf s h0])] <;> exact pure h0
  | succ n ih =>
    intro I s fuel hn h0 h hf
    obtain ⟨fuel, rfl⟩ : ∃ m, fuel = m + 1 := ⟨fuel - 1, by omega⟩
    obtain ⟨hc, h1⟩ := h 0 s (by omega) h0
    rw [Verif.whileK, if_pos hc]
    exact bind h1 fun s' h1 =>
      ih (I := fun i => I (i + 1)) (by omega) h1 (fun i s hi hs => h (i + 1) s (by omega) hs) hf

theorem store {d : Dst} {i n : Nat} {r : Simd.Reg} (hn : 0 < n) (h : S → i + n ≤ d.len) :
    K.Wp S X (Simd.store d i r n) (fun _ => i + n ≤ d.len) := by
  unfold Simd.store
  refine (forK (P := fun j => i + j < d.len) fun j hj => wr fun hs => ?_).mono fun _ h => ?_
  · have := h hs; omega
  · have := h (n - 1) (by omega); omega

/-- The routine completes if `S` holds and nothing overflows. -/
theorem ran {k : K α} {Q : α → Prop} (h : K.Wp S X k Q) (hs : S) (hx : ¬ X) :
    ∃ r, k.run = .ok r := by
  unfold K.Wp at h
  cases hr : k.run with
  | ok r => exact ⟨r, rfl⟩
  | error e =>
    rw [hr] at h
    rcases h with h | h
    · exact absurd hs h.1
    · exact absurd h.2 hx

/-- What follows if the routine completes. -/
theorem post {k : K α} {Q : α → Prop} (h : K.Wp S X k Q) {a : α} {ws : List Write}
    (hr : k.run = .ok (a, ws)) : Q a := by
  unfold K.Wp at h
  rw [hr] at h
  exact h

/-- What follows if the routine faults. -/
theorem fault {k : K α} {Q : α → Prop} (h : K.Wp S X k Q) {e : Fault}
    (hr : k.run = .error e) : (¬ S ∧ (e = .oobRead ∨ e = .oobWrite)) ∨ (e = .overflow ∧ X) := by
  unfold K.Wp at h
  rw [hr] at h
  exact h

end K.Wp

/-- The last of `h` lines of `row` bytes at distance `stride` ends inside `len` bytes. -/
def Ext (len stride row h : Nat) : Prop := stride * (h - 1) + row ≤ len

theorem Ext.at {len stride row h : Nat} (e : Ext len stride row h) {y : Nat} (hy : y < h) :
    stride * y + row ≤ len := by
  have h1 : stride * y ≤ stride * (h - 1) := Nat.mul_le_mul_left _ (by omega)
  have := e
  unfold Ext at this
  omega

end Verif
