import Verif.Model.Crate
import Verif.Lemmas.K
import Verif.Lemmas.X86RgbK
/-! # How many bytes a kernel writes -/

namespace Verif

/-- After `a` earlier writes: if the computation completes, its result and the number of all writes so far
satisfy `Q`. -/
structure K.Count {α : Type} (k : K α) (a : Nat) (Q : α → Nat → Prop) : Prop where
  out : ∀ r ws, k.run = .ok (r, ws) → Q r (a + ws.length)

/-- A complete run writes `n` bytes. -/
structure K.Puts {α : Type} (k : K α) (n : Nat) : Prop where
  out : ∀ r ws, k.run = .ok (r, ws) → ws.length = n

/-- A complete run writes at most `n` bytes. -/
structure K.AtMost {α : Type} (k : K α) (n : Nat) : Prop where
  out : ∀ r ws, k.run = .ok (r, ws) → ws.length ≤ n

/-- The run of a sequence. -/
theorem K.run_bind {α β : Type} {k : K α} {f : α → K β} {r : β} {ws : List Write}
    (h : (k >>= f).run = .ok (r, ws)) :
    ∃ a us vs, k.run = .ok (a, us) ∧ (f a).run = .ok (r, vs) ∧ ws = us ++ vs := by
  rw [K.bind_def, K.bind] at h
  rcases h1 : k.run with _ | ⟨a, us⟩
  · rw [h1] at h; cases h
  rw [h1] at h
  simp only at h
  rcases g1 : (f a).run with _ | ⟨c', vs⟩
  · rw [g1] at h; cases h
  rw [g1] at h
  cases h
  exact ⟨a, us, vs, rfl, g1, rfl⟩

namespace K.Puts

variable {α β γ δ : Type}

theorem of {k : K α} {n : Nat} (h : K.Count k 0 (fun _ m => m = n)) : K.Puts k n :=
  ⟨fun r ws e => by simpa using h.out r ws e⟩

theorem lift (x : R α) : K.Puts (liftM x : K α) 0 := by
  refine ⟨fun r ws e => ?_⟩
  rw [K.liftM_eq] at e
  cases x with
  | error _ => cases e
  | ok _ => cases e; rfl

theorem pure (x : α) : K.Puts (Pure.pure x : K α) 0 := ⟨fun r ws e => by cases e; rfl⟩

theorem rd (s : Buf) (i : Nat) : K.Puts (Verif.rd s i) 0 := by
  unfold Verif.rd
  refine ⟨fun a ws e => ?_⟩
  split at e
  · cases e; rfl
  · cases e

theorem wr (d : Dst) (i : Nat) (v : UInt8) : K.Puts (Verif.wr d i v) 1 := by
  unfold Verif.wr
  refine ⟨fun a ws e => ?_⟩
  split at e
  · cases e; rfl
  · cases e

theorem forFrom {f : Nat → K Unit} {c : Nat} (h : ∀ i, K.Puts (f i) c) (n : Nat) :
    ∀ lo, K.Puts (Verif.forFrom lo n f) (n * c) := by
  induction n with
  | zero => intro lo; exact ⟨fun r ws e => by cases e; simp⟩
  | succ n ih =>
    intro lo
    refine ⟨fun r ws e => ?_⟩
    obtain ⟨a, us, vs, e1, e2, rfl⟩ := K.run_bind (k := f lo) (f := fun _ => Verif.forFrom (lo + 1) n f) e
    rw [List.length_append, (h lo).out _ _ e1, (ih (lo + 1)).out _ _ e2, Nat.succ_mul]
    omega

theorem forK {f : Nat → K Unit} {c : Nat} (h : ∀ i, K.Puts (f i) c) (n : Nat) :
    K.Puts (Verif.forK n f) (n * c) := forFrom h n 0

theorem load (s : Buf) (i n : Nat) : K.Puts (Simd.load s i n) 0 := by
  unfold Simd.load
  refine ⟨fun a ws e => ?_⟩
  split at e
  · cases e; rfl
  · cases e

theorem store (d : Dst) (i : Nat) (r : Simd.Reg) (n : Nat) : K.Puts (Simd.store d i r n) n := by
  unfold Simd.store
  have := forK (fun j => wr d (i + j) (r j)) n
  rwa [Nat.mul_one] at this

theorem loadu64 (s : Buf) (i : Nat) : K.Puts (X86.loadu64 s i) 0 := by
  unfold X86.loadu64
  refine ⟨fun a ws e => ?_⟩
  split at e
  · cases e; rfl
  · cases e

theorem loadu32 (s : Buf) (i : Nat) : K.Puts (X86.loadu32 s i) 0 := by
  unfold X86.loadu32
  refine ⟨fun a ws e => ?_⟩
  split at e
  · cases e; rfl
  · cases e

theorem storeu64 (d : Dst) (i : Nat) (v : BitVec 64) : K.Puts (X86.storeu64 d i v) 8 := by
  unfold X86.storeu64
  refine ⟨fun a ws e => ?_⟩
  split at e
  · cases e; simp
  · cases e

theorem storeu32 (d : Dst) (i : Nat) (v : BitVec 32) : K.Puts (X86.storeu32 d i v) 4 := by
  unfold X86.storeu32
  refine ⟨fun a ws e => ?_⟩
  split at e
  · cases e; simp
  · cases e

end K.Puts

namespace K.Count

variable {α β γ δ ε : Type} {a : Nat}

theorem pure {x : α} {Q : α → Nat → Prop} (h : Q x a) : K.Count (Pure.pure x : K α) a Q :=
  ⟨fun r ws e => by cases e; exact h⟩

theorem throw {e : Fault} {Q : α → Nat → Prop} : K.Count (K.throw e : K α) a Q :=
  ⟨fun r ws h => by cases h⟩

theorem last {k : K α} {n : Nat} {Q : α → Nat → Prop} (h : K.Puts k n) (h' : ∀ r, Q r (a + n)) :
    K.Count k a Q := ⟨fun r ws e => by rw [h.out r ws e]; exact h' r⟩

theorem seq {k : K α} {f : α → K β} {n : Nat} {Q : β → Nat → Prop} (h : K.Puts k n)
    (h' : ∀ x, K.Count (f x) (a + n) Q) : K.Count (k >>= f) a Q := by
  refine ⟨fun r ws e => ?_⟩
  obtain ⟨x, us, vs, e1, e2, rfl⟩ := K.run_bind e
  have := (h' x).out r vs e2
  rwa [List.length_append, h.out _ _ e1, ← Nat.add_assoc]

theorem seq2 {k : K (α × β)} {f : α × β → K γ} {n : Nat} {Q : γ → Nat → Prop} (h : K.Puts k n)
    (h' : ∀ x y, K.Count (f (x, y)) (a + n) Q) : K.Count (k >>= f) a Q := seq h fun x => h' x.1 x.2

theorem seq3 {k : K (α × β × γ)} {f : α × β × γ → K δ} {n : Nat} {Q : δ → Nat → Prop} (h : K.Puts k n)
    (h' : ∀ x y z, K.Count (f (x, y, z)) (a + n) Q) : K.Count (k >>= f) a Q :=
  seq h fun x => h' x.1 x.2.1 x.2.2

theorem seq4 {k : K (α × β × γ × ε)} {f : α × β × γ × ε → K δ} {n : Nat} {Q : δ → Nat → Prop}
    (h : K.Puts k n) (h' : ∀ x y z w, K.Count (f (x, y, z, w)) (a + n) Q) : K.Count (k >>= f) a Q :=
  seq h fun x => h' x.1 x.2.1 x.2.2.1 x.2.2.2

/-- Sequencing when the result of the first part matters. -/
theorem bind {k : K α} {f : α → K β} {P : α → Nat → Prop} {Q : β → Nat → Prop} (h : K.Count k a P)
    (h' : ∀ x b, P x b → K.Count (f x) b Q) : K.Count (k >>= f) a Q := by
  refine ⟨fun r ws e => ?_⟩
  obtain ⟨x, us, vs, e1, e2, rfl⟩ := K.run_bind e
  have := (h' x _ (h.out _ _ e1)).out r vs e2
  rwa [List.length_append, ← Nat.add_assoc]

theorem ite {c : Prop} [Decidable c] {k l : K α} {Q : α → Nat → Prop} (h : c → K.Count k a Q)
    (h' : ¬ c → K.Count l a Q) : K.Count (if c then k else l) a Q := by
  split
  · exact h ‹_›
  · exact h' ‹_›

/-- A fixed number of rounds: the invariant `I` counts the rounds. -/
theorem iterK {f : α → K α} {I : Nat → α → Nat → Prop}
    (h : ∀ i s b, I i s b → K.Count (f s) b (fun s' b' => I (i + 1) s' b')) (n : Nat) :
    ∀ i s a, I i s a → K.Count (Verif.iterK n f s) a (fun s' b' => I (i + n) s' b') := by
  induction n with
  | zero => intro i s a h0; exact pure h0
  | succ n ih =>
    intro i s a h0
    refine bind (h i s a h0) fun x b hb => ?_
    have := ih (i + 1) x b hb
    rwa [show i + 1 + n = i + (n + 1) by omega] at this

/-- A loop with a condition. -/
theorem whileK {cond : α → Bool} {f : α → K α} {I : α → Nat → Prop}
    (h : ∀ s b, I s b → cond s = true → K.Count (f s) b I) (n : Nat) :
    ∀ s a, I s a → K.Count (Verif.whileK n cond f s) a I := by
  induction n with
  | zero =>
    intro s a h0
    unfold Verif.whileK
    split
    · exact throw
    · exact pure h0
  | succ n ih =>
    intro s a h0
    unfold Verif.whileK
    split
    · exact bind (h s a h0 ‹_›) fun x b hb => ih x b hb
    · exact pure h0

end K.Count

namespace K.AtMost

variable {α β : Type}

theorem of {k : K α} {n : Nat} (h : K.Count k 0 (fun _ m => m ≤ n)) : K.AtMost k n :=
  ⟨fun r ws e => by simpa using h.out r ws e⟩

theorem puts {k : K α} {n m : Nat} (h : K.Puts k n) (h' : n ≤ m) : K.AtMost k m :=
  ⟨fun r ws e => by rw [h.out r ws e]; exact h'⟩

theorem mono {k : K α} {n m : Nat} (h : K.AtMost k n) (h' : n ≤ m) : K.AtMost k m :=
  ⟨fun r ws e => (h.out r ws e).trans h'⟩

theorem throw {e : Fault} {n : Nat} : K.AtMost (K.throw e : K α) n := ⟨fun r ws h => by cases h⟩

theorem pure {x : α} {n : Nat} : K.AtMost (Pure.pure x : K α) n := puts (.pure x) (Nat.zero_le _)

theorem seq {k : K α} {f : α → K β} {n m : Nat} (h : K.AtMost k n) (h' : ∀ x, K.AtMost (f x) m) :
    K.AtMost (k >>= f) (n + m) := by
  refine ⟨fun r ws e => ?_⟩
  obtain ⟨x, us, vs, e1, e2, rfl⟩ := K.run_bind e
  rw [List.length_append]
  exact Nat.add_le_add (h.out _ _ e1) ((h' x).out _ _ e2)

/-- After a part without writes. -/
theorem after {x : R α} {f : α → K β} {n : Nat} (h : ∀ x, K.AtMost (f x) n) :
    K.AtMost ((liftM x : K α) >>= f) n := by
  have := seq (puts (.lift x) (Nat.le_refl 0)) h
  rwa [Nat.zero_add] at this

/-- After a known value. -/
theorem afterOk {x : α} {f : α → K β} {n : Nat} (h : K.AtMost (f x) n) :
    K.AtMost ((liftM (Except.ok x : R α) : K α) >>= f) n := by
  refine ⟨fun r ws e => ?_⟩
  obtain ⟨y, us, vs, e1, e2, rfl⟩ := K.run_bind e
  rw [K.liftM_eq] at e1
  cases e1
  exact h.out r vs e2

theorem afterPure {x : α} {f : α → K β} {n : Nat} (h : K.AtMost (f x) n) :
    K.AtMost ((Pure.pure x : K α) >>= f) n := by
  refine ⟨fun r ws e => ?_⟩
  obtain ⟨y, us, vs, e1, e2, rfl⟩ := K.run_bind e
  cases e1
  exact h.out r vs e2

theorem ite {c : Prop} [Decidable c] {k l : K α} {n : Nat} (h : c → K.AtMost k n)
    (h' : ¬ c → K.AtMost l n) : K.AtMost (if c then k else l) n := by
  split
  · exact h ‹_›
  · exact h' ‹_›

/-- The vector part of a line, if any, and the rest of it, on `m` lines. -/
theorem split {c : Prop} [Decidable c] {k l : K Unit} {m x y z p q n : Nat}
    (hk : K.AtMost k (m * (x * p))) (hl : K.AtMost l (m * (y * q))) (h : x * p + y * q ≤ z * n) :
    K.AtMost (if c then k >>= fun _ => l else l) (m * (z * n)) := by
  refine .ite (fun _ => (hk.seq fun _ => hl).mono ?_) fun _ => hl.mono (Nat.mul_le_mul_left m (by omega))
  rw [← Nat.mul_add]
  exact Nat.mul_le_mul_left m h

theorem forFrom {f : Nat → K Unit} {c : Nat} (h : ∀ i, K.AtMost (f i) c) (n : Nat) :
    ∀ lo, K.AtMost (Verif.forFrom lo n f) (n * c) := by
  induction n with
  | zero => intro lo; exact ⟨fun r ws e => by cases e; simp⟩
  | succ n ih =>
    intro lo
    have := seq (h lo) fun _ => ih (lo + 1)
    rw [Nat.add_comm c, ← Nat.succ_mul] at this
    exact this

theorem forK {f : Nat → K Unit} {c : Nat} (h : ∀ i, K.AtMost (f i) c) (n : Nat) :
    K.AtMost (Verif.forK n f) (n * c) := forFrom h n 0

theorem iterK {f : α → K α} {c : Nat} (h : ∀ s, K.AtMost (f s) c) (n : Nat) :
    ∀ s, K.AtMost (Verif.iterK n f s) (n * c) := by
  induction n with
  | zero => intro s; exact pure
  | succ n ih =>
    intro s
    have := seq (h s) fun x => ih x
    rw [Nat.add_comm c, ← Nat.succ_mul] at this
    exact this

end K.AtMost

/-- One step of counting. -/
macro "count_step " t:term : tactic => `(tactic|
  first
  | with_reducible refine K.Count.seq4 $t (fun _ _ _ _ => ?_)
  | with_reducible refine K.Count.seq3 $t (fun _ _ _ => ?_)
  | with_reducible refine K.Count.seq2 $t (fun _ _ => ?_)
  | with_reducible refine K.Count.seq $t (fun _ => ?_)
  | with_reducible refine K.Count.last $t (fun _ => ?_))

syntax "count_run" "[" term,* "]" : tactic

/-- Such steps until the routine ends. -/
macro_rules
  | `(tactic| count_run [$ts,*]) => do
    let last ← `(tactic| count_step (K.Puts.lift _))
    let alts ← ts.getElems.foldrM (fun t rest => `(tactic| first | count_step $t | $rest:tactic)) last
    `(tactic| repeat (
      first
      | exact rfl
      | exact ⟨rfl, rfl⟩
      | ((try dsimp only)
         first
         | with_reducible refine K.Count.pure ?_
         | with_reducible refine K.Count.ite (fun _ => ?_) (fun _ => ?_)
         | $alts:tactic)))

namespace X86

variable (s : Buf)

theorem rdI_puts (i : Nat) : K.Puts (rdI s i) 0 := by
  unfold rdI
  exact .of (.seq (.rd s i) fun _ => .pure rfl)

theorem unpack_ui8x2_i32_puts (i : Nat) : K.Puts (unpack_ui8x2_i32 s i) 0 := by
  unfold unpack_ui8x2_i32
  exact .of (.seq (rdI_puts s _) fun _ => .seq (rdI_puts s _) fun _ => .pure rfl)

theorem unpack_ui8x3_i32_puts (p : Sampler) (i : Nat) : K.Puts (unpack_ui8x3_i32 p s i) 0 := by
  unfold unpack_ui8x3_i32
  exact .of (.seq (rdI_puts s _) fun _ => .seq (rdI_puts s _) fun _ => .seq (rdI_puts s _) fun _ =>
    .pure rfl)

theorem pack_i32x2_puts (d : Dst) (i : Nat) (x y : Int) : K.Puts (pack_i32x2 d i x y) 2 := by
  unfold pack_i32x2
  apply K.Puts.of
  count_run [K.Puts.wr ..]

theorem pack_ui8x3_puts (rev : Bool) (d : Dst) (i : Nat) (x y z : UInt8) :
    K.Puts (pack_ui8x3 rev d i x y z) 4 := by
  unfold pack_ui8x3
  apply K.Puts.of
  count_run [K.Puts.wr ..]

theorem pack_rgb_puts (d : Dst) (i : Nat) (x y z : UInt8) : K.Puts (pack_rgb d i x y z) 3 := by
  unfold pack_rgb
  apply K.Puts.of
  count_run [K.Puts.wr ..]

theorem put_bgra_puts (w : Bwd) (rev : Bool) (d : Dst) (i : Nat) (l a b c : Int) :
    K.Puts (put_bgra w rev d i l a b c) 4 := by
  unfold put_bgra
  exact .of (.seq3 (.lift _) fun _ _ _ => .last (pack_ui8x3_puts ..) fun _ => rfl)

theorem put_rgb_puts (w : Bwd) (d : Dst) (i : Nat) (l a b c : Int) :
    K.Puts (put_rgb w d i l a b c) 3 := by
  unfold put_rgb
  exact .of (.seq3 (.lift _) fun _ _ _ => .last (pack_rgb_puts ..) fun _ => rfl)

theorem rgb_to_nv12_puts (ix : Index) (p : Sampler) (depth : Nat) (c : Colorimetry)
    (w h ss ys uvs : Nat) (y uv : Dst) :
    K.AtMost (rgb_to_nv12 ix p depth c w h ss s ys uvs y uv) (h / 2 * (w / 2 * 6)) := by
  unfold rgb_to_nv12
  refine .after fun _ => .after fun _ => .after fun _ => .puts (.forK (fun y => .forK (fun x => .of ?_) _) _)
    (Nat.le_refl _)
  count_run [unpack_ui8x3_i32_puts s _ _, pack_i32x2_puts ..]

theorem rgb_to_i420_puts (ix : Index) (p : Sampler) (depth : Nat) (c : Colorimetry)
    (w h ss ys us vs : Nat) (y u v : Dst) :
    K.AtMost (rgb_to_i420 ix p depth c w h ss s ys us vs y u v) (h / 2 * (w / 2 * 6)) := by
  unfold rgb_to_i420
  refine .after fun _ => .after fun _ => .after fun _ => .puts (.forK (fun y => .forK (fun x => .of ?_) _) _)
    (Nat.le_refl _)
  count_run [unpack_ui8x3_i32_puts s _ _, pack_i32x2_puts .., K.Puts.wr ..]

theorem rgb_to_i444_puts (ix : Index) (p : Sampler) (depth : Nat) (c : Colorimetry)
    (w h ss ys us vs : Nat) (y u v : Dst) :
    K.AtMost (rgb_to_i444 ix p depth c w h ss s ys us vs y u v) (h * (w * 3)) := by
  unfold rgb_to_i444
  refine .after fun _ => .after fun _ => .after fun _ => .puts (.forK (fun y => .forK (fun x => .of ?_) _) _)
    (Nat.le_refl _)
  count_run [unpack_ui8x3_i32_puts s _ _, K.Puts.wr ..]

variable (s2 s3 : Buf)

theorem nv12_to_bgra_puts (ix : Index) (c : Colorimetry) (rev : Bool) (w h ys uvs ds : Nat) (d : Dst) :
    K.AtMost (nv12_to_bgra ix c rev w h ys uvs s s2 ds d) (h / 2 * (w / 2 * 16)) := by
  unfold nv12_to_bgra
  refine .puts (.forK (fun y => .forK (fun x => .of ?_) _) _) (Nat.le_refl _)
  count_run [unpack_ui8x2_i32_puts _ _, put_bgra_puts ..]

theorem nv12_to_rgb_exact (ix : Index) (c : Colorimetry) (w h ys uvs ds : Nat) (d : Dst) :
    K.Puts (nv12_to_rgb ix c w h ys uvs s s2 ds d) (h / 2 * (w / 2 * 12)) := by
  unfold nv12_to_rgb
  refine .forK (fun y => .forK (fun x => .of ?_) _) _
  count_run [unpack_ui8x2_i32_puts _ _, put_rgb_puts ..]

theorem nv12_to_rgb_puts (ix : Index) (c : Colorimetry) (w h ys uvs ds : Nat) (d : Dst) :
    K.AtMost (nv12_to_rgb ix c w h ys uvs s s2 ds d) (h / 2 * (w / 2 * 12)) :=
  .puts (nv12_to_rgb_exact ..) (Nat.le_refl _)

theorem i420_to_bgra_puts (ix : Index) (c : Colorimetry) (rev : Bool) (w h ys us vs ds : Nat)
    (d : Dst) : K.AtMost (i420_to_bgra ix c rev w h ys us vs s s2 s3 ds d) (h / 2 * (w / 2 * 16)) := by
  unfold i420_to_bgra
  refine .puts (.forK (fun y => .forK (fun x => .of ?_) _) _) (Nat.le_refl _)
  count_run [unpack_ui8x2_i32_puts _ _, rdI_puts _ _, put_bgra_puts ..]

theorem i444_to_bgra_puts (ix : Index) (c : Colorimetry) (rev : Bool) (w h ys us vs ds : Nat)
    (d : Dst) : K.AtMost (i444_to_bgra ix c rev w h ys us vs s s2 s3 ds d) (h * (w * 4)) := by
  unfold i444_to_bgra
  refine .puts (.forK (fun y => .forK (fun x => .of ?_) _) _) (Nat.le_refl _)
  count_run [rdI_puts _ _, put_bgra_puts ..]

/-! ## Row kernels: a pixel of the state counts as its bytes -/

theorem rgb_to_bgra_multi_count (d : Dst) (q : Cur) (a : Nat) :
    K.Count (rgb_to_bgra_multi s d q) a (fun q' b => q'.x = q.x + 8 ∧ b = a + 32) := by
  unfold rgb_to_bgra_multi
  count_run [K.Puts.loadu64 s _, K.Puts.storeu64 ..]

theorem rgb_to_bgra_single_count (d : Dst) (q : Cur) (a : Nat) :
    K.Count (rgb_to_bgra_single s d q) a (fun q' b => q'.x = q.x + 1 ∧ b = a + 4) := by
  unfold rgb_to_bgra_single
  count_run [K.Puts.loadu32 s _, K.Puts.storeu32 ..]

theorem rgb_to_bgra_last_count (d : Dst) (q : Cur) (a : Nat) :
    K.Count (rgb_to_bgra_last s d q) a (fun _ b => b = a + 4) := by
  unfold rgb_to_bgra_last
  count_run [K.Puts.rd s _, K.Puts.wr ..]

theorem rgb_to_bgra_line_puts (t : Target) (w h sd dd : Nat) (hw : 0 < w) (d : Dst) (y so o : Nat) :
    K.AtMost (rgb_to_bgra_line t w h sd dd s d y so o) (w * 4) := by
  unfold rgb_to_bgra_line
  have tail : ∀ (multi single : Nat), 8 * (multi / 8) = multi → multi ≤ w → single ≤ w →
      ∀ f : Cur → K (Nat × Nat), (∀ q, K.Puts (f q) 0) → K.AtMost
      (iterK ((multi + 7) / 8) (rgb_to_bgra_multi s d) ⟨0, so, o⟩ >>= fun q =>
        whileK w (fun q => q.x < single) (rgb_to_bgra_single s d) q >>= fun q =>
        (if q.x < w then rgb_to_bgra_last s d q >>= f else pure q >>= f)) (w * 4) := by
    intro multi single hm hmw hsw f hf
    refine .of (.bind (K.Count.iterK (I := fun i (q : Cur) b => q.x = 8 * i ∧ b = 32 * i) ?_ _ 0 _ 0
      ⟨rfl, rfl⟩) fun q b hq => ?_)
    · intro i q b ⟨hx, hb⟩
      refine ⟨fun r ws e => ?_⟩
      obtain ⟨h1, h2⟩ := (rgb_to_bgra_multi_count s d q b).out r ws e
      exact ⟨by omega, by omega⟩
    · refine .bind (K.Count.whileK (I := fun (q : Cur) b => q.x ≤ w ∧ b = 4 * q.x) ?_ _ _ _
        ⟨by omega, by omega⟩) fun q b hq => ?_
      · intro q b ⟨hx, hb⟩ hc
        have hc' : q.x < single := by simpa using hc
        refine ⟨fun r ws e => ?_⟩
        obtain ⟨h1, h2⟩ := (rgb_to_bgra_single_count s d q b).out r ws e
        exact ⟨by omega, by omega⟩
      · refine .ite (fun hl => .bind (rgb_to_bgra_last_count s d q b) fun q' b' hb' =>
          .last (hf q') fun _ => by omega) fun _ => .seq (.pure q) fun _ => .last (hf _) fun _ => by omega
  have hs : t.sub w 1 = .ok (w - 1) := sub_ok hw
  have hf : ∀ q : Cur, K.Puts (do
      let so ← (t.add q.so sd : R Nat)
      let d ← (t.add q.d dd : R Nat)
      return (so, d) : K (Nat × Nat)) 0 := fun q =>
    .of (.seq (.lift _) fun _ => .seq (.lift _) fun _ => .pure rfl)
  rw [hs]
  exact .ite (fun _ => .afterOk (.ite
      (fun _ => .afterOk (.afterPure (tail _ _ (by omega) (by omega) (by omega) _ hf)))
      (fun _ => .afterPure (tail _ _ (by omega) (by omega) (by omega) _ hf))))
    (fun _ => .afterPure (.ite
      (fun _ => .afterOk (.afterPure (tail _ _ (by omega) (by omega) (by omega) _ hf)))
      (fun _ => .afterPure (tail _ _ (by omega) (by omega) (by omega) _ hf))))

theorem rgb_to_bgra_lines_puts (t : Target) (w h sd dd : Nat) (hw : 0 < w) (d : Dst) (n : Nat) :
    ∀ y so o, K.AtMost (rgb_to_bgra_lines t w h sd dd s d y n so o) (n * (w * 4)) := by
  induction n with
  | zero => intro y so o; exact .pure
  | succ n ih =>
    intro y so o
    unfold rgb_to_bgra_lines
    rw [Nat.succ_mul, Nat.add_comm (n * _)]
    exact .seq (rgb_to_bgra_line_puts s t w h sd dd hw d y so o) fun p => ih (y + 1) p.1 p.2

theorem rgb_to_bgra_puts (t : Target) (w h ss ds : Nat) (hw : 0 < w) (d : Dst) :
    K.AtMost (rgb_to_bgra t w h ss s ds d) (h * (w * 4)) := by
  unfold rgb_to_bgra
  exact .after fun _ => .after fun _ => .after fun _ => .after fun _ =>
    rgb_to_bgra_lines_puts s t w h _ _ hw d h 0 0 0

theorem bgr_to_rgb_multi_count (d : Dst) (q : Cur) (a : Nat) :
    K.Count (bgr_to_rgb_multi s d q) a (fun q' b => q'.x = q.x + 8 ∧ b = a + 24) := by
  unfold bgr_to_rgb_multi
  count_run [K.Puts.loadu64 s _, K.Puts.storeu64 ..]

theorem bgra_to_rgb_multi_count (d : Dst) (q : Cur) (a : Nat) :
    K.Count (bgra_to_rgb_multi s d q) a (fun q' b => q'.x = q.x + 8 ∧ b = a + 24) := by
  unfold bgra_to_rgb_multi
  count_run [K.Puts.loadu64 s _, K.Puts.storeu64 ..]

theorem swap_single_count (n : Nat) (d : Dst) (q : Cur) (a : Nat) :
    K.Count (swap_single n s d q) a (fun q' b => q'.x = q.x + 1 ∧ b = a + 3) := by
  unfold swap_single
  count_run [K.Puts.rd s _, K.Puts.wr ..]

/-- A line of groups of eight pixels and single pixels, three bytes each. -/
theorem line3_count {f : Cur → K Cur} {n : Nat} {d : Dst} {w so o : Nat} (hw : w < 2 ^ 64)
    (hf : ∀ q a, K.Count (f q) a (fun q' b => q'.x = q.x + 8 ∧ b = a + 24)) :
    K.AtMost (do
      let s' ← whileK w (fun q => q.x < lower_multiple_of_pot w 8) f ⟨0, so, o⟩
      let _ ← whileK w (fun q => q.x < w) (swap_single n s d) s'
      return () : K Unit) (w * 3) := by
  have hl := lower_multiple_8 hw
  refine .of (.bind (K.Count.whileK (I := fun (q : Cur) b => q.x ≤ w ∧ 8 * (q.x / 8) = q.x ∧ b = 3 * q.x)
    ?_ _ _ _ ⟨Nat.zero_le _, by simp, rfl⟩) fun q b hq => .bind (K.Count.whileK
    (I := fun (q : Cur) b => q.x ≤ w ∧ b = 3 * q.x) ?_ _ _ _ ⟨hq.1, hq.2.2⟩) fun q b hq => .pure (by omega))
  · intro q b ⟨h1, h2, h3⟩ hc
    have hc' : q.x < lower_multiple_of_pot w 8 := by simpa using hc
    refine ⟨fun r ws e => ?_⟩
    obtain ⟨g1, g2⟩ := (hf q b).out r ws e
    exact ⟨by omega, by omega, by omega⟩
  · intro q b ⟨h1, h2⟩ hc
    have hc' : q.x < w := by simpa using hc
    refine ⟨fun r ws e => ?_⟩
    obtain ⟨g1, g2⟩ := (swap_single_count s n d q b).out r ws e
    exact ⟨by omega, by omega⟩

theorem bgr_to_rgb_puts (mul : Nat → Nat → R Nat) (w h ss ds : Nat) (hw : w < 2 ^ 64) (d : Dst) :
    K.AtMost (bgr_to_rgb mul w h ss s ds d) (h * (w * 3)) := by
  unfold bgr_to_rgb
  exact .forK (fun i => .after fun _ => .after fun _ => line3_count s hw (bgr_to_rgb_multi_count s d)) _

theorem bgra_to_rgb_puts (t : Target) (w h ss ds : Nat) (hw : w < 2 ^ 64) (d : Dst) :
    K.AtMost (bgra_to_rgb t w h ss s ds d) (h * (w * 3)) := by
  unfold bgra_to_rgb
  exact .after fun _ => .after fun _ => .after fun _ => .after fun _ =>
    .forK (fun i => .after fun _ => .after fun _ => .after fun _ => .after fun _ => .after fun _ =>
    .after fun _ => line3_count s hw (bgra_to_rgb_multi_count s d)) _

end X86

end Verif
