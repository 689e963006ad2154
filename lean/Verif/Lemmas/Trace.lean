import Verif.Model.Crate
import Verif.Lemmas.K
/-! # Where a kernel writes does not depend on what it reads -/

namespace Verif

/-- The place of a write. -/
def Write.at (w : Write) : Nat × Nat := (w.plane, w.idx)

/-- If both computations complete, they write the same places in the same order and their results are
related by `Q`. -/
structure K.Trace {α β : Type} (k : K α) (k' : K β) (Q : α → β → Prop) : Prop where
  out : ∀ a ws b ws', k.run = .ok (a, ws) → k'.run = .ok (b, ws') →
    Q a b ∧ ws.map Write.at = ws'.map Write.at

namespace K.Trace

variable {α β γ δ ε ζ η : Type}

theorem refl (k : K α) : K.Trace k k Eq := by
  refine ⟨fun a ws b ws' h h' => ?_⟩
  cases h.symm.trans h'
  exact ⟨rfl, rfl⟩

theorem mono {k : K α} {k' : K β} {P Q : α → β → Prop} (h : K.Trace k k' P)
    (h' : ∀ a b, P a b → Q a b) : K.Trace k k' Q :=
  ⟨fun a ws b ws' e e' => ⟨h' _ _ (h.out a ws b ws' e e').1, (h.out a ws b ws' e e').2⟩⟩

theorem any {k : K α} {k' : K β} {P : α → β → Prop} (h : K.Trace k k' P) :
    K.Trace k k' (fun _ _ => True) := h.mono fun _ _ _ => trivial

theorem unit {k k' : K Unit} {P : Unit → Unit → Prop} (h : K.Trace k k' P) : K.Trace k k' Eq :=
  h.mono fun _ _ _ => rfl

theorem pure {a : α} {b : β} {Q : α → β → Prop} (h : Q a b) :
    K.Trace (Pure.pure a : K α) (Pure.pure b : K β) Q := by
  refine ⟨fun a ws b ws' e e' => ?_⟩
  cases e
  cases e'
  exact ⟨h, rfl⟩

theorem pure_any (a : α) (b : β) :
    K.Trace (Pure.pure a : K α) (Pure.pure b : K β) (fun _ _ => True) := pure trivial

theorem throw {e e' : Fault} {Q : α → β → Prop} : K.Trace (K.throw e : K α) (K.throw e' : K β) Q := by
  exact ⟨fun a ws b ws' h => by cases h⟩

/-- A computation without writes. -/
theorem lift (x : R α) (y : R β) : K.Trace (liftM x : K α) (liftM y : K β) (fun _ _ => True) := by
  refine ⟨fun a ws b ws' e e' => ?_⟩
  rw [K.liftM_eq] at e e'
  refine ⟨trivial, ?_⟩
  cases x with
  | error _ => cases e
  | ok _ =>
    cases y with
    | error _ => cases e'
    | ok _ => cases e; cases e'; rfl

theorem bind {k : K α} {k' : K β} {f : α → K γ} {f' : β → K δ} {P : α → β → Prop}
    {Q : γ → δ → Prop} (h : K.Trace k k' P) (h' : ∀ a b, P a b → K.Trace (f a) (f' b) Q) :
    K.Trace (k >>= f) (k' >>= f') Q := by
  refine ⟨fun c vs d vs' e e' => ?_⟩
  rw [K.bind_def, K.bind] at e e'
  rcases h1 : k.run with _ | ⟨a, ws⟩
  · rw [h1] at e; cases e
  rcases h2 : k'.run with _ | ⟨b, ws'⟩
  · rw [h2] at e'; cases e'
  rw [h1] at e
  rw [h2] at e'
  simp only at e e'
  rcases g1 : (f a).run with _ | ⟨c', us⟩
  · rw [g1] at e; cases e
  rcases g2 : (f' b).run with _ | ⟨d', us'⟩
  · rw [g2] at e'; cases e'
  rw [g1] at e
  rw [g2] at e'
  cases e
  cases e'
  obtain ⟨hp, hw⟩ := h.out a ws b ws' h1 h2
  obtain ⟨hq, hu⟩ := (h' a b hp).out _ us _ us' g1 g2
  exact ⟨hq, by simp only [List.map_append, hw, hu]⟩

/-- Sequencing when nothing is known about the results of the first parts. -/
theorem seq {k : K α} {k' : K β} {f : α → K γ} {f' : β → K δ} {P : α → β → Prop}
    {Q : γ → δ → Prop} (h : K.Trace k k' P) (h' : ∀ a b, K.Trace (f a) (f' b) Q) :
    K.Trace (k >>= f) (k' >>= f') Q := h.bind fun a b _ => h' a b

theorem seq2 {k : K (α × β)} {k' : K (α × β)} {f f' : α × β → K γ} {P : α × β → α × β → Prop}
    {Q : γ → γ → Prop} (h : K.Trace k k' P)
    (h' : ∀ a b c d, K.Trace (f (a, b)) (f' (c, d)) Q) : K.Trace (k >>= f) (k' >>= f') Q :=
  h.bind fun a b _ => h' a.1 a.2 b.1 b.2

theorem seq3 {k : K (α × β × γ)} {k' : K (α × β × γ)} {f f' : α × β × γ → K δ}
    {P : α × β × γ → α × β × γ → Prop} {Q : δ → δ → Prop} (h : K.Trace k k' P)
    (h' : ∀ a b c a' b' c', K.Trace (f (a, b, c)) (f' (a', b', c')) Q) :
    K.Trace (k >>= f) (k' >>= f') Q :=
  h.bind fun a b _ => h' a.1 a.2.1 a.2.2 b.1 b.2.1 b.2.2

theorem seq4 {k : K (α × β × γ × ε)} {k' : K (α × β × γ × ε)} {f f' : α × β × γ × ε → K δ}
    {P : α × β × γ × ε → α × β × γ × ε → Prop} {Q : δ → δ → Prop} (h : K.Trace k k' P)
    (h' : ∀ a b c e a' b' c' e', K.Trace (f (a, b, c, e)) (f' (a', b', c', e')) Q) :
    K.Trace (k >>= f) (k' >>= f') Q :=
  h.bind fun a b _ => h' a.1 a.2.1 a.2.2.1 a.2.2.2 b.1 b.2.1 b.2.2.1 b.2.2.2

/-- Sequencing after a common first part. -/
theorem after {k : K α} {f : α → K γ} {f' : α → K δ} {Q : γ → δ → Prop}
    (h : ∀ a, K.Trace (f a) (f' a) Q) : K.Trace (k >>= f) (k >>= f') Q :=
  (refl k).bind fun a _ e => e ▸ h a

theorem after2 {k : K (α × β)} {f : α × β → K γ} {f' : α × β → K δ} {Q : γ → δ → Prop}
    (h : ∀ a b, K.Trace (f (a, b)) (f' (a, b)) Q) : K.Trace (k >>= f) (k >>= f') Q :=
  after fun a => h a.1 a.2

theorem forFrom {f f' : Nat → K Unit} (h : ∀ i, K.Trace (f i) (f' i) Eq) (n : Nat) :
    ∀ lo, K.Trace (Verif.forFrom lo n f) (Verif.forFrom lo n f') Eq := by
  induction n with
  | zero => intro lo; exact refl _
  | succ n ih => intro lo; exact (h lo).seq fun _ _ => ih (lo + 1)

theorem forK {f f' : Nat → K Unit} (h : ∀ i, K.Trace (f i) (f' i) Eq) (n : Nat) :
    K.Trace (Verif.forK n f) (Verif.forK n f') Eq := forFrom h n 0

theorem iterK {f f' : α → K α} (h : ∀ s, K.Trace (f s) (f' s) Eq) (n : Nat) :
    ∀ s, K.Trace (Verif.iterK n f s) (Verif.iterK n f' s) Eq := by
  induction n with
  | zero => intro s; exact refl _
  | succ n ih => intro s; exact (h s).bind fun _ _ e => e ▸ ih _

theorem whileK {cond : α → Bool} {f f' : α → K α} (h : ∀ s, K.Trace (f s) (f' s) Eq) (n : Nat) :
    ∀ s, K.Trace (Verif.whileK n cond f s) (Verif.whileK n cond f' s) Eq := by
  induction n with
  | zero => intro s; exact refl _
  | succ n ih =>
    intro s
    unfold Verif.whileK
    split
    · exact (h s).bind fun _ _ e => e ▸ ih _
    · exact refl _

theorem ite {c : Prop} [Decidable c] {k k' l l' : K α} {Q : α → α → Prop} (h : K.Trace k k' Q)
    (h' : K.Trace l l' Q) : K.Trace (if c then k else l) (if c then k' else l') Q := by
  split
  · exact h
  · exact h'

theorem rd (s s' : Buf) (i : Nat) : K.Trace (Verif.rd s i) (Verif.rd s' i) (fun _ _ => True) := by
  unfold Verif.rd
  refine ⟨fun a ws b ws' e e' => ?_⟩
  split at e
  · split at e'
    · cases e; cases e'; exact ⟨trivial, rfl⟩
    · cases e'
  · cases e

theorem wr (d : Dst) (i : Nat) (v v' : UInt8) : K.Trace (Verif.wr d i v) (Verif.wr d i v') Eq := by
  unfold Verif.wr
  split
  · exact ⟨fun a ws b ws' e e' => by cases e; cases e'; exact ⟨rfl, rfl⟩⟩
  · exact throw

theorem load (s s' : Buf) (i n : Nat) :
    K.Trace (Simd.load s i n) (Simd.load s' i n) (fun _ _ => True) := by
  unfold Simd.load
  refine ⟨fun a ws b ws' e e' => ?_⟩
  split at e
  · split at e'
    · cases e; cases e'; exact ⟨trivial, rfl⟩
    · cases e'
  · cases e

theorem store (d : Dst) (i : Nat) (r r' : Simd.Reg) (n : Nat) :
    K.Trace (Simd.store d i r n) (Simd.store d i r' n) Eq := by
  unfold Simd.store
  exact forK (fun j => wr d (i + j) (r j) (r' j)) n

theorem loadu64 (s s' : Buf) (i : Nat) :
    K.Trace (X86.loadu64 s i) (X86.loadu64 s' i) (fun _ _ => True) := by
  unfold X86.loadu64
  refine ⟨fun a ws b ws' e e' => ?_⟩
  split at e
  · split at e'
    · cases e; cases e'; exact ⟨trivial, rfl⟩
    · cases e'
  · cases e

theorem loadu32 (s s' : Buf) (i : Nat) :
    K.Trace (X86.loadu32 s i) (X86.loadu32 s' i) (fun _ _ => True) := by
  unfold X86.loadu32
  refine ⟨fun a ws b ws' e e' => ?_⟩
  split at e
  · split at e'
    · cases e; cases e'; exact ⟨trivial, rfl⟩
    · cases e'
  · cases e

theorem storeu64 (d : Dst) (i : Nat) (v v' : BitVec 64) :
    K.Trace (X86.storeu64 d i v) (X86.storeu64 d i v') Eq := by
  unfold X86.storeu64
  split
  · refine ⟨fun a ws b ws' e e' => ?_⟩
    cases e
    cases e'
    exact ⟨rfl, by simp only [List.map_map, Function.comp_def, Write.at]⟩
  · exact throw

theorem storeu32 (d : Dst) (i : Nat) (v v' : BitVec 32) :
    K.Trace (X86.storeu32 d i v) (X86.storeu32 d i v') Eq := by
  unfold X86.storeu32
  split
  · refine ⟨fun a ws b ws' e e' => ?_⟩
    cases e
    cases e'
    exact ⟨rfl, by simp only [List.map_map, Function.comp_def, Write.at]⟩
  · exact throw

end K.Trace

/-- One step of a proof about two runs of a routine: the next operation is the same, or computes without
writes, or is covered by the given lemma. -/
macro "trace_step " t:term : tactic => `(tactic|
  first
  | with_reducible exact K.Trace.any $t
  | with_reducible exact K.Trace.unit $t
  | with_reducible refine K.Trace.seq4 $t (fun _ _ _ _ _ _ _ _ => ?_)
  | with_reducible refine K.Trace.seq3 $t (fun _ _ _ _ _ _ => ?_)
  | with_reducible refine K.Trace.seq2 $t (fun _ _ _ _ => ?_)
  | with_reducible refine K.Trace.seq $t (fun _ _ => ?_))

syntax "trace_run" "[" term,* "]" : tactic

/-- Such steps until the routine ends. -/
macro_rules
  | `(tactic| trace_run [$ts,*]) => do
    let last ← `(tactic| trace_step (K.Trace.lift _ _))
    let alts ← ts.getElems.foldrM (fun t rest => `(tactic| first | trace_step $t | $rest:tactic)) last
    `(tactic| repeat (
      (try dsimp only)
      first
      | with_reducible exact K.Trace.refl _
      | with_reducible exact K.Trace.any (K.Trace.refl _)
      | with_reducible exact K.Trace.pure_any _ _
      | with_reducible refine K.Trace.ite ?_ ?_
      | with_reducible refine K.Trace.after2 (fun _ _ => ?_)
      | with_reducible refine K.Trace.after (fun _ => ?_)
      | $alts:tactic))

namespace X86

variable (s s' : Buf)

theorem rdI_trace (i : Nat) : K.Trace (rdI s i) (rdI s' i) (fun _ _ => True) := by
  unfold rdI
  exact (K.Trace.rd s s' i).seq fun _ _ => .pure trivial

theorem unpack_ui8x2_i32_trace (i : Nat) :
    K.Trace (unpack_ui8x2_i32 s i) (unpack_ui8x2_i32 s' i) (fun _ _ => True) := by
  unfold unpack_ui8x2_i32
  exact (rdI_trace s s' _).seq fun _ _ => (rdI_trace s s' _).seq fun _ _ => .pure trivial

theorem unpack_ui8x3_i32_trace (p : Sampler) (i : Nat) :
    K.Trace (unpack_ui8x3_i32 p s i) (unpack_ui8x3_i32 p s' i) (fun _ _ => True) := by
  unfold unpack_ui8x3_i32
  exact (rdI_trace s s' _).seq fun _ _ => (rdI_trace s s' _).seq fun _ _ =>
    (rdI_trace s s' _).seq fun _ _ => .pure trivial

theorem pack_i32x2_trace (d : Dst) (i : Nat) (x y x' y' : Int) :
    K.Trace (pack_i32x2 d i x y) (pack_i32x2 d i x' y') Eq := by
  unfold pack_i32x2
  trace_run [K.Trace.wr ..]

theorem pack_ui8x3_trace (rev : Bool) (d : Dst) (i : Nat) (x y z x' y' z' : UInt8) :
    K.Trace (pack_ui8x3 rev d i x y z) (pack_ui8x3 rev d i x' y' z') Eq := by
  unfold pack_ui8x3
  trace_run [K.Trace.wr ..]

theorem pack_rgb_trace (d : Dst) (i : Nat) (x y z x' y' z' : UInt8) :
    K.Trace (pack_rgb d i x y z) (pack_rgb d i x' y' z') Eq := by
  unfold pack_rgb
  exact (K.Trace.wr ..).seq fun _ _ => (K.Trace.wr ..).seq fun _ _ => .wr ..

theorem put_bgra_trace (w : Bwd) (rev : Bool) (d : Dst) (i : Nat) (l a b c l' a' b' c' : Int) :
    K.Trace (put_bgra w rev d i l a b c) (put_bgra w rev d i l' a' b' c') Eq := by
  unfold put_bgra
  exact .seq3 (.lift _ _) fun _ _ _ _ _ _ => pack_ui8x3_trace ..

theorem put_rgb_trace (w : Bwd) (d : Dst) (i : Nat) (l a b c l' a' b' c' : Int) :
    K.Trace (put_rgb w d i l a b c) (put_rgb w d i l' a' b' c') Eq := by
  unfold put_rgb
  exact .seq3 (.lift _ _) fun _ _ _ _ _ _ => pack_rgb_trace ..

theorem rgb_to_nv12_trace (ix : Index) (p : Sampler) (depth : Nat) (c : Colorimetry)
    (w h ss ys uvs : Nat) (y uv : Dst) :
    K.Trace (rgb_to_nv12 ix p depth c w h ss s ys uvs y uv)
      (rgb_to_nv12 ix p depth c w h ss s' ys uvs y uv) Eq := by
  unfold rgb_to_nv12
  refine .after2 fun _ _ => .after fun _ => .after fun _ => .forK (fun y => .forK (fun x => ?_) _) _
  trace_run [unpack_ui8x3_i32_trace s s' _ _, pack_i32x2_trace ..]

theorem rgb_to_i420_trace (ix : Index) (p : Sampler) (depth : Nat) (c : Colorimetry)
    (w h ss ys us vs : Nat) (y u v : Dst) :
    K.Trace (rgb_to_i420 ix p depth c w h ss s ys us vs y u v)
      (rgb_to_i420 ix p depth c w h ss s' ys us vs y u v) Eq := by
  unfold rgb_to_i420
  refine .after2 fun _ _ => .after fun _ => .after fun _ => .forK (fun y => .forK (fun x => ?_) _) _
  trace_run [unpack_ui8x3_i32_trace s s' _ _, pack_i32x2_trace .., K.Trace.wr ..]

theorem rgb_to_i444_trace (ix : Index) (p : Sampler) (depth : Nat) (c : Colorimetry)
    (w h ss ys us vs : Nat) (y u v : Dst) :
    K.Trace (rgb_to_i444 ix p depth c w h ss s ys us vs y u v)
      (rgb_to_i444 ix p depth c w h ss s' ys us vs y u v) Eq := by
  unfold rgb_to_i444
  refine .after2 fun _ _ => .after fun _ => .after fun _ => .forK (fun y => .forK (fun x => ?_) _) _
  trace_run [unpack_ui8x3_i32_trace s s' _ _, K.Trace.wr ..]

variable (s2 s2' s3 s3' : Buf)

theorem nv12_to_bgra_trace (ix : Index) (c : Colorimetry) (rev : Bool) (w h ys uvs ds : Nat) (d : Dst) :
    K.Trace (nv12_to_bgra ix c rev w h ys uvs s s2 ds d) (nv12_to_bgra ix c rev w h ys uvs s' s2' ds d)
      Eq := by
  unfold nv12_to_bgra
  refine .forK (fun y => .forK (fun x => ?_) _) _
  trace_run [unpack_ui8x2_i32_trace _ _ _, put_bgra_trace ..]

theorem nv12_to_rgb_trace (ix : Index) (c : Colorimetry) (w h ys uvs ds : Nat) (d : Dst) :
    K.Trace (nv12_to_rgb ix c w h ys uvs s s2 ds d) (nv12_to_rgb ix c w h ys uvs s' s2' ds d) Eq := by
  unfold nv12_to_rgb
  refine .forK (fun y => .forK (fun x => ?_) _) _
  trace_run [unpack_ui8x2_i32_trace _ _ _, put_rgb_trace ..]

theorem i420_to_bgra_trace (ix : Index) (c : Colorimetry) (rev : Bool) (w h ys us vs ds : Nat)
    (d : Dst) : K.Trace (i420_to_bgra ix c rev w h ys us vs s s2 s3 ds d)
      (i420_to_bgra ix c rev w h ys us vs s' s2' s3' ds d) Eq := by
  unfold i420_to_bgra
  refine .forK (fun y => .forK (fun x => ?_) _) _
  trace_run [unpack_ui8x2_i32_trace _ _ _, rdI_trace _ _ _, put_bgra_trace ..]

theorem i444_to_bgra_trace (ix : Index) (c : Colorimetry) (rev : Bool) (w h ys us vs ds : Nat)
    (d : Dst) : K.Trace (i444_to_bgra ix c rev w h ys us vs s s2 s3 ds d)
      (i444_to_bgra ix c rev w h ys us vs s' s2' s3' ds d) Eq := by
  unfold i444_to_bgra
  refine .forK (fun y => .forK (fun x => ?_) _) _
  trace_run [rdI_trace _ _ _, put_bgra_trace ..]

theorem rgb_to_bgra_multi_trace (d : Dst) (q : Cur) :
    K.Trace (rgb_to_bgra_multi s d q) (rgb_to_bgra_multi s' d q) Eq := by
  unfold rgb_to_bgra_multi
  trace_run [K.Trace.loadu64 s s' _, K.Trace.storeu64 ..]

theorem rgb_to_bgra_single_trace (d : Dst) (q : Cur) :
    K.Trace (rgb_to_bgra_single s d q) (rgb_to_bgra_single s' d q) Eq := by
  unfold rgb_to_bgra_single
  trace_run [K.Trace.loadu32 s s' _, K.Trace.storeu32 ..]

theorem rgb_to_bgra_last_trace (d : Dst) (q : Cur) :
    K.Trace (rgb_to_bgra_last s d q) (rgb_to_bgra_last s' d q) Eq := by
  unfold rgb_to_bgra_last
  trace_run [K.Trace.rd s s' _, K.Trace.wr ..]

theorem rgb_to_bgra_line_trace (t : Target) (w h sd dd : Nat) (d : Dst) (y so o : Nat) :
    K.Trace (rgb_to_bgra_line t w h sd dd s d y so o) (rgb_to_bgra_line t w h sd dd s' d y so o) Eq := by
  unfold rgb_to_bgra_line
  have tail : ∀ (multi single : Nat) (f : Cur → K (Nat × Nat)), K.Trace
      (iterK ((multi + 7) / 8) (rgb_to_bgra_multi s d) ⟨0, so, o⟩ >>= fun q =>
        whileK w (fun q => q.x < single) (rgb_to_bgra_single s d) q >>= fun q =>
        (if q.x < w then rgb_to_bgra_last s d q >>= f else pure q >>= f))
      (iterK ((multi + 7) / 8) (rgb_to_bgra_multi s' d) ⟨0, so, o⟩ >>= fun q =>
        whileK w (fun q => q.x < single) (rgb_to_bgra_single s' d) q >>= fun q =>
        (if q.x < w then rgb_to_bgra_last s' d q >>= f else pure q >>= f)) Eq :=
    fun multi single f => (K.Trace.iterK (rgb_to_bgra_multi_trace s s' d) _ _).bind fun _ _ e => e ▸
      (K.Trace.whileK (rgb_to_bgra_single_trace s s' d) _ _).bind fun _ _ e => e ▸
      .ite ((rgb_to_bgra_last_trace s s' d _).bind fun _ _ e => e ▸ .refl _) (.refl _)
  exact .ite (.after fun _ => .ite (.after fun _ => .after fun _ => tail _ _ _)
      (.after fun _ => tail _ _ _))
    (.after fun _ => .ite (.after fun _ => .after fun _ => tail _ _ _) (.after fun _ => tail _ _ _))

theorem rgb_to_bgra_lines_trace (t : Target) (w h sd dd : Nat) (d : Dst) (n : Nat) : ∀ y so o,
    K.Trace (rgb_to_bgra_lines t w h sd dd s d y n so o)
      (rgb_to_bgra_lines t w h sd dd s' d y n so o) Eq := by
  induction n with
  | zero => intro y so o; exact .refl _
  | succ n ih =>
    intro y so o
    unfold rgb_to_bgra_lines
    exact (rgb_to_bgra_line_trace s s' t w h sd dd d y so o).bind fun p _ e => e ▸ ih (y + 1) p.1 p.2

theorem rgb_to_bgra_trace (t : Target) (w h ss ds : Nat) (d : Dst) :
    K.Trace (rgb_to_bgra t w h ss s ds d) (rgb_to_bgra t w h ss s' ds d) Eq := by
  unfold rgb_to_bgra
  exact .after fun _ => .after fun _ => .after fun _ => .after fun _ =>
    rgb_to_bgra_lines_trace s s' t w h _ _ d h 0 0 0

theorem bgr_to_rgb_multi_trace (d : Dst) (q : Cur) :
    K.Trace (bgr_to_rgb_multi s d q) (bgr_to_rgb_multi s' d q) Eq := by
  unfold bgr_to_rgb_multi
  trace_run [K.Trace.loadu64 s s' _, K.Trace.storeu64 ..]

theorem swap_single_trace (n : Nat) (d : Dst) (q : Cur) :
    K.Trace (swap_single n s d q) (swap_single n s' d q) Eq := by
  unfold swap_single
  trace_run [K.Trace.rd s s' _, K.Trace.wr ..]

theorem bgr_to_rgb_trace (mul : Nat → Nat → R Nat) (w h ss ds : Nat) (d : Dst) :
    K.Trace (bgr_to_rgb mul w h ss s ds d) (bgr_to_rgb mul w h ss s' ds d) Eq := by
  unfold bgr_to_rgb
  exact .forK (fun i => .after fun _ => .after fun _ =>
    (K.Trace.whileK (bgr_to_rgb_multi_trace s s' d) _ _).bind fun _ _ e => e ▸
    (K.Trace.whileK (swap_single_trace s s' 3 d) _ _).seq fun _ _ => .refl _) _

theorem bgra_to_rgb_multi_trace (d : Dst) (q : Cur) :
    K.Trace (bgra_to_rgb_multi s d q) (bgra_to_rgb_multi s' d q) Eq := by
  unfold bgra_to_rgb_multi
  trace_run [K.Trace.loadu64 s s' _, K.Trace.storeu64 ..]

theorem bgra_to_rgb_trace (t : Target) (w h ss ds : Nat) (d : Dst) :
    K.Trace (bgra_to_rgb t w h ss s ds d) (bgra_to_rgb t w h ss s' ds d) Eq := by
  unfold bgra_to_rgb
  exact .after fun _ => .after fun _ => .after fun _ => .after fun _ =>
    .forK (fun i => .after fun _ => .after fun _ => .after fun _ => .after fun _ => .after fun _ =>
    .after fun _ =>
    (K.Trace.whileK (bgra_to_rgb_multi_trace s s' d) _ _).bind fun _ _ e => e ▸
    (K.Trace.whileK (swap_single_trace s s' 4 d) _ _).seq fun _ _ => .refl _) _

end X86

end Verif
