import Verif.Model.Order
import Verif.Lemmas.Master
import Verif.Lemmas.Api
import Verif.Spec.Order
/-! # The portable code on a target of either byte order -/

namespace Verif

/-- The two computations end in the same way, with results related by `Q`, and write the same
places. -/
def K.Alike {α β : Type} (k : K α) (k' : K β) (Q : α → β → Prop) : Prop :=
  (∃ e, k.run = .error e ∧ k'.run = .error e) ∨
  ∃ a b ws ws', k.run = .ok (a, ws) ∧ k'.run = .ok (b, ws') ∧ Q a b ∧
    ws.map (fun w => (w.plane, w.idx)) = ws'.map (fun w => (w.plane, w.idx))

namespace K.Alike

variable {α β γ δ : Type}

theorem refl (k : K α) : K.Alike k k Eq := by
  rcases h : k.run with e | ⟨a, ws⟩
  · exact .inl ⟨e, h, h⟩
  · exact .inr ⟨a, a, ws, ws, h, h, rfl, rfl⟩

theorem pure {a : α} {b : β} {Q : α → β → Prop} (h : Q a b) :
    K.Alike (Pure.pure a : K α) (Pure.pure b : K β) Q :=
  .inr ⟨a, b, [], [], rfl, rfl, h, rfl⟩

theorem throw {e : Fault} {Q : α → β → Prop} : K.Alike (K.throw e : K α) (K.throw e : K β) Q :=
  .inl ⟨e, rfl, rfl⟩

theorem bind {k : K α} {k' : K β} {f : α → K γ} {f' : β → K δ} {P : α → β → Prop}
    {Q : γ → δ → Prop} (h : K.Alike k k' P) (h' : ∀ a b, P a b → K.Alike (f a) (f' b) Q) :
    K.Alike (k >>= f) (k' >>= f') Q := by
  rcases h with ⟨e, h1, h2⟩ | ⟨a, b, ws, ws', h1, h2, hp, hw⟩
  · left
    refine ⟨e, ?_, ?_⟩
    · rw [K.bind_def, K.bind, h1]
    · rw [K.bind_def, K.bind, h2]
  · rcases h' a b hp with ⟨e, g1, g2⟩ | ⟨c, d, vs, vs', g1, g2, hq, hv⟩
    · left
      refine ⟨e, ?_, ?_⟩
      · rw [K.bind_def, K.bind, h1]; simp only [g1]
      · rw [K.bind_def, K.bind, h2]; simp only [g2]
    · right
      refine ⟨c, d, ws ++ vs, ws' ++ vs', ?_, ?_, hq, by simp only [List.map_append, hw, hv]⟩
      · rw [K.bind_def, K.bind, h1]; simp only [g1]
      · rw [K.bind_def, K.bind, h2]; simp only [g2]

/-- Sequencing when the first parts return the same value. -/
theorem seq {k k' : K α} {f f' : α → K β} (h : K.Alike k k' Eq)
    (h' : ∀ a, K.Alike (f a) (f' a) Eq) : K.Alike (k >>= f) (k' >>= f') Eq :=
  h.bind fun a _ e => e ▸ h' a

theorem after {k : K α} {f f' : α → K β} (h' : ∀ a, K.Alike (f a) (f' a) Eq) :
    K.Alike (k >>= f) (k >>= f') Eq := (refl k).seq h'

theorem forFrom {f f' : Nat → K Unit} (h : ∀ i, K.Alike (f i) (f' i) Eq) (n : Nat) :
    ∀ lo, K.Alike (Verif.forFrom lo n f) (Verif.forFrom lo n f') Eq := by
  induction n with
  | zero => intro lo; exact refl _
  | succ n ih => intro lo; exact (h lo).seq fun _ => ih (lo + 1)

theorem forK {f f' : Nat → K Unit} (h : ∀ i, K.Alike (f i) (f' i) Eq) (n : Nat) :
    K.Alike (Verif.forK n f) (Verif.forK n f') Eq := forFrom h n 0

theorem iterK {f f' : α → K α} (h : ∀ s, K.Alike (f s) (f' s) Eq) (n : Nat) :
    ∀ s, K.Alike (Verif.iterK n f s) (Verif.iterK n f' s) Eq := by
  induction n with
  | zero => intro s; exact refl _
  | succ n ih => intro s; exact (h s).seq ih

theorem whileK {cond : α → Bool} {f f' : α → K α} (h : ∀ s, K.Alike (f s) (f' s) Eq) (n : Nat) :
    ∀ s, K.Alike (Verif.whileK n cond f s) (Verif.whileK n cond f' s) Eq := by
  induction n with
  | zero => intro s; exact refl _
  | succ n ih =>
    intro s
    unfold Verif.whileK
    split
    · exact (h s).seq ih
    · exact refl _

theorem ite {c : Prop} [Decidable c] {k k' l l' : K α} (h : K.Alike k k' Eq)
    (h' : K.Alike l l' Eq) : K.Alike (if c then k else l) (if c then k' else l') Eq := by
  split
  · exact h
  · exact h'

end K.Alike

namespace Ordered

open X86 (Cur)

theorem loadu64_alike (o o' : Order) (s : Buf) (i : Nat) :
    K.Alike (loadu64 o s i) (loadu64 o' s i) (fun _ _ => True) := by
  unfold loadu64
  split
  · exact .pure trivial
  · exact .throw

theorem loadu32_alike (o o' : Order) (s : Buf) (i : Nat) :
    K.Alike (loadu32 o s i) (loadu32 o' s i) (fun _ _ => True) := by
  unfold loadu32
  split
  · exact .pure trivial
  · exact .throw

theorem storeu64_alike (o o' : Order) (d : Dst) (i : Nat) (v v' : BitVec 64) :
    K.Alike (storeu64 o d i v) (storeu64 o' d i v') Eq := by
  unfold storeu64
  split
  · exact .inr ⟨_, _, _, _, rfl, rfl, rfl, by simp only [List.map_map, Function.comp_def]⟩
  · exact .throw

theorem storeu32_alike (o o' : Order) (d : Dst) (i : Nat) (v v' : BitVec 32) :
    K.Alike (storeu32 o d i v) (storeu32 o' d i v') Eq := by
  unfold storeu32
  split
  · exact .inr ⟨_, _, _, _, rfl, rfl, rfl, by simp only [List.map_map, Function.comp_def]⟩
  · exact .throw

theorem rgb_to_bgra_multi_alike (o o' : Order) (src : Buf) (dst : Dst) (s : Cur) :
    K.Alike (rgb_to_bgra_multi o src dst s) (rgb_to_bgra_multi o' src dst s) Eq := by
  unfold rgb_to_bgra_multi
  exact (loadu64_alike o o' _ _).bind fun _ _ _ => (loadu64_alike o o' _ _).bind fun _ _ _ =>
    (loadu64_alike o o' _ _).bind fun _ _ _ => (loadu64_alike o o' _ _).bind fun _ _ _ =>
    (storeu64_alike o o' _ _ _ _).bind fun _ _ _ => (storeu64_alike o o' _ _ _ _).bind fun _ _ _ =>
    (storeu64_alike o o' _ _ _ _).bind fun _ _ _ => (storeu64_alike o o' _ _ _ _).bind fun _ _ _ =>
    .refl _

theorem rgb_to_bgra_single_alike (o o' : Order) (src : Buf) (dst : Dst) (s : Cur) :
    K.Alike (rgb_to_bgra_single o src dst s) (rgb_to_bgra_single o' src dst s) Eq := by
  unfold rgb_to_bgra_single
  exact (loadu32_alike o o' _ _).bind fun _ _ _ => (storeu32_alike o o' _ _ _ _).bind fun _ _ _ =>
    .refl _

theorem rgb_to_bgra_line_alike (o o' : Order) (t : Target) (w h sd dd : Nat) (src : Buf) (dst : Dst)
    (y so d : Nat) : K.Alike (rgb_to_bgra_line o t w h sd dd src dst y so d)
      (rgb_to_bgra_line o' t w h sd dd src dst y so d) Eq := by
  unfold rgb_to_bgra_line
  have tail : ∀ (multi single : Nat) (f : Cur → K (Nat × Nat)), K.Alike
      (iterK ((multi + 7) / 8) (rgb_to_bgra_multi o src dst) ⟨0, so, d⟩ >>= fun s =>
        whileK w (fun s => s.x < single) (rgb_to_bgra_single o src dst) s >>= f)
      (iterK ((multi + 7) / 8) (rgb_to_bgra_multi o' src dst) ⟨0, so, d⟩ >>= fun s =>
        whileK w (fun s => s.x < single) (rgb_to_bgra_single o' src dst) s >>= f) Eq :=
    fun multi single f => (K.Alike.iterK (rgb_to_bgra_multi_alike o o' src dst) _ _).seq fun _ =>
      (K.Alike.whileK (rgb_to_bgra_single_alike o o' src dst) _ _).seq fun _ => .refl _
  exact .ite (.after fun _ => .ite (.after fun _ => .after fun _ => tail _ _ _)
      (.after fun _ => tail _ _ _))
    (.after fun _ => .ite (.after fun _ => .after fun _ => tail _ _ _) (.after fun _ => tail _ _ _))

theorem rgb_to_bgra_lines_alike (o o' : Order) (t : Target) (w h sd dd : Nat) (src : Buf) (dst : Dst)
    (n : Nat) : ∀ y so d, K.Alike (rgb_to_bgra_lines o t w h sd dd src dst y n so d)
      (rgb_to_bgra_lines o' t w h sd dd src dst y n so d) Eq := by
  induction n with
  | zero => intro y so d; exact .refl _
  | succ n ih =>
    intro y so d
    unfold rgb_to_bgra_lines
    exact (rgb_to_bgra_line_alike o o' t w h sd dd src dst y so d).seq fun p => ih (y + 1) p.1 p.2

theorem rgb_to_bgra_alike (o o' : Order) (t : Target) (w h ss : Nat) (src : Buf) (ds : Nat)
    (dst : Dst) : K.Alike (rgb_to_bgra o t w h ss src ds dst) (rgb_to_bgra o' t w h ss src ds dst)
      Eq := by
  unfold rgb_to_bgra
  exact .after fun _ => .after fun _ => .after fun _ => .after fun _ =>
    rgb_to_bgra_lines_alike o o' t w h _ _ src dst h 0 0 0

theorem bgr_to_rgb_multi_alike (o o' : Order) (src : Buf) (dst : Dst) (s : Cur) :
    K.Alike (bgr_to_rgb_multi o src dst s) (bgr_to_rgb_multi o' src dst s) Eq := by
  unfold bgr_to_rgb_multi
  exact (loadu64_alike o o' _ _).bind fun _ _ _ => (loadu64_alike o o' _ _).bind fun _ _ _ =>
    (loadu64_alike o o' _ _).bind fun _ _ _ =>
    (storeu64_alike o o' _ _ _ _).bind fun _ _ _ => (storeu64_alike o o' _ _ _ _).bind fun _ _ _ =>
    (storeu64_alike o o' _ _ _ _).bind fun _ _ _ => .refl _

theorem bgr_to_rgb_alike (o o' : Order) (mul : Nat → Nat → R Nat) (w h ss : Nat) (src : Buf)
    (ds : Nat) (dst : Dst) :
    K.Alike (bgr_to_rgb o mul w h ss src ds dst) (bgr_to_rgb o' mul w h ss src ds dst) Eq := by
  unfold bgr_to_rgb
  exact .forK (fun i => .after fun _ => .after fun _ =>
    (K.Alike.whileK (bgr_to_rgb_multi_alike o o' src dst) _ _).seq fun _ => .refl _) _

theorem bgra_to_rgb_multi_alike (o o' : Order) (src : Buf) (dst : Dst) (s : Cur) :
    K.Alike (bgra_to_rgb_multi o src dst s) (bgra_to_rgb_multi o' src dst s) Eq := by
  unfold bgra_to_rgb_multi
  exact (loadu64_alike o o' _ _).bind fun _ _ _ => (loadu64_alike o o' _ _).bind fun _ _ _ =>
    (loadu64_alike o o' _ _).bind fun _ _ _ => (loadu64_alike o o' _ _).bind fun _ _ _ =>
    (storeu64_alike o o' _ _ _ _).bind fun _ _ _ => (storeu64_alike o o' _ _ _ _).bind fun _ _ _ =>
    (storeu64_alike o o' _ _ _ _).bind fun _ _ _ => .refl _

theorem bgra_to_rgb_alike (o o' : Order) (t : Target) (w h ss : Nat) (src : Buf)
    (ds : Nat) (dst : Dst) :
    K.Alike (bgra_to_rgb o t w h ss src ds dst) (bgra_to_rgb o' t w h ss src ds dst) Eq := by
  unfold bgra_to_rgb
  exact .after fun _ => .after fun _ => .after fun _ => .after fun _ =>
    .forK (fun i => .after fun _ => .after fun _ => .after fun _ => .after fun _ => .after fun _ =>
    .after fun _ =>
    (K.Alike.whileK (bgra_to_rgb_multi_alike o o' src dst) _ _).seq fun _ => .refl _) _

theorem rgb_rgb_alike {t : Target} {sd dd : Nat} {k k' : Wrap.RgbRgbKernel}
    (h : ∀ w h ss src ds dst, K.Alike (k w h ss src ds dst) (k' w h ss src ds dst) Eq)
    (w ht : UInt32) (ss : List Nat) (sb : List Buf) (ds : List Nat) (db : List Dst) :
    K.Alike (Wrap.rgb_rgb t sd dd k w ht ss sb ds db) (Wrap.rgb_rgb t sd dd k' w ht ss sb ds db)
      Eq := by
  unfold Wrap.rgb_rgb
  exact .ite (.refl _) (.ite (.refl _) (.after fun _ => .after fun _ => .after fun _ =>
    .after fun _ => .after fun _ => .after fun _ => .after fun _ =>
    .ite (.refl _) ((h _ _ _ _ _ _).seq fun _ => .refl _)))

theorem impl_yuv (o : Order) :
    (impl o).nv12_rgb = X86.impl.nv12_rgb ∧ (impl o).i420_rgb = X86.impl.i420_rgb ∧
    (impl o).i444_rgb = X86.impl.i444_rgb ∧ (impl o).rgb_i444 = X86.impl.rgb_i444 ∧
    (impl o).rgb_i420 = X86.impl.rgb_i420 ∧ (impl o).rgb_nv12 = X86.impl.rgb_nv12 :=
  ⟨rfl, rfl, rfl, rfl, rfl, rfl⟩

/-- A routine that has a YCbCr image at one end. -/
theorem exec_colour (t : Target) (o : Order) (r : Routine)
    (hr : Spec.isRgb r.key.1.1 = false ∨ Spec.isRgb r.key.2.1 = false) :
    r.exec t (impl o) = r.exec t X86.impl := by
  obtain ⟨h1, h2, h3, h4, h5, h6⟩ := impl_yuv o
  match r with
  | .rgbYuv s .i420 c => simp only [Routine.exec, h5]
  | .rgbYuv s .i444 c => simp only [Routine.exec, h4]
  | .rgbYuv s .nv12 c => simp only [Routine.exec, h6]
  | .yuvRgb .i420 c d => simp only [Routine.exec, h2]
  | .yuvRgb .i444 c d => simp only [Routine.exec, h3]
  | .yuvRgb .nv12 c d => simp only [Routine.exec, h1]
  | .rgbRgb .rgbBgra => exact absurd hr (by decide)
  | .rgbRgb .bgraRgb => exact absurd hr (by decide)
  | .rgbRgb .bgrRgb => exact absurd hr (by decide)

theorem exec_alike (t : Target) (o o' : Order) (r : Routine) (w h a : UInt32) (ss : List Nat)
    (sb : List Buf) (b : UInt32) (ds : List Nat) (db : List Dst) :
    K.Alike (r.exec t (impl o) w h a ss sb b ds db) (r.exec t (impl o') w h a ss sb b ds db) Eq := by
  by_cases hr : Spec.isRgb r.key.1.1 = false ∨ Spec.isRgb r.key.2.1 = false
  · rw [exec_colour t o r hr, exec_colour t o' r hr]
    exact .refl _
  · match r with
    | .rgbYuv s y c => exact absurd (.inr (by cases y <;> rfl)) hr
    | .yuvRgb y c d => exact absurd (.inl (by cases y <;> rfl)) hr
    | .rgbRgb .rgbBgra => exact rgb_rgb_alike (rgb_to_bgra_alike o o' t) w h ss sb ds db
    | .rgbRgb .bgraRgb => exact rgb_rgb_alike (bgra_to_rgb_alike o o' t) w h ss sb ds db
    | .rgbRgb .bgrRgb => exact rgb_rgb_alike (bgr_to_rgb_alike o o' t.mul) w h ss sb ds db

theorem exec_impls_alike (t : Target) (o o' : Order) (set : InstructionSet) (r : Routine)
    (w h a : UInt32) (ss : List Nat) (sb : List Buf) (b : UInt32) (ds : List Nat) (db : List Dst) :
    K.Alike (r.exec t (impls o set) w h a ss sb b ds db)
      (r.exec t (impls o' set) w h a ss sb b ds db) Eq := by
  cases set with
  | x86 => exact exec_alike t o o' r w h a ss sb b ds db
  | sse2 => exact .refl _
  | avx2 => exact .refl _
  | neon => exact .refl _

theorem convert_image_with_alike (t : Target) (o o' : Order) (tb : DispatchTable) (w h : UInt32)
    (sf : ImageFormat) (ss : Option (List Nat)) (sb : List Buf) (df : ImageFormat)
    (ds : Option (List Nat)) (db : List Dst) :
    K.Alike (convert_image_with t (impls o) tb w h sf ss sb df ds db)
      (convert_image_with t (impls o') tb w h sf ss sb df ds db) Eq := by
  unfold convert_image_with
  refine .ite (.refl _) (.after fun _ => .ite (.refl _) (.after fun _ => .ite (.refl _)
    (.ite (.refl _) ?_)))
  split
  · exact .refl _
  · exact (exec_impls_alike t o o' _ _ _ _ _ _ _ _ _ _).seq fun _ => .refl _

theorem rgb_to_bgra_multi_little : rgb_to_bgra_multi .little = X86.rgb_to_bgra_multi := rfl
theorem rgb_to_bgra_single_little : rgb_to_bgra_single .little = X86.rgb_to_bgra_single := rfl
theorem bgr_to_rgb_multi_little : bgr_to_rgb_multi .little = X86.bgr_to_rgb_multi := rfl
theorem bgra_to_rgb_multi_little : bgra_to_rgb_multi .little = X86.bgra_to_rgb_multi := rfl

theorem rgb_to_bgra_line_little : rgb_to_bgra_line .little = X86.rgb_to_bgra_line := by
  funext t w h sd dd src dst y so d
  simp only [rgb_to_bgra_line, X86.rgb_to_bgra_line, rgb_to_bgra_multi_little,
    rgb_to_bgra_single_little]

theorem rgb_to_bgra_lines_little (t : Target) (w h sd dd : Nat) (src : Buf) (dst : Dst) (n : Nat) :
    ∀ y so d, rgb_to_bgra_lines .little t w h sd dd src dst y n so d =
      X86.rgb_to_bgra_lines t w h sd dd src dst y n so d := by
  induction n with
  | zero => intro y so d; rfl
  | succ n ih =>
    intro y so d
    simp only [rgb_to_bgra_lines, X86.rgb_to_bgra_lines, rgb_to_bgra_line_little, ih]

theorem rgb_to_bgra_little : rgb_to_bgra .little = X86.rgb_to_bgra := by
  funext t w h ss src ds dst
  simp only [rgb_to_bgra, X86.rgb_to_bgra, rgb_to_bgra_lines_little]

theorem bgr_to_rgb_little : bgr_to_rgb .little = X86.bgr_to_rgb := by
  funext mul w h ss src ds dst
  simp only [bgr_to_rgb, X86.bgr_to_rgb, bgr_to_rgb_multi_little]

theorem bgra_to_rgb_little : bgra_to_rgb .little = X86.bgra_to_rgb := by
  funext t w h ss src ds dst
  simp only [bgra_to_rgb, X86.bgra_to_rgb, bgra_to_rgb_multi_little]

/-- On a little-endian target the portable code is the one of `Verif/Model/X86Impl.lean`. -/
theorem impl_little : impl .little = X86.impl := by
  unfold impl
  rw [rgb_to_bgra_little, bgra_to_rgb_little, bgr_to_rgb_little]
  rfl

theorem impls_little : impls .little = crate := by
  funext set
  cases set with
  | x86 => exact impl_little
  | sse2 => rfl
  | avx2 => rfl
  | neon => rfl

end Ordered

theorem convert_image_ending (t : Target) (o o' : Order) (tb : DispatchTable) (c : Call) :
    Outcome.ending (convert_image t (Ordered.impls o) tb c.width c.height c.src_format c.src_strides
      c.src_buffers c.dst_format c.dst_strides c.dst_buffers) =
    Outcome.ending (convert_image t (Ordered.impls o') tb c.width c.height c.src_format c.src_strides
      c.src_buffers c.dst_format c.dst_strides c.dst_buffers) := by
  unfold convert_image
  rcases Ordered.convert_image_with_alike t o o' tb c.width c.height
    c.src_format c.src_strides c.src_buffers c.dst_format c.dst_strides (dstSlices c.dst_buffers)
    with ⟨e, h1, h2⟩ | ⟨a, b, ws, ws', h1, h2, h3, -⟩
  · rw [h1, h2]
  · rw [h1, h2]
    subst h3
    simp only [Outcome.ending, withMem, Except.ok.injEq, Prod.mk.injEq, true_and]
    apply List.ext_getElem?
    intro i
    simp only [List.getElem?_map, List.getElem?_mapIdx]
    cases c.dst_buffers[i]? <;> rfl

/-- One table serves both byte orders. -/
theorem convertOn_table (t : Target) : ∃ tb, TableFor .x86 tb ∧ ∀ o c, convertOn t o c =
    convert_image t (Ordered.impls o) tb c.width c.height c.src_format c.src_strides c.src_buffers
      c.dst_format c.dst_strides c.dst_buffers := by
  obtain ⟨ctx, h1, -, -, h2, -⟩ := context_new .other
  exact ⟨ctx.converters, h2, fun o c => by rw [convertOn, convert, convertHook, h1]; rfl⟩

theorem convert_ending (t : Target) (o o' : Order) (c : Call) :
    (convertOn t o c).ending = (convertOn t o' c).ending := by
  obtain ⟨tb, -, h⟩ := convertOn_table t
  rw [h, h]
  exact convert_image_ending t o o' tb c

end Verif
