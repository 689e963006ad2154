import Verif.Lemmas.WpX86
/-! # Portable RGB to RGB kernels: exactly when they stay in bounds -/

namespace Verif.X86

variable {S X : Prop}

/-- Close an obligation from the facts `o`. -/
local macro "wpo" o:ident : tactic => `(tactic| (intro s; have := $o s; omega))

/-- With overflow checks a stride below the length of a line does end the conversion. -/
theorem diffs_over {α : Type} {t : Target} {w ss ds a b : Nat} {f : Nat → Nat → K α} {Q : α → Prop}
    (hc : t.checked = true) (hn : ¬ (a * w ≤ ss ∧ b * w ≤ ds)) (hX : X) :
    K.Wp S X (do
      let p ← K.lift (t.mul a w)
      let x ← K.lift (t.sub ss p)
      let q ← K.lift (t.mul b w)
      let y ← K.lift (t.sub ds q)
      f x y) Q := by
  have mul : ∀ c, K.Wp S X (K.lift (t.mul c w)) fun p => p = c * w := by
    intro c
    unfold Target.mul
    split
    · exact K.Wp.pure rfl
    · exact .inr ⟨rfl, hX⟩
  have sub : ∀ p q, K.Wp S X (K.lift (t.sub p q)) fun _ => q ≤ p := by
    intro p q
    unfold Target.sub
    split
    · rename_i h
      exact K.Wp.pure h
    · exact .inr ⟨rfl, hX⟩
  refine K.Wp.bind (mul a) fun p e1 => K.Wp.bind (sub _ _) fun _ h1 => K.Wp.bind (mul b)
    fun q e2 => K.Wp.bind (sub _ _) fun _ h2 => ?_
  subst e1 e2
  exact absurd ⟨h1, h2⟩ hn

/-- The widths of the gaps between lines are computed first; with overflow checks a stride below the
length of a line ends the conversion at once. -/
theorem diffs_wp {α : Type} {t : Target} {w ss ds a b : Nat} {f : Nat → Nat → K α} {Q : Prop}
    (hX : t.checked = true → ¬ (a * w ≤ ss ∧ b * w ≤ ds) → X)
    (h : t.checked = false ∨ (a * w ≤ ss ∧ b * w ≤ ds) → K.Wp S X (do
      let p ← K.lift (t.mul a w)
      let x ← K.lift (t.sub ss p)
      let q ← K.lift (t.mul b w)
      let y ← K.lift (t.sub ds q)
      f x y) (fun _ => Q)) :
    K.Wp S X (do
      let p ← K.lift (t.mul a w)
      let x ← K.lift (t.sub ss p)
      let q ← K.lift (t.mul b w)
      let y ← K.lift (t.sub ds q)
      f x y) (fun _ => Q ∧ (t.checked = true → a * w ≤ ss ∧ b * w ≤ ds)) := by
  by_cases hw : a * w ≤ ss ∧ b * w ≤ ds
  · exact (h (.inr hw)).mono fun _ hq => ⟨hq, fun _ => hw⟩
  · by_cases hc : t.checked = true
    · exact diffs_over hc hw (hX hc hw)
    · exact (h (.inl (by simpa using hc))).mono fun _ hq => ⟨hq, fun h => absurd h hc⟩

/-- Every part of a line (first pixel, number of pixels) fits into the strides. -/
def Fit (l : List (Nat × Nat)) (a b ss ds : Nat) : Prop :=
  ∀ p, p ∈ l → a * p.2 ≤ ss ∧ b * p.2 ≤ ds

/-- Some part does not, though the parts before it lie inside the buffers. -/
def Stuck (l : List (Nat × Nat)) (a b ss ds sl dl h : Nat) : Prop :=
  ∃ p, p ∈ l ∧ ¬ (a * p.2 ≤ ss ∧ b * p.2 ≤ ds) ∧
    (0 < p.1 → Ext sl ss (a * p.1) h ∧ Ext dl ds (b * p.1) h)

theorem Fit.one {w a b ss ds : Nat} (h : a * w ≤ ss ∧ b * w ≤ ds) : Fit [(0, w)] a b ss ds := by
  intro p hp
  rwa [List.mem_singleton.1 hp]

theorem Stuck.one {w a b ss ds sl dl h : Nat} :
    Stuck [(0, w)] a b ss ds sl dl h ↔ ¬ (a * w ≤ ss ∧ b * w ≤ ds) := by
  constructor
  · rintro ⟨p, hp, h, -⟩
    rwa [List.mem_singleton.1 hp] at h
  · exact fun h => ⟨_, List.mem_singleton_self _, h, fun h => absurd h (by simp)⟩

/-- The gap between two lines, `stride - line`: with overflow checks the line must not exceed the
stride; without, the difference wraps and adding it to the end of a line wraps back to the beginning of
the next one. -/
theorem gap {t : Target} {w ss a : Nat} (hn : t.checked = false ∨ a * w ≤ ss)
    (hs : ss < 2 ^ t.bits) :
    ∃ m sd, t.mul a w = .ok m ∧ t.sub ss m = .ok sd ∧ t.add m sd = .ok ss ∧
      (∀ p len, p + a * w ≤ len → len + ss < 2 ^ t.bits → t.add (p + a * w) sd = .ok (p + ss)) ∧
      (a * w < 2 ^ t.bits → sd = if a * w ≤ ss then ss - a * w else 2 ^ t.bits + ss - a * w) := by
  have B : 0 < 2 ^ t.bits := Nat.two_pow_pos _
  have hm : t.mul a w = .ok (a * w % 2 ^ t.bits) := by
    unfold Target.mul
    split
    · rename_i h
      rw [Nat.mod_eq_of_lt h]
    · rw [if_neg (by have := hn.resolve_right (by omega); simp [this])]
  have hlt := Nat.mod_lt (a * w) B
  generalize em : a * w % 2 ^ t.bits = m at hm hlt
  have hma : a * w < 2 ^ t.bits → m = a * w := fun h => by rw [← em, Nat.mod_eq_of_lt h]
  by_cases hf : m ≤ ss
  · refine ⟨m, ss - m, hm, sub_ok hf, ?_, fun p len h1 h2 => ?_, fun h => ?_⟩
    · rw [add_ok (by omega)]
      congr 1
      omega
    · have := hma (by omega)
      rw [add_ok (by omega)]
      congr 1
      omega
    · rw [← hma h, if_pos hf]
  · have hc : t.checked = false := hn.resolve_right fun h => hf (by rw [hma (by omega)]; exact h)
    refine ⟨m, 2 ^ t.bits + ss - m, hm, ?_, ?_, fun p len h1 h2 => ?_, fun h => ?_⟩
    · unfold Target.sub
      rw [if_neg hf, if_neg (by simp [hc])]
    · unfold Target.add
      rw [if_neg (by omega), if_neg (by simp [hc]),
        show m + (2 ^ t.bits + ss - m) = ss + 2 ^ t.bits by omega, Nat.add_mod_right,
        Nat.mod_eq_of_lt hs]
    · have := hma (by omega)
      unfold Target.add
      rw [if_neg (by omega), if_neg (by simp [hc]),
        show p + a * w + (2 ^ t.bits + ss - m) = p + ss + 2 ^ t.bits by omega, Nat.add_mod_right,
        Nat.mod_eq_of_lt (by omega)]
    · rw [← hma h, if_neg hf]

/-! ## Rgb to Bgra -/

theorem rgb_to_bgra_line_wp' {t : Target} {w h sd dd ss ds : Nat} {src : Buf} {d : Dst}
    {y so d0 : Nat} {single n : Nat} (hw : 0 < w)
    (hs : so + 3 * w ≤ src.len → t.add (so + 3 * w) sd = .ok (so + ss))
    (hd : d0 + 4 * w ≤ d.len → t.add (d0 + 4 * w) dd = .ok (d0 + ds))
    (o : S → so + 3 * w ≤ src.len ∧ d0 + 4 * w ≤ d.len)
    (o' : S → y + 1 < h → (1 ≤ sd → so + 3 * w + 1 ≤ src.len) ∧
      (2 ≤ sd → w % 8 = 0 → so + 3 * w + 2 ≤ src.len))
    (hsingle : (single = w - 1) ∨ (single = w ∧ 1 ≤ sd ∧ y + 1 < h))
    (hmulti : 8 * n ≤ w - 1 ∨ (8 * n = w ∧ 2 ≤ sd ∧ y + 1 < h)) :
    K.Wp S X (do
      let s ← iterK ((8 * n + 7) / 8) (rgb_to_bgra_multi src d) ⟨0, so, d0⟩
      let s ← whileK w (fun s => s.x < single) (rgb_to_bgra_single src d) s
      if s.x < w then do
        let s ← rgb_to_bgra_last src d s
        let so ← K.lift (t.add s.so sd)
        let d ← K.lift (t.add s.d dd)
        return (so, d)
      else do
        let so ← K.lift (t.add s.so sd)
        let d ← K.lift (t.add s.d dd)
        return (so, d)) (fun r =>
      r = (so + ss, d0 + ds) ∧ so + 3 * w ≤ src.len ∧ d0 + 4 * w ≤ d.len ∧
      (8 * n = w → so + 3 * w + 2 ≤ src.len)) := by
  rw [show (8 * n + 7) / 8 = n by omega]
  refine K.Wp.bind (K.Wp.iterK (I := fun i s => s = ⟨8 * i, so + 24 * i, d0 + 32 * i⟩ ∧
    (0 < i → so + 24 * i + 2 ≤ src.len ∧ d0 + 32 * i ≤ d.len)) ⟨by simp, by omega⟩ ?_) ?_
  · rintro i s hi ⟨rfl, -⟩
    have o1 : S → so + 24 * i + 26 ≤ src.len ∧ d0 + 32 * i + 32 ≤ d.len := by
      intro hs
      have := o hs
      have := o' hs
      omega
    unfold rgb_to_bgra_multi
    dsimp only
    refine K.Wp.bind (K.Wp.loadu64 (by wpo o1)) fun _ _ => ?_
    refine K.Wp.bind (K.Wp.loadu64 (by wpo o1)) fun _ _ => ?_
    refine K.Wp.bind (K.Wp.loadu64 (by wpo o1)) fun _ _ => ?_
    refine K.Wp.bind (K.Wp.loadu64 (by wpo o1)) fun _ h1 => ?_
    refine K.Wp.bind (K.Wp.storeu64 (by wpo o1)) fun _ _ => ?_
    refine K.Wp.bind (K.Wp.storeu64 (by wpo o1)) fun _ _ => ?_
    refine K.Wp.bind (K.Wp.storeu64 (by wpo o1)) fun _ _ => ?_
    refine K.Wp.bind (K.Wp.storeu64 (by wpo o1)) fun _ h2 => K.Wp.pure ⟨?_, fun _ => ?_⟩
    · simp only [Cur.mk.injEq]; omega
    · omega
  rintro s ⟨rfl, hm0⟩
  refine K.Wp.bind (K.Wp.whileK (n := single - 8 * n)
    (I := fun i s => s = ⟨8 * n + i, so + 3 * (8 * n + i), d0 + 4 * (8 * n + i)⟩ ∧
      (0 < 8 * n + i → so + 3 * (8 * n + i) ≤ src.len ∧ d0 + 4 * (8 * n + i) ≤ d.len))
    (by omega) ?_ ?_ ?_) ?_
  · refine ⟨?_, ?_⟩
    · simp only [Cur.mk.injEq]; omega
    · omega
  · rintro i s hi ⟨rfl, -⟩
    refine ⟨by simp only [decide_eq_true_eq]; omega, ?_⟩
    have o1 : S → so + 3 * (8 * n + i) + 4 ≤ src.len ∧ d0 + 4 * (8 * n + i) + 4 ≤ d.len := by
      intro hs
      have := o hs
      have := o' hs
      omega
    unfold rgb_to_bgra_single
    dsimp only
    refine K.Wp.bind (K.Wp.loadu32 (by wpo o1)) fun _ h1 => ?_
    refine K.Wp.bind (K.Wp.storeu32 (by wpo o1)) fun _ h2 => K.Wp.pure ⟨?_, fun _ => ?_⟩
    · simp only [Cur.mk.injEq]; omega
    · omega
  · rintro s ⟨rfl, -⟩
    simp only [decide_eq_false_iff_not]; omega
  rintro s ⟨rfl, hm⟩
  -- the last pixel
  have fin : ∀ s : Cur, s.so = so + 3 * w → s.d = d0 + 4 * w → so + 3 * w ≤ src.len →
      d0 + 4 * w ≤ d.len → K.Wp S X (do
        let so ← K.lift (t.add s.so sd)
        let d ← K.lift (t.add s.d dd)
        return (so, d)) (fun r => r = (so + ss, d0 + ds) ∧
          so + 3 * w ≤ src.len ∧ d0 + 4 * w ≤ d.len ∧ (8 * n = w → so + 3 * w + 2 ≤ src.len)) := by
    rintro s e1 e2 h1 h2
    rw [e1, e2, hs h1, hd h2]
    simp only [K.lift_ok, pure_bind]
    exact K.Wp.pure ⟨rfl, h1, h2, fun e => by have := hm0 (by omega); omega⟩
  simp only
  split
  · rename_i hx
    have hx' : 8 * n + (single - 8 * n) = w - 1 := by omega
    rw [hx']
    unfold rgb_to_bgra_last
    simp only [bind_assoc, pure_bind]
    refine K.Wp.bind (K.Wp.rd (by wpo o)) fun _ h1 => ?_
    refine K.Wp.bind (K.Wp.wr (by wpo o)) fun _ _ => ?_
    refine K.Wp.bind (K.Wp.rd (by wpo o)) fun _ _ => ?_
    refine K.Wp.bind (K.Wp.wr (by wpo o)) fun _ _ => ?_
    refine K.Wp.bind (K.Wp.rd (by wpo o)) fun _ _ => ?_
    refine K.Wp.bind (K.Wp.wr (by wpo o)) fun _ _ => ?_
    refine K.Wp.bind (K.Wp.wr (by wpo o)) fun _ h2 => ?_
    exact fin ⟨w - 1, so + 3 * (w - 1) + 3, d0 + 4 * (w - 1) + 4⟩ (by simp only; omega)
      (by simp only; omega) (by omega) (by omega)
  · rename_i hx
    have hx' : 8 * n + (single - 8 * n) = w := by omega
    rw [hx'] at hm ⊢
    exact fin ⟨w, so + 3 * w, d0 + 4 * w⟩ rfl rfl (hm (by omega)).1 (hm (by omega)).2

theorem rgb_to_bgra_line_wp {t : Target} {w h sd dd ss ds : Nat} {src : Buf} {d : Dst}
    {y so d0 : Nat} (hw : 0 < w)
    (hs : so + 3 * w ≤ src.len → t.add (so + 3 * w) sd = .ok (so + ss))
    (hd : d0 + 4 * w ≤ d.len → t.add (d0 + 4 * w) dd = .ok (d0 + ds))
    (o : S → so + 3 * w ≤ src.len ∧ d0 + 4 * w ≤ d.len)
    (o' : S → y + 1 < h → (1 ≤ sd → so + 3 * w + 1 ≤ src.len) ∧
      (2 ≤ sd → w % 8 = 0 → so + 3 * w + 2 ≤ src.len)) (hy : y < h) :
    K.Wp S X (rgb_to_bgra_line t w h sd dd src d y so d0) (fun r =>
      r = (so + ss, d0 + ds) ∧ so + 3 * w ≤ src.len ∧ d0 + 4 * w ≤ d.len ∧
      (y + 1 < h → 2 ≤ sd → w % 8 = 0 → so + 3 * w + 2 ≤ src.len)) := by
  unfold rgb_to_bgra_line
  simp only [sub_ok (t := t) (show 1 ≤ w by omega), K.liftM_eq, K.lift_ok, pure_bind]
  have wp := fun single n h1 h2
      (h3 : y + 1 < h → 2 ≤ sd → w % 8 = 0 → 8 * n = w) => (rgb_to_bgra_line_wp' (X := X) (single := single) (n := n) hw hs
    hd o o' h1 h2).mono (Q := fun r => r = (so + ss, d0 + ds) ∧ so + 3 * w ≤ src.len ∧
      d0 + 4 * w ≤ d.len ∧ (y + 1 < h → 2 ≤ sd → w % 8 = 0 → so + 3 * w + 2 ≤ src.len))
    fun _ ⟨e, a, b, p⟩ => ⟨e, a, b, fun x y z => p (h3 x y z)⟩
  split
  · split
    · rename_i hc
      simp only [Bool.or_eq_true, beq_iff_eq, decide_eq_true_eq, Bool.and_eq_true] at hc
      exact wp _ ((w - 1) / 8) (.inl rfl) (.inl (by omega)) (by omega)
    · rename_i hc
      simp only [Bool.or_eq_true, beq_iff_eq, decide_eq_true_eq, not_or, Bool.and_eq_true,
        not_and] at hc
      refine wp _ (w / 8) (.inl rfl) ?_ (by omega)
      by_cases hc2 : 8 * (w / 8) = w
      · exact .inr ⟨hc2, by have := hc.2 hc2; omega⟩
      · exact .inl (by omega)
  · rename_i hc1
    simp only [Bool.or_eq_true, beq_iff_eq, decide_eq_true_eq, not_or] at hc1
    split
    · rename_i hc
      simp only [Bool.or_eq_true, beq_iff_eq, decide_eq_true_eq, Bool.and_eq_true] at hc
      exact wp _ ((w - 1) / 8) (.inr ⟨rfl, by omega⟩) (.inl (by omega)) (by omega)
    · rename_i hc
      simp only [Bool.or_eq_true, beq_iff_eq, decide_eq_true_eq, not_or, Bool.and_eq_true,
        not_and] at hc
      refine wp _ (w / 8) (.inr ⟨rfl, by omega⟩) ?_ (by omega)
      by_cases hc2 : 8 * (w / 8) = w
      · exact .inr ⟨hc2, by have := hc.2 hc2; omega⟩
      · exact .inl (by omega)

theorem rgb_to_bgra_lines_wp {t : Target} {w h sd dd ss ds : Nat} {src : Buf} {d : Dst}
    (hw : 0 < w) (hss : 0 < ss)
    (hs : ∀ so, so + 3 * w ≤ src.len → t.add (so + 3 * w) sd = .ok (so + ss))
    (hd : ∀ e, e + 4 * w ≤ d.len → t.add (e + 4 * w) dd = .ok (e + ds))
    (o : S → Ext src.len ss (3 * w) h ∧ Ext d.len ds (4 * w) h ∧
      (2 ≤ h → 2 ≤ sd → w % 8 = 0 → ss * (h - 2) + 3 * w + 2 ≤ src.len)) :
    ∀ {n y so d0 : Nat}, y + n = h → so = ss * y → d0 = ds * y →
    K.Wp S X (rgb_to_bgra_lines t w h sd dd src d y n so d0) (fun _ => (0 < n →
      Ext src.len ss (3 * w) h ∧ Ext d.len ds (4 * w) h) ∧
      (2 ≤ n → 2 ≤ sd → w % 8 = 0 → ss * (h - 2) + 3 * w + 2 ≤ src.len)) := by
  intro n
  induction n with
  | zero => intro y so d0 _ _ _; exact K.Wp.pure (by omega)
  | succ n ih =>
    intro y so d0 hy e1 e2
    rw [rgb_to_bgra_lines]
    refine K.Wp.bind (rgb_to_bgra_line_wp (ss := ss) (ds := ds) hw (hs _) (hd _) ?_ ?_ (by omega)) ?_
    · intro hs
      have := (o hs).1.at (y := y) (by omega)
      have := (o hs).2.1.at (y := y) (by omega)
      omega
    · intro hs hy'
      have h1 := (o hs).1.at (y := y + 1) (by omega)
      rw [Nat.mul_add, ← e1] at h1
      refine ⟨fun _ => by omega, fun g1 g2 => ?_⟩
      by_cases hl : y + 2 < h
      · have h2 := (o hs).1.at (y := y + 2) hl
        rw [Nat.mul_add, ← e1] at h2
        omega
      · have h2 := (o hs).2.2 (by omega) g1 g2
        rwa [show h - 2 = y by omega, ← e1] at h2
    · rintro ⟨so', d'⟩ ⟨e, h1, h2, h3⟩
      simp only [Prod.mk.injEq] at e
      refine (ih (y := y + 1) (by omega) ?_ ?_).mono ?_
      · rw [e.1, e1, Nat.mul_add, Nat.mul_one]
      · rw [e.2, e2, Nat.mul_add, Nat.mul_one]
      · intro _ hp
        refine ⟨fun _ => ?_, fun g g1 g2 => ?_⟩
        · rcases Nat.eq_zero_or_pos n with rfl | hn
          · have : y = h - 1 := by omega
            unfold Ext
            rw [← this, ← e1, ← e2]
            exact ⟨h1, h2⟩
          · exact hp.1 hn
        · by_cases hn : 2 ≤ n
          · exact hp.2 hn g1 g2
          · have := h3 (by omega) g1 g2
            rwa [show h - 2 = y by omega, ← e1]

/-- Without overflow checks and with a stride below `n` pixels the kernel takes the gap between lines
for a large one and reads two bytes beyond every line but the last if `n` is a multiple of eight. The
line ends with pixel `w`. -/
def Peek (t : Target) (ss len w n h : Nat) : Prop :=
  t.checked = false → ss < 3 * n → n % 8 = 0 → 2 ≤ h → ss * (h - 2) + 3 * w + 2 ≤ len

theorem rgb_to_bgra_wp {t : Target} {w h ss ds : Nat} {src : Buf} {d : Dst} (hw : 0 < w) (hh : 0 < h)
    (hss : 0 < ss)
    (hn : t.checked = false ∨ (3 * w ≤ ss ∧ 4 * w ≤ ds)) (hs : src.len + ss < 2 ^ t.bits)
    (hd : d.len + ds < 2 ^ t.bits)
    (o : S → Ext src.len ss (3 * w) h ∧ Ext d.len ds (4 * w) h ∧ Peek t ss src.len w w h) :
    K.Wp S X (rgb_to_bgra t w h ss src ds d) (fun _ =>
      Ext src.len ss (3 * w) h ∧ Ext d.len ds (4 * w) h ∧ Peek t ss src.len w w h) := by
  obtain ⟨m, sd, m1, e1, -, a1, v1⟩ := gap (hn.imp_right And.left) (show ss < 2 ^ t.bits by omega)
  obtain ⟨n, dd, m2, e2, -, a2, -⟩ := gap (hn.imp_right And.right) (show ds < 2 ^ t.bits by omega)
  unfold rgb_to_bgra
  simp only [K.liftM_eq, m1, m2, K.lift_ok, pure_bind, e1, e2]
  have peek : Ext src.len ss (3 * w) h → (Peek t ss src.len w w h ↔
      (2 ≤ h → 2 ≤ sd → w % 8 = 0 → ss * (h - 2) + 3 * w + 2 ≤ src.len)) := by
    intro he
    have h3 : 3 * w ≤ src.len := by unfold Ext at he; omega
    have v1 := v1 (by omega)
    unfold Peek
    by_cases hf : 3 * w ≤ ss
    · refine ⟨fun _ h2 hsd _ => ?_, fun _ _ h => by omega⟩
      rw [if_pos hf] at v1
      unfold Ext at he
      have : ss * (h - 1) = ss * (h - 2) + ss := by
        rw [show h - 1 = h - 2 + 1 by omega, Nat.mul_add, Nat.mul_one]
      omega
    · have hc := hn.resolve_right fun h => hf h.1
      rw [if_neg hf] at v1
      exact ⟨fun h a _ b => h hc (by omega) b a, fun h _ _ a b => h b (by omega) a⟩
  refine (rgb_to_bgra_lines_wp (X := X) (n := h) (y := 0) (so := 0) (d0 := 0) hw hss
    (fun so h => a1 so _ h hs) (fun e h => a2 e _ h hd)
    (fun hs => ⟨(o hs).1, (o hs).2.1, (peek (o hs).1).1 (o hs).2.2⟩) (by omega) (by simp) (by simp)).mono
    fun _ hp => ⟨(hp.1 hh).1, (hp.1 hh).2, (peek (hp.1 hh).1).2 hp.2⟩

theorem rgb_to_bgra_any_wp {t : Target} {w h ss ds : Nat} {src : Buf} {d : Dst} (hw : 0 < w)
    (hh : 0 < h) (hss : 0 < ss)
    (hX : t.checked = true → ¬ (3 * w ≤ ss ∧ 4 * w ≤ ds) → X) (hs : src.len + ss < 2 ^ t.bits)
    (hd : d.len + ds < 2 ^ t.bits)
    (o : S → Ext src.len ss (3 * w) h ∧ Ext d.len ds (4 * w) h ∧ Peek t ss src.len w w h) :
    K.Wp S X (rgb_to_bgra t w h ss src ds d) (fun _ =>
      (Ext src.len ss (3 * w) h ∧ Ext d.len ds (4 * w) h ∧ Peek t ss src.len w w h) ∧
      (t.checked = true → 3 * w ≤ ss ∧ 4 * w ≤ ds)) :=
  diffs_wp hX fun hn => rgb_to_bgra_wp hw hh hss hn hs hd o

/-! ## Bgr to Rgb -/

theorem swap_single_wp {k : Nat} {src : Buf} {d : Dst} {s : Cur}
    (o : S → s.so + 3 ≤ src.len ∧ s.d + 3 ≤ d.len) :
    K.Wp S X (swap_single k src d s) (fun s' => s' = ⟨s.x + 1, s.so + k, s.d + 3⟩ ∧
      s.so + 3 ≤ src.len ∧ s.d + 3 ≤ d.len) := by
  unfold swap_single
  refine K.Wp.bind (K.Wp.rd (by wpo o)) fun _ h1 => ?_
  refine K.Wp.bind (K.Wp.wr (by wpo o)) fun _ _ => ?_
  refine K.Wp.bind (K.Wp.rd (by wpo o)) fun _ _ => ?_
  refine K.Wp.bind (K.Wp.wr (by wpo o)) fun _ _ => ?_
  refine K.Wp.bind (K.Wp.rd (by wpo o)) fun _ _ => ?_
  refine K.Wp.bind (K.Wp.wr (by wpo o)) fun _ h2 => K.Wp.pure ⟨rfl, ?_⟩
  omega

theorem bgr_to_rgb_wp {w h ss ds : Nat} {src : Buf} {d : Dst} (hw : 0 < w) (hw' : w < 2 ^ 64)
    (hh : 0 < h)
    (o : S → Ext src.len ss (3 * w) h ∧ Ext d.len ds (3 * w) h) :
    K.Wp S X (bgr_to_rgb exactMul w h ss src ds d) (fun _ =>
      Ext src.len ss (3 * w) h ∧ Ext d.len ds (3 * w) h) := by
  unfold bgr_to_rgb
  simp only [exactMul, K.liftM_eq, K.lift_ok, pure_bind]
  simp only [lower_multiple_8 hw']
  refine (K.Wp.forK (P := fun y => ss * y + 3 * w ≤ src.len ∧ ds * y + 3 * w ≤ d.len)
    fun y hy => ?_).mono fun _ hp => hp (h - 1) (by omega)
  have o : S → ss * y + 3 * w ≤ src.len ∧ ds * y + 3 * w ≤ d.len := fun hs =>
    ⟨(o hs).1.at hy, (o hs).2.at hy⟩
  refine K.Wp.bind (K.Wp.whileK (n := w / 8) (I := fun i s => s = ⟨8 * i, ss * y + 24 * i, ds * y + 24 * i⟩ ∧
    (0 < i → ss * y + 24 * i ≤ src.len ∧ ds * y + 24 * i ≤ d.len)) (by omega) ⟨rfl, by omega⟩ ?_ ?_) ?_
  · rintro i s hi ⟨rfl, -⟩
    refine ⟨by simp only [decide_eq_true_eq]; omega, ?_⟩
    have o1 : S → ss * y + 24 * i + 24 ≤ src.len ∧ ds * y + 24 * i + 24 ≤ d.len := by wpo o
    unfold bgr_to_rgb_multi
    dsimp only
    refine K.Wp.bind (K.Wp.loadu64 (by wpo o1)) fun _ _ => ?_
    refine K.Wp.bind (K.Wp.loadu64 (by wpo o1)) fun _ _ => ?_
    refine K.Wp.bind (K.Wp.loadu64 (by wpo o1)) fun _ h1 => ?_
    refine K.Wp.bind (K.Wp.storeu64 (by wpo o1)) fun _ _ => ?_
    refine K.Wp.bind (K.Wp.storeu64 (by wpo o1)) fun _ _ => ?_
    refine K.Wp.bind (K.Wp.storeu64 (by wpo o1)) fun _ h2 => K.Wp.pure ⟨?_, fun _ => ?_⟩
    · simp only [Cur.mk.injEq]; omega
    · omega
  · rintro s ⟨rfl, -⟩
    simp only [decide_eq_false_iff_not]; omega
  rintro s ⟨rfl, hm⟩
  refine K.Wp.bind (K.Wp.whileK (n := w - 8 * (w / 8))
    (I := fun i s => s = ⟨8 * (w / 8) + i, ss * y + 3 * (8 * (w / 8) + i), ds * y + 3 * (8 * (w / 8) + i)⟩ ∧
    (0 < 8 * (w / 8) + i → ss * y + 3 * (8 * (w / 8) + i) ≤ src.len ∧
      ds * y + 3 * (8 * (w / 8) + i) ≤ d.len)) (by omega) ⟨?_, ?_⟩ ?_ ?_) ?_
  · simp only [Cur.mk.injEq]; omega
  · omega
  · rintro i s hi ⟨rfl, -⟩
    refine ⟨by simp only [decide_eq_true_eq]; omega, ?_⟩
    refine (swap_single_wp (by simp only; wpo o)).mono ?_
    rintro s' ⟨rfl, h1⟩
    simp only [Cur.mk.injEq] at h1 ⊢
    omega
  · rintro s ⟨rfl, -⟩
    simp only [decide_eq_false_iff_not]; omega
  rintro s ⟨-, hm⟩
  refine K.Wp.pure ?_
  have := hm (by omega)
  omega

/-! ## Bgra to Rgb -/

/-- Bytes of a Bgra line from its beginning to the last byte read by the kernels that convert it to
Rgb: whole pixels in groups of eight, then three bytes of every pixel. -/
def bgraEnd (w : Nat) : Nat := if w % 8 = 0 then 4 * w else 4 * w - 1

theorem bgra_to_rgb_line_wp {w : Nat} {src : Buf} {d : Dst} {so d0 : Nat} (hw : 0 < w)
    (hw' : w < 2 ^ 64) (o : S → so + bgraEnd w ≤ src.len ∧ d0 + 3 * w ≤ d.len) :
    K.Wp S X (do
      let s ← whileK w (fun s => s.x < lower_multiple_of_pot w 8) (bgra_to_rgb_multi src d) ⟨0, so, d0⟩
      let _ ← whileK w (fun s => s.x < w) (swap_single 4 src d) s
      return ()) (fun _ => so + bgraEnd w ≤ src.len ∧ d0 + 3 * w ≤ d.len) := by
  simp only [lower_multiple_8 hw']
  have o : S → so + 4 * w ≤ src.len + 1 ∧ (w % 8 = 0 → so + 4 * w ≤ src.len) ∧ d0 + 3 * w ≤ d.len := by
    intro hs
    have := o hs
    unfold bgraEnd at this
    split at this <;> omega
  refine K.Wp.bind (K.Wp.whileK (n := w / 8) (I := fun i s => s = ⟨8 * i, so + 32 * i, d0 + 24 * i⟩ ∧
    (0 < i → so + 32 * i ≤ src.len ∧ d0 + 24 * i ≤ d.len)) (by omega) ⟨rfl, by omega⟩ ?_ ?_) ?_
  · rintro i s hi ⟨rfl, -⟩
    refine ⟨by simp only [decide_eq_true_eq]; omega, ?_⟩
    have o1 : S → so + 32 * i + 32 ≤ src.len ∧ d0 + 24 * i + 24 ≤ d.len := by wpo o
    unfold bgra_to_rgb_multi
    dsimp only
    refine K.Wp.bind (K.Wp.loadu64 (by wpo o1)) fun _ _ => ?_
    refine K.Wp.bind (K.Wp.loadu64 (by wpo o1)) fun _ _ => ?_
    refine K.Wp.bind (K.Wp.loadu64 (by wpo o1)) fun _ _ => ?_
    refine K.Wp.bind (K.Wp.loadu64 (by wpo o1)) fun _ h1 => ?_
    refine K.Wp.bind (K.Wp.storeu64 (by wpo o1)) fun _ _ => ?_
    refine K.Wp.bind (K.Wp.storeu64 (by wpo o1)) fun _ _ => ?_
    refine K.Wp.bind (K.Wp.storeu64 (by wpo o1)) fun _ h2 => K.Wp.pure ⟨?_, fun _ => ?_⟩
    · simp only [Cur.mk.injEq]; omega
    · omega
  · rintro s ⟨rfl, -⟩
    simp only [decide_eq_false_iff_not]; omega
  rintro s ⟨rfl, hm⟩
  refine K.Wp.bind (K.Wp.whileK (n := w - 8 * (w / 8))
    (I := fun i s => s = ⟨8 * (w / 8) + i, so + 4 * (8 * (w / 8) + i), d0 + 3 * (8 * (w / 8) + i)⟩ ∧
    (0 < i → so + 4 * (8 * (w / 8) + i) ≤ src.len + 1 ∧
      d0 + 3 * (8 * (w / 8) + i) ≤ d.len)) (by omega) ⟨?_, by omega⟩ ?_ ?_) ?_
  · simp only [Cur.mk.injEq]; omega
  · rintro i s hi ⟨rfl, -⟩
    refine ⟨by simp only [decide_eq_true_eq]; omega, ?_⟩
    refine (swap_single_wp (by simp only; wpo o)).mono ?_
    rintro s' ⟨rfl, h1⟩
    simp only [Cur.mk.injEq] at h1 ⊢
    omega
  · rintro s ⟨rfl, -⟩
    simp only [decide_eq_false_iff_not]; omega
  rintro s ⟨-, hm'⟩
  refine K.Wp.pure ?_
  unfold bgraEnd
  split <;> omega

theorem bgra_to_rgb_wp {t : Target} {w h ss ds : Nat} {src : Buf} {d : Dst} (hw : 0 < w)
    (hw' : w < 2 ^ 64) (hh : 0 < h)
    (hn : t.checked = false ∨ (4 * w ≤ ss ∧ 3 * w ≤ ds)) (hs : src.len + ss < 2 ^ t.bits)
    (hd : d.len + ds < 2 ^ t.bits)
    (o : S → Ext src.len ss (bgraEnd w) h ∧ Ext d.len ds (3 * w) h) :
    K.Wp S X (bgra_to_rgb t w h ss src ds d) (fun _ =>
      Ext src.len ss (bgraEnd w) h ∧ Ext d.len ds (3 * w) h) := by
  obtain ⟨m, sd, m1, e1, z1, -, -⟩ := gap (hn.imp_right And.left) (show ss < 2 ^ t.bits by omega)
  obtain ⟨n, dd, m2, e2, z2, -, -⟩ := gap (hn.imp_right And.right) (show ds < 2 ^ t.bits by omega)
  unfold bgra_to_rgb
  simp only [K.liftM_eq, m1, m2, K.lift_ok, pure_bind, e1, e2, z1, z2]
  refine (K.Wp.forK' (P := fun y => ss * y + bgraEnd w ≤ src.len ∧ ds * y + 3 * w ≤ d.len)
    fun y hy hprev => ?_).mono fun _ hp => hp (h - 1) (by omega)
  have b : ss * y < 2 ^ t.bits ∧ ds * y < 2 ^ t.bits := by
    rcases y with _ | y
    · simp; 
    · have := hprev y (by omega)
      rw [Nat.mul_add, Nat.mul_add]
      omega
  rw [mul_ok b.1, mul_ok b.2]
  simp only [K.lift_ok, pure_bind]
  exact bgra_to_rgb_line_wp hw hw' fun hs => ⟨(o hs).1.at hy, (o hs).2.at hy⟩

theorem bgra_to_rgb_any_wp {t : Target} {w h ss ds : Nat} {src : Buf} {d : Dst} (hw : 0 < w)
    (hw' : w < 2 ^ 64) (hh : 0 < h)
    (hX : t.checked = true → ¬ (4 * w ≤ ss ∧ 3 * w ≤ ds) → X) (hs : src.len + ss < 2 ^ t.bits)
    (hd : d.len + ds < 2 ^ t.bits)
    (o : S → Ext src.len ss (bgraEnd w) h ∧ Ext d.len ds (3 * w) h) :
    K.Wp S X (bgra_to_rgb t w h ss src ds d) (fun _ =>
      (Ext src.len ss (bgraEnd w) h ∧ Ext d.len ds (3 * w) h) ∧
      (t.checked = true → 4 * w ≤ ss ∧ 3 * w ≤ ds)) :=
  diffs_wp hX fun hn => bgra_to_rgb_wp hw hw' hh hn hs hd o

end Verif.X86
