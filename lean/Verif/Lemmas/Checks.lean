import Verif.Spec.Checks
import Verif.Lemmas.Exact
import Verif.Lemmas.NoEffect
/-! # A converter decides on its arguments, or runs its kernel and answers `true` -/

namespace Verif

/-- The faults that are panics. -/
def Panics (e : Fault) : Prop := e = .overflow ∨ e = .sliceIndex

/-- A converter, as a function of the kernels: it answers, panics, or runs a kernel and answers `true`. -/
inductive Guarded : (Impl → K Bool) → Prop
  | pure (b : Bool) : Guarded fun _ => Pure.pure b
  | panic {e : Fault} (he : Panics e) : Guarded fun _ => K.throw e
  | kernel {k : Impl → K Unit} (hk : ∀ e, k (Spec.failing e) = K.throw e) :
      Guarded fun I => k I >>= fun _ => Pure.pure true

namespace Guarded

theorem lift {α : Type} {r : R α} {f : Impl → α → K Bool} (hr : ∀ e, r = .error e → Panics e)
    (h : ∀ a, Guarded fun I => f I a) : Guarded fun I => K.lift r >>= f I := by
  cases r with
  | error e =>
    simp only [K.lift_error, K.throw_bind]
    exact .panic (hr e rfl)
  | ok a =>
    simp only [K.lift_ok, pure_bind]
    exact h a

theorem ite {c : Prop} [Decidable c] {f g : Impl → K Bool} (hf : Guarded f) (hg : Guarded g) :
    Guarded fun I => if c then f I else g I := by
  split
  · exact hf
  · exact hg

end Guarded

theorem mul_panics {t : Target} {a b : Nat} : ∀ e, t.mul a b = .error e → Panics e := by
  intro e h
  unfold Target.mul at h
  split at h
  · cases h
  · split at h
    · cases h; exact .inl rfl
    · cases h

theorem sub_panics {t : Target} {a b : Nat} : ∀ e, t.sub a b = .error e → Panics e := by
  intro e h
  unfold Target.sub at h
  split at h
  · cases h
  · split at h
    · cases h; exact .inl rfl
    · cases h

theorem idx_panics {α : Type} {l : List α} {i : Nat} : ∀ e, idx l i = .error e → Panics e := by
  intro e h
  unfold idx at h
  split at h
  · cases h
  · cases h; exact .inr rfl

theorem upto_panics {b : Buf} {i : Nat} : ∀ e, b.upto i = .error e → Panics e := by
  intro e h
  unfold Buf.upto at h
  split at h
  · cases h
  · cases h; exact .inr rfl

theorem from_panics {b : Buf} {i : Nat} : ∀ e, b.from i = .error e → Panics e := by
  intro e h
  unfold Buf.from at h
  split at h
  · cases h
  · cases h; exact .inr rfl

theorem dst_upto_panics {b : Dst} {i : Nat} : ∀ e, b.upto i = .error e → Panics e := by
  intro e h
  unfold Dst.upto at h
  split at h
  · cases h
  · cases h; exact .inr rfl

theorem dst_from_panics {b : Dst} {i : Nat} : ∀ e, b.from i = .error e → Panics e := by
  intro e h
  unfold Dst.from at h
  split at h
  · cases h
  · cases h; exact .inr rfl

theorem guarded_exec (t : Target) (r : Routine) (w h a : UInt32) (ss : List Nat)
    (sb : List Buf) (b : UInt32) (ds : List Nat) (db : List Dst) :
    Guarded fun I => r.exec t I w h a ss sb b ds db := by
  rcases r with ⟨s, _ | _ | _, c⟩ | ⟨_ | _ | _, c, d⟩ | _ | _ | _ <;>
  simp only [Routine.exec, Wrap.rgb_i420, Wrap.rgb_i444, Wrap.rgb_nv12, Wrap.i420_rgb,
    Wrap.i444_rgb, Wrap.nv12_rgb, Wrap.rgb_rgb, K.liftM_eq]
  all_goals
    refine .ite (.pure _) (.ite (.pure _) ?_)
    repeat' first
      | exact Guarded.pure _
      | exact Guarded.kernel fun _ => rfl
      | (refine Guarded.lift mul_panics fun _ => ?_)
      | (refine Guarded.lift sub_panics fun _ => ?_)
      | (refine Guarded.lift idx_panics fun _ => ?_)
      | (refine Guarded.lift upto_panics fun _ => ?_)
      | (refine Guarded.lift from_panics fun _ => ?_)
      | (refine Guarded.lift dst_upto_panics fun _ => ?_)
      | (refine Guarded.lift dst_from_panics fun _ => ?_)
      | simp only [pure_bind]
      | split

/-- A call is decided by its arguments, or it runs a kernel and is not refused afterwards. -/
theorem call_guarded (t : Target) (cpu : Cpu) (c : Call) :
    (∃ o : Outcome, (∀ impls, convert t impls cpu c = o) ∧ (∀ e, o = .error e → Panics e) ∧
      ∀ r out, o = .ok (r, out) → out = c.dst_buffers) ∨
    ((∀ e, convert t (fun _ => Spec.failing e) cpu c = .error e) ∧
      ∀ impls r out, convert t impls cpu c = .ok (r, out) → r = .ok ()) := by
  obtain ⟨ctx, h1, -, -, hT, -⟩ := context_new cpu
  have ec : ∀ impls, convert t impls cpu c = convert_image t impls ctx.converters c.width c.height
      c.src_format c.src_strides c.src_buffers c.dst_format c.dst_strides c.dst_buffers := fun impls => by
    rw [convert, convertHook, h1]
    rfl
  have decided : ∀ r : Except ErrorKind Unit, (∀ impls, convert_image_with t impls ctx.converters c.width
      c.height c.src_format c.src_strides c.src_buffers c.dst_format c.dst_strides
      (dstSlices c.dst_buffers) = pure r) → ∃ o : Outcome, (∀ impls, convert t impls cpu c = o) ∧
      (∀ e, o = .error e → Panics e) ∧ ∀ r out, o = .ok (r, out) → out = c.dst_buffers :=
    fun r hr => ⟨.ok (r, c.dst_buffers), fun impls => by rw [ec, convert_of_pure (hr impls)],
      fun e he => (nomatch he), fun r out h => by cases h; rfl⟩
  by_cases hl : Spec.Legal c.src_format c.width c.height ∧ Spec.Legal c.dst_format c.width c.height
  · by_cases hs : Spec.Supported c.src_format.pixel_format c.dst_format.pixel_format
    · obtain ⟨r, hk, -, -⟩ := convert_supported (t := t) (impls := fun _ => Spec.failing .fuel)
        (ss := c.src_strides) (sb := c.src_buffers) (ds := c.dst_strides)
        (dl := dstSlices c.dst_buffers) hT hl.1 hl.2 hs
      have ex : ∀ impls, convert_image_with t impls ctx.converters c.width c.height c.src_format
          c.src_strides c.src_buffers c.dst_format c.dst_strides (dstSlices c.dst_buffers) =
          (r.exec t (impls cpu.set) c.width c.height (c.src_format.num_planes - 1)
            (c.src_strides.getD PixFmt.DEFAULT_STRIDES) c.src_buffers (c.dst_format.num_planes - 1)
            (c.dst_strides.getD PixFmt.DEFAULT_STRIDES) (dstSlices c.dst_buffers) >>= fun ok =>
              if ok then pure (.ok ()) else pure (.error .notEnoughData)) := fun impls => by
        obtain ⟨r', hk', -, e⟩ := convert_supported (t := t) (impls := impls) (ss := c.src_strides)
          (sb := c.src_buffers) (ds := c.dst_strides) (dl := dstSlices c.dst_buffers) hT hl.1 hl.2 hs
        cases key_inj _ _ (hk'.trans hk.symm)
        exact e
      have hg := guarded_exec t r c.width c.height (c.src_format.num_planes - 1)
        (c.src_strides.getD PixFmt.DEFAULT_STRIDES) c.src_buffers (c.dst_format.num_planes - 1)
        (c.dst_strides.getD PixFmt.DEFAULT_STRIDES) (dstSlices c.dst_buffers)
      generalize hf : (fun I => r.exec t I c.width c.height (c.src_format.num_planes - 1)
        (c.src_strides.getD PixFmt.DEFAULT_STRIDES) c.src_buffers (c.dst_format.num_planes - 1)
        (c.dst_strides.getD PixFmt.DEFAULT_STRIDES) (dstSlices c.dst_buffers)) = f at hg
      have ex' : ∀ impls, convert_image_with t impls ctx.converters c.width c.height c.src_format
          c.src_strides c.src_buffers c.dst_format c.dst_strides (dstSlices c.dst_buffers) =
          (f (impls cpu.set) >>= fun ok =>
              if ok then pure (.ok ()) else pure (.error .notEnoughData)) := fun impls => by
        rw [ex, ← hf]
      cases hg with
      | pure b =>
        refine .inl (decided (if b then .ok () else .error .notEnoughData) fun impls => ?_)
        rw [ex', pure_bind]
        cases b <;> rfl
      | panic he =>
        rename_i e
        refine .inl ⟨.error e, fun impls => ?_, fun e' h => by cases h; exact he,
          fun _ _ h => nomatch h⟩
        rw [ec, convert_image, ex', K.throw_bind]
      | kernel hk =>
        rename_i k
        refine .inr ⟨fun e => ?_, fun impls r out h => ?_⟩
        · rw [ec, convert_image, ex']
          simp only [hk, K.throw_bind]
        · rw [ec, convert_image, ex'] at h
          simp only [bind_assoc] at h
          simp only [pure_bind, if_true] at h
          rw [K.bind_def, K.bind] at h
          rcases hrun : (k (impls cpu.set)).run with _ | ⟨_, ws⟩
          · rw [hrun] at h
            cases h
          · rw [hrun] at h
            cases h
            rfl
    · exact .inl (decided _ fun impls => convert_unsupported hT hl.1 hl.2 hs)
  · refine .inl (decided _ fun impls => convert_invalid ?_)
    by_cases h1 : Spec.Legal c.src_format c.width c.height
    · exact .inr fun h2 => hl ⟨h1, h2⟩
    · exact .inl h1

/-- With overflow checks, sizes that exceed `usize` stop every call, whatever the kernels. -/
theorem sizes_halt {t : Target} {cpu : Cpu} {c : Call} (impls : InstructionSet → Impl)
    (hc : t.checked = true)
    (hl : Spec.Legal c.src_format c.width c.height) (hl' : Spec.Legal c.dst_format c.width c.height)
    (hs : Spec.Supported c.src_format.pixel_format c.dst_format.pixel_format)
    (hw : c.width ≠ 0) (hh : c.height ≠ 0)
    (hp : Spec.Supplied c.src_format c.src_strides c.src_buffers)
    (hp' : Spec.Supplied c.dst_format c.dst_strides c.dst_buffers)
    (ho : ¬ (Spec.SizesFit t c.src_format c.width c.height c.src_strides ∧
      Spec.SizesFit t c.dst_format c.width c.height c.dst_strides)) :
    convert t impls cpu c = .error .overflow := by
  obtain ⟨tb, hT, e⟩ := convert_table t impls cpu
  obtain ⟨r, hkey, -, ec⟩ := convert_supported (t := t) (impls := impls) (ss := c.src_strides)
    (sb := c.src_buffers) (ds := c.dst_strides) (dl := dstSlices c.dst_buffers) hT hl hl' hs
  rw [exec_halt hc r hkey hl hl' hw hh ⟨hp.1, hp.2⟩ ⟨hp'.1, hp'.2⟩ ho, K.throw_bind] at ec
  rw [e, convert_image, ec]

/-- An accepted call runs its kernel. -/
theorem accepted_runs {t : Target} {cpu : Cpu} {c : Call} (hb : 1 ≤ t.bits)
    (hq : Spec.Checked t c) (ha : Spec.Accepts c) (e : Fault) :
    convert t (fun _ => Spec.failing e) cpu c = .error e := by
  obtain ⟨tb, hT, ec⟩ := convert_table t (fun _ => Spec.failing e) cpu
  obtain ⟨hp, hp', ha1, ha2⟩ := (accepts_call hq.src_legal hq.dst_legal hq.supported hq.height_ne).1 ha
  obtain ⟨r, -, -, ek⟩ := convert_checked (impls := fun _ => Spec.failing e) hT hq.src_legal hq.dst_legal
    hq.supported hq.width_ne hq.height_ne hp hp' (small_of_sizes hb hq.src_sizes hq.src_real)
    (small_of_sizes hb hq.dst_sizes hq.dst_real)
  rw [if_pos ⟨ha1, ha2⟩] at ek
  have hk : ∀ w h sn dn, kcall t (Spec.failing e) w h sn c.src_strides c.src_buffers dn c.dst_strides
      c.dst_buffers r = K.throw e := fun w h sn dn => by
    rcases r with ⟨s, _ | _ | _, c⟩ | ⟨_ | _ | _, c, d⟩ | _ | _ | _ <;>
      simp only [kcall, Spec.failing, ite_self]
  rw [ec, convert_image, ek, hk, K.throw_bind]

theorem neon_few {mul : Nat → Nat → R Nat} {t : Target} {w h ss ds : Nat} {src : Buf} {d : Dst}
    (hw : w < 16) :
    Neon.rgb_bgra mul t w h ss src ds d = Neon.rgb_bgra exactMul t w h ss src ds d ∧
    Neon.bgra_rgb mul t w h ss src ds d = Neon.bgra_rgb exactMul t w h ss src ds d := by
  have hv : lower_multiple_of_pot w Neon.LANE_COUNT = 0 := by
    have := Simd.lower_multiple (k := 4) (w := w) (by omega) (by omega)
    rw [show Neon.LANE_COUNT = 2 ^ 4 from rfl, this]
    omega
  constructor
  · unfold Neon.rgb_bgra
    simp only [hv, Nat.lt_irrefl, if_false, gt_iff_lt]
  · unfold Neon.bgra_rgb
    simp only [hv, Nat.lt_irrefl, if_false, gt_iff_lt]

/-- The kernels of Rgb <-> Bgra find the strides too small before they store anything, except that of
NEON when there are 16 pixels or more. -/
theorem blind_over {t : Target} {set : InstructionSet} {w h : UInt32} {sf df : ImageFormat}
    {ss ds : Option (List Nat)} {sb db : List Buf} {r : Routine} (hb : 1 ≤ t.bits)
    (hkey : r.key = ((sf.pixel_format, sf.color_space), (df.pixel_format, df.color_space)))
    (hw : w ≠ 0) (hh : h ≠ 0) (hc : t.checked = true)
    (hsr : Spec.Real t sb) (hdr : Spec.Real t db)
    (has : AccImage (pxPair sf.pixel_format df.pixel_format) sf.pixel_format sf.num_planes.toNat
      w.toNat h.toNat ss sb)
    (had : AccImage (pxPair sf.pixel_format df.pixel_format) df.pixel_format df.num_planes.toNat
      w.toNat h.toNat ds db)
    (hn : set = .neon → w.toNat < 16)
    (ho : (∃ p, p ∈ Spec.parts set sf.pixel_format df.pixel_format w.toNat ∧
        ¬ (Spec.bpp sf.pixel_format * p.2 ≤
            Spec.strideOf ss 0 (Spec.bpp sf.pixel_format * w.toNat) ∧
          Spec.bpp df.pixel_format * p.2 ≤
            Spec.strideOf ds 0 (Spec.bpp df.pixel_format * w.toNat))) ∨
      (set = .avx2 ∧ sf.pixel_format = .bgra ∧ df.pixel_format = .rgb ∧
        Avx2.LateOverflow t w.toNat h.toNat (Spec.strideOf ss 0 (4 * w.toNat))
          (Spec.strideOf ds 0 (3 * w.toNat)))) :
    (kcall t (Spec.blind (crate set)) w.toNat h.toNat sf.num_planes.toNat ss sb df.num_planes.toNat
      ds db r).run = .error .overflow := by
  have hdim := dim_of hw hh
  have ls := buf_real hsr 0
  have ld := buf_real hdr 0
  have fin : ∀ {k : K Unit}, K.Wp True True k (fun _ => False) → k.run = .error .overflow := by
    intro k wp
    rcases hk : k.run with e | ⟨⟨⟩, ws⟩
    · rcases wp.fault hk with ⟨h1, -⟩ | ⟨rfl, -⟩
      · exact absurd trivial h1
      · rfl
    · exact (wp.post hk).elim
  rcases sf with ⟨spf, scs, sn⟩
  rcases df with ⟨dpf, dcs, dn⟩
  simp only at *
  cases r with
  | rgbYuv s y c =>
    exfalso
    simp only [Routine.key, Prod.mk.injEq] at hkey
    obtain ⟨⟨rfl, rfl⟩, rfl, rfl⟩ := hkey
    rcases ho with ⟨p, hp, -⟩ | ⟨-, -, h, -⟩
    · cases s <;> cases y <;> cases hp
    · cases y <;> cases h
  | yuvRgb y c q =>
    exfalso
    simp only [Routine.key, Prod.mk.injEq] at hkey
    obtain ⟨⟨rfl, rfl⟩, rfl, rfl⟩ := hkey
    rcases ho with ⟨p, hp, -⟩ | ⟨-, h, -, -⟩
    · cases q <;> cases y <;> cases hp
    · cases y <;> cases h
  | rgbRgb q =>
    simp only [Routine.key] at hkey
    cases q with
    | bgrRgb =>
      exfalso
      obtain ⟨⟨rfl, rfl⟩, rfl, rfl⟩ := hkey
      rcases ho with ⟨p, hp, -⟩ | ⟨-, h, -, -⟩
      · cases hp
      · cases h
    | bgraRgb =>
      obtain ⟨⟨rfl, rfl⟩, rfl, rfl⟩ := hkey
      have ns := (Near.of_acc hb (acc_rgb rfl has) ls).sum
      have nd := (Near.of_acc hb (acc_rgb rfl had) ld).sum
      refine fin ?_
      simp only [Spec.bpp] at ho ns nd
      simp only [kcall, Spec.blind]
      cases set with
      | x86 =>
        obtain ⟨p, hp, hf⟩ := ho.resolve_right fun h => nomatch h.1
        obtain rfl := List.mem_singleton.1 hp
        exact X86.diffs_over hc hf trivial
      | sse2 =>
        obtain ⟨p, hp, hf⟩ := ho.resolve_right fun h => nomatch h.1
        obtain rfl := List.mem_singleton.1 hp
        exact X86.diffs_over hc hf trivial
      | avx2 =>
        refine Avx2.bgra_rgb_over hdim hc ns (Nat.lt_of_le_of_lt (Nat.add_le_add_right (Nat.zero_le _) _) nd)
          (ho.imp ?_ fun h => h.2.2.2)
        rintro ⟨p, hp, hf⟩
        obtain rfl := List.mem_singleton.1 hp
        exact X86.Stuck.one.2 hf
      | neon =>
        obtain ⟨p, hp, hf⟩ := ho.resolve_right fun h => nomatch h.1
        obtain rfl := List.mem_singleton.1 hp
        have hw := hn rfl
        have e := (neon_few (mul := t.mul) (t := t) (h := h.toNat) (ss := Spec.strideOf ss 0 (4 * w.toNat))
          (ds := Spec.strideOf ds 0 (3 * w.toNat)) (src := bufAt sb 0) (d := Spec.shut (sliceAt db 0)) hw).2
        refine Eq.mpr (congrArg (fun k => K.Wp True True k fun _ => False) e) (Neon.bgra_rgb_over hdim hc ⟨_, List.mem_singleton.2 rfl, hf, ?_⟩)
        intro h
        simp only at h
        omega
    | rgbBgra =>
      obtain ⟨⟨rfl, rfl⟩, rfl, rfl⟩ := hkey
      have ns := (Near.of_acc hb (acc_rgb rfl has) ls).sum
      have nd := (Near.of_acc hb (acc_rgb rfl had) ld).sum
      refine fin ?_
      obtain ⟨p, hp, hf⟩ := ho.resolve_right fun h => nomatch h.2.1
      simp only [Spec.bpp] at hf ns nd
      simp only [kcall, Spec.blind]
      cases set with
      | x86 =>
        obtain rfl := List.mem_singleton.1 hp
        exact X86.diffs_over hc hf trivial
      | sse2 =>
        refine Sse2.rgb_bgra_over hdim hc ns (Nat.lt_of_le_of_lt (Nat.add_le_add_right (Nat.zero_le _) _) nd) ?_
        by_cases h16 : w.toNat < 16
        · refine ⟨p, hp, hf, fun h => ?_⟩
          simp only [Spec.parts, List.mem_cons, List.not_mem_nil, or_false] at hp
          rcases hp with rfl | rfl <;> simp only at h <;> omega
        · refine ⟨_, List.mem_cons_self, fun h => hf ?_, fun h => absurd h (Nat.lt_irrefl 0)⟩
          simp only [Spec.parts, List.mem_cons, List.not_mem_nil, or_false] at hp
          rcases hp with rfl | rfl <;> simp only at h ⊢ <;> omega
      | avx2 =>
        refine Avx2.rgb_bgra_over hdim hc ns (Nat.lt_of_le_of_lt (Nat.add_le_add_right (Nat.zero_le _) _) nd) ?_
        by_cases h32 : w.toNat < 32
        · refine ⟨p, hp, hf, fun h => ?_⟩
          simp only [Spec.parts, List.mem_cons, List.not_mem_nil, or_false] at hp
          rcases hp with rfl | rfl <;> simp only at h <;> omega
        · refine ⟨_, List.mem_cons_self, fun h => hf ?_, fun h => absurd h (Nat.lt_irrefl 0)⟩
          simp only [Spec.parts, List.mem_cons, List.not_mem_nil, or_false] at hp
          rcases hp with rfl | rfl <;> simp only at h ⊢ <;> omega
      | neon =>
        obtain rfl := List.mem_singleton.1 hp
        have hw := hn rfl
        have e := (neon_few (mul := t.mul) (t := t) (h := h.toNat) (ss := Spec.strideOf ss 0 (3 * w.toNat))
          (ds := Spec.strideOf ds 0 (4 * w.toNat)) (src := bufAt sb 0) (d := Spec.shut (sliceAt db 0)) hw).1
        refine Eq.mpr (congrArg (fun k => K.Wp True True k fun _ => False) e) (Neon.rgb_bgra_over hdim hc ⟨_, List.mem_singleton.2 rfl, hf, ?_⟩)
        intro h
        simp only at h
        omega

end Verif
