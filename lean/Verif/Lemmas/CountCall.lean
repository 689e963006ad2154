import Verif.Lemmas.CountSse2
import Verif.Lemmas.CountAvx2
import Verif.Lemmas.CountNeon
import Verif.Lemmas.Memory
import Mathlib.Data.List.Nodup
import Mathlib.Data.List.Perm.Subperm
import Mathlib.Algebra.BigOperators.Group.List.Basic
/-! # How many bytes a conversion writes -/

namespace Verif

open Spec (dims)

/-- The kernels write no more bytes than the image has; `A`: also the decoder of Nv12 to 24-bit
formats. -/
structure Impl.Bounded (I : Impl) (A : Prop) : Prop where
  nv12_rgb : ∀ t c rev w h ys uvs y uv ds d,
    K.AtMost (I.nv12_rgb t c 4 rev w h ys uvs y uv ds d) (h / 2 * (w / 2 * 16))
  nv12_rgb24 : A → ∀ t c rev w h ys uvs y uv ds d,
    K.AtMost (I.nv12_rgb t c 3 rev w h ys uvs y uv ds d) (h / 2 * (w / 2 * 12))
  i420_rgb : ∀ t c depth rev w h ys us vs y u v ds d,
    K.AtMost (I.i420_rgb t c depth rev w h ys us vs y u v ds d) (h / 2 * (w / 2 * 16))
  i444_rgb : ∀ t c depth rev w h ys us vs y u v ds d,
    K.AtMost (I.i444_rgb t c depth rev w h ys us vs y u v ds d) (h * (w * 4))
  rgb_i444 : ∀ t p depth c w h ss s ys us vs y u v,
    K.AtMost (I.rgb_i444 t p depth c w h ss s ys us vs y u v) (h * (w * 3))
  rgb_i420 : ∀ t p depth c w h ss s ys us vs y u v,
    K.AtMost (I.rgb_i420 t p depth c w h ss s ys us vs y u v) (h / 2 * (w / 2 * 6))
  rgb_nv12 : ∀ t p depth c w h ss s ys uvs y uv,
    K.AtMost (I.rgb_nv12 t p depth c w h ss s ys uvs y uv) (h / 2 * (w / 2 * 6))
  rgb_bgra : ∀ t w h ss s ds d, 0 < w → w < 2 ^ 32 → K.AtMost (I.rgb_bgra t w h ss s ds d) (h * (w * 4))
  bgra_rgb : ∀ t w h ss s ds d, w < 2 ^ 32 → K.AtMost (I.bgra_rgb t w h ss s ds d) (h * (w * 3))
  bgr_rgb : ∀ t w h ss s ds d, w < 2 ^ 32 → K.AtMost (I.bgr_rgb t w h ss s ds d) (h * (w * 3))

theorem X86.bounded : X86.impl.Bounded True where
  nv12_rgb _ _ _ _ _ _ _ _ _ _ _ := X86.nv12_to_bgra_puts ..
  nv12_rgb24 _ _ _ _ _ _ _ _ _ _ _ _ := X86.nv12_to_rgb_puts ..
  i420_rgb _ _ _ _ _ _ _ _ _ _ _ _ _ _ := X86.i420_to_bgra_puts ..
  i444_rgb _ _ _ _ _ _ _ _ _ _ _ _ _ _ := X86.i444_to_bgra_puts ..
  rgb_i444 _ _ _ _ _ _ _ _ _ _ _ _ _ _ := X86.rgb_to_i444_puts ..
  rgb_i420 _ _ _ _ _ _ _ _ _ _ _ _ _ _ := X86.rgb_to_i420_puts ..
  rgb_nv12 _ _ _ _ _ _ _ _ _ _ _ _ := X86.rgb_to_nv12_puts ..
  rgb_bgra _ _ _ _ _ _ _ h _ := X86.rgb_to_bgra_puts _ _ _ _ _ _ h _
  bgra_rgb _ _ _ _ _ _ _ h := X86.bgra_to_rgb_puts _ _ _ _ _ _ (h.trans (by decide)) _
  bgr_rgb _ _ _ _ _ _ _ h := X86.bgr_to_rgb_puts _ _ _ _ _ _ (h.trans (by decide)) _

theorem Sse2.bounded : Sse2.impl.Bounded True where
  nv12_rgb _ _ _ _ _ _ _ _ _ _ _ := Sse2.nv12_rgb_puts _ _ _ _ 4 (.inr rfl) ..
  nv12_rgb24 _ _ _ rev _ _ _ _ _ _ _ _ := Sse2.nv12_rgb_puts _ _ _ _ 3 (.inl rfl) rev ..
  i420_rgb _ _ _ _ _ _ _ _ _ _ _ _ _ _ := Sse2.i420_rgb_puts ..
  i444_rgb _ _ _ _ _ _ _ _ _ _ _ _ _ _ := Sse2.i444_rgb_puts ..
  rgb_i444 _ _ _ _ _ _ _ _ _ _ _ _ _ _ := Sse2.rgb_i444_puts ..
  rgb_i420 _ _ _ _ _ _ _ _ _ _ _ _ _ _ := Sse2.rgb_i420_puts ..
  rgb_nv12 _ _ _ _ _ _ _ _ _ _ _ _ := Sse2.rgb_nv12_puts ..
  rgb_bgra _ _ _ _ _ _ _ _ h := Sse2.rgb_bgra_puts _ _ _ _ _ _ h _
  bgra_rgb := X86.bounded.bgra_rgb
  bgr_rgb := X86.bounded.bgr_rgb

theorem Avx2.bounded : Avx2.impl.Bounded False where
  nv12_rgb _ _ _ _ _ _ _ _ _ _ _ := Avx2.nv12_rgb_puts ..
  nv12_rgb24 := False.elim
  i420_rgb _ _ _ _ _ _ _ _ _ _ _ _ _ _ := Avx2.i420_rgb_puts ..
  i444_rgb _ _ _ _ _ _ _ _ _ _ _ _ _ _ := Avx2.i444_rgb_puts ..
  rgb_i444 _ _ _ _ _ _ _ _ _ _ _ _ _ _ := Avx2.rgb_i444_puts ..
  rgb_i420 _ _ _ _ _ _ _ _ _ _ _ _ _ _ := Avx2.rgb_i420_puts ..
  rgb_nv12 _ _ _ _ _ _ _ _ _ _ _ _ := Avx2.rgb_nv12_puts ..
  rgb_bgra _ _ _ _ _ _ _ _ h := Avx2.rgb_bgra_puts _ _ _ _ _ _ h _
  bgra_rgb _ _ _ _ _ _ _ h := Avx2.bgra_rgb_puts _ _ _ _ _ _ h _
  bgr_rgb _ _ _ _ _ _ _ h := Avx2.bgr_rgb_puts _ _ _ _ _ _ h _

theorem Neon.bounded : Neon.impl.Bounded True where
  nv12_rgb := X86.bounded.nv12_rgb
  nv12_rgb24 := X86.bounded.nv12_rgb24
  i420_rgb := X86.bounded.i420_rgb
  i444_rgb := X86.bounded.i444_rgb
  rgb_i444 _ _ _ _ _ _ _ _ _ _ _ _ _ _ := Neon.rgb_i444_puts ..
  rgb_i420 _ _ _ _ _ _ _ _ _ _ _ _ _ _ := Neon.rgb_i420_puts ..
  rgb_nv12 _ _ _ _ _ _ _ _ _ _ _ _ := Neon.rgb_nv12_puts ..
  rgb_bgra _ _ _ _ _ _ _ _ h := Neon.rgb_bgra_puts _ _ _ _ _ _ _ h _
  bgra_rgb _ _ _ _ _ _ _ h := Neon.bgra_rgb_puts _ _ _ _ _ _ _ h _
  bgr_rgb _ _ _ _ _ _ _ h := Neon.bgr_rgb_puts _ _ _ _ _ _ h _

theorem crate_bounded (set : InstructionSet) : (crate set).Bounded (set ≠ .avx2) := by
  cases set
  · exact { X86.bounded with nv12_rgb24 := fun _ => X86.bounded.nv12_rgb24 trivial }
  · exact { Sse2.bounded with nv12_rgb24 := fun _ => Sse2.bounded.nv12_rgb24 trivial }
  · exact { Avx2.bounded with nv12_rgb24 := fun h => absurd rfl h }
  · exact { Neon.bounded with nv12_rgb24 := fun _ => Neon.bounded.nv12_rgb24 trivial }

/-- The number of bytes of an image. -/
def bytesOf (pf : PixelFormat) (n w h : Nat) : Nat := ((dims pf n w h).map fun rc => rc.1 * rc.2).sum

/-- The kernel call of a routine that is not an Nv12 to 24-bit decoder run by AVX2. -/
theorem kcall_atMost {t : Target} {set : InstructionSet} {r : Routine} {w h : UInt32} {sf df : ImageFormat}
    {ss ds : Option (List Nat)} {sb db : List Buf}
    (hk : r.key = ((sf.pixel_format, sf.color_space), (df.pixel_format, df.color_space)))
    (hr : r ∈ registered) (hl : Spec.Legal sf w h) (hl' : Spec.Legal df w h) (hw : w ≠ 0)
    (hA : ¬ (set = .avx2 ∧ sf.pixel_format = .nv12 ∧ df.pixel_format = .rgb)) :
    K.AtMost (kcall t (crate set) w.toNat h.toNat sf.num_planes.toNat ss sb df.num_planes.toNat ds db r)
      (bytesOf df.pixel_format df.num_planes.toNat w.toNat h.toNat) := by
  have I := crate_bounded set
  have w32 : w.toNat < 2 ^ 32 := w.toNat_lt
  have w0 := u32_pos hw
  rcases sf with ⟨spf, scs, sn⟩
  rcases df with ⟨dpf, dcs, dn⟩
  obtain ⟨-, hsz, -⟩ := hl
  obtain ⟨-, hsz', -⟩ := hl'
  simp only at *
  generalize w.toNat = w at *
  generalize h.toNat = h at *
  have half : ∀ {n : Nat}, n % 2 = 0 → ∃ m, n = 2 * m := fun {n} e => ⟨n / 2, by omega⟩
  have d2 : ∀ n, 2 * n / 2 = n := fun n => by omega
  cases r with
  | rgbYuv s y c =>
    simp only [Routine.key, Prod.mk.injEq] at hk
    obtain ⟨⟨rfl, -⟩, rfl, -⟩ := hk
    cases y with
    | i420 =>
      refine (I.rgb_i420 ..).mono (Nat.le_of_eq ?_)
      obtain ⟨a, rfl⟩ := half hsz'.1
      obtain ⟨b, rfl⟩ := half hsz'.2
      simp only [bytesOf, dims, YuvFmt.pf, List.map_cons, List.map_nil, List.sum_cons, List.sum_nil, d2]
      ring
    | i444 =>
      refine (I.rgb_i444 ..).mono (Nat.le_of_eq ?_)
      simp only [bytesOf, dims, YuvFmt.pf, List.map_cons, List.map_nil, List.sum_cons, List.sum_nil]
      ring
    | nv12 =>
      have e : h / 2 * (w / 2 * 6) = bytesOf .nv12 dn.toNat w h := by
        obtain ⟨a, rfl⟩ := half hsz'.1
        obtain ⟨b, rfl⟩ := half hsz'.2
        simp only [bytesOf, dims, d2]
        split <;> simp only [List.map_cons, List.map_nil, List.sum_cons, List.sum_nil] <;> ring
      simp only [YuvFmt.pf, ← e, kcall]
      exact .ite (fun _ => I.rgb_nv12 ..) fun _ => I.rgb_nv12 ..
  | yuvRgb y c d =>
    simp only [Routine.key, Prod.mk.injEq] at hk
    obtain ⟨⟨rfl, -⟩, rfl, -⟩ := hk
    cases y with
    | i420 =>
      refine (I.i420_rgb ..).mono (Nat.le_of_eq ?_)
      have hd : Spec.bpp d.pf = 4 := by
        cases d
        · rfl
        · rfl
        · revert hr; cases c <;> decide
      have e : bytesOf d.pf dn.toNat w h = Spec.bpp d.pf * w * h := by cases d <;> simp [bytesOf, dims, RgbOut.pf]
      obtain ⟨a, rfl⟩ := half hsz.1
      obtain ⟨b, rfl⟩ := half hsz.2
      rw [e, hd]
      simp only [d2]
      ring
    | i444 =>
      refine (I.i444_rgb ..).mono (Nat.le_of_eq ?_)
      have hd : Spec.bpp d.pf = 4 := by
        cases d
        · rfl
        · rfl
        · revert hr; cases c <;> decide
      have e : bytesOf d.pf dn.toNat w h = Spec.bpp d.pf * w * h := by cases d <;> simp [bytesOf, dims, RgbOut.pf]
      rw [e, hd]
      ring
    | nv12 =>
      have e : bytesOf d.pf dn.toNat w h = h / 2 * (w / 2 * (4 * d.pf.depth)) := by
        rw [depth_bpp]
        have e : bytesOf d.pf dn.toNat w h = Spec.bpp d.pf * w * h := by
          cases d <;> simp [bytesOf, dims, RgbOut.pf]
        rw [e]
        obtain ⟨a, rfl⟩ := half hsz.1
        obtain ⟨b, rfl⟩ := half hsz.2
        simp only [d2]
        ring
      rw [e]
      simp only [kcall]
      cases d with
      | bgra => exact .ite (fun _ => I.nv12_rgb ..) fun _ => I.nv12_rgb ..
      | rgba => exact .ite (fun _ => I.nv12_rgb ..) fun _ => I.nv12_rgb ..
      | rgb =>
        have hs : set ≠ .avx2 := fun h => hA ⟨h, rfl, rfl⟩
        exact .ite (fun _ => I.nv12_rgb24 hs ..) fun _ => I.nv12_rgb24 hs ..
  | rgbRgb q =>
    cases q <;> simp only [Routine.key, Prod.mk.injEq] at hk <;>
    obtain ⟨⟨rfl, -⟩, rfl, -⟩ := hk
    · refine (I.bgr_rgb _ _ _ _ _ _ _ w32).mono (Nat.le_of_eq ?_)
      simp only [bytesOf, dims, Spec.bpp, List.map_cons, List.map_nil, List.sum_cons, List.sum_nil]
      ring
    · refine (I.bgra_rgb _ _ _ _ _ _ _ w32).mono (Nat.le_of_eq ?_)
      simp only [bytesOf, dims, Spec.bpp, List.map_cons, List.map_nil, List.sum_cons, List.sum_nil]
      ring
    · refine (I.rgb_bgra _ _ _ _ _ _ _ w0 w32).mono (Nat.le_of_eq ?_)
      simp only [bytesOf, dims, Spec.bpp, List.map_cons, List.map_nil, List.sum_cons, List.sum_nil]
      ring

/-- The Nv12 to 24-bit decoder of AVX2. -/
theorem kcall_puts24 {t : Target} {r : Routine} {w h : UInt32} {sf df : ImageFormat}
    {ss ds : Option (List Nat)} {sb db : List Buf}
    (hk : r.key = ((sf.pixel_format, sf.color_space), (df.pixel_format, df.color_space)))
    (hsf : sf.pixel_format = .nv12) (hdf : df.pixel_format = .rgb) (hl : Spec.Legal sf w h) :
    K.Puts (kcall t (crate .avx2) w.toNat h.toNat sf.num_planes.toNat ss sb df.num_planes.toNat ds db r)
      (3 * w.toNat * h.toNat + 32 * (w.toNat / 32) * h.toNat) := by
  have w32 : w.toNat < 2 ^ 32 := w.toNat_lt
  rcases sf with ⟨spf, scs, sn⟩
  rcases df with ⟨dpf, dcs, dn⟩
  obtain ⟨-, hsz, -⟩ := hl
  simp only at *
  subst hsf
  subst hdf
  generalize w.toNat = w at *
  generalize h.toNat = h at *
  cases r with
  | rgbYuv s y c => cases s <;> cases y <;> cases hk
  | rgbRgb q => cases q <;> cases hk
  | yuvRgb y c d =>
    cases y <;> cases d <;> simp only [Routine.key, YuvFmt.pf, RgbOut.pf, Prod.mk.injEq, reduceCtorEq, false_and, and_false] at hk
    have e : h / 2 * (w / 32 * 256) + h / 2 * (w % 32 / 2 * 12) = 3 * w * h + 32 * (w / 32) * h := by
      obtain ⟨hw, hh⟩ : w % 2 = 0 ∧ h % 2 = 0 := hsz
      obtain ⟨b, rfl⟩ : ∃ b, h = 2 * b := ⟨h / 2, by omega⟩
      obtain ⟨p, q, rfl, h1, h2⟩ : ∃ p q, w = 32 * p + 2 * q ∧ w / 32 = p ∧ w % 32 / 2 = q :=
        ⟨w / 32, w % 32 / 2, by omega, rfl, rfl⟩
      rw [h1, h2, Nat.mul_div_cancel_left _ (by omega)]
      ring
    simp only [kcall, ← e]
    split
    · exact Avx2.nv12_rgb24_puts _ _ _ _ _ _ _ _ _ _ w32 _
    · exact Avx2.nv12_rgb24_puts _ _ _ _ _ _ _ _ _ _ w32 _

/-! ## The writes of a call -/

section
variable {t : Target} {cpu : Cpu} {c : Call}

/-- The writes of a valid call are those of a kernel. -/
theorem writes_kcall (hv : Spec.Valid t c) : ∃ r : Routine,
    r.key = ((c.src_format.pixel_format, c.src_format.color_space),
      (c.dst_format.pixel_format, c.dst_format.color_space)) ∧ r ∈ registered ∧
    ∀ n, (K.AtMost (kcall t (crate cpu.set) c.width.toNat c.height.toNat c.src_format.num_planes.toNat
        c.src_strides c.src_buffers c.dst_format.num_planes.toNat c.dst_strides c.dst_buffers r) n →
        (writesOf t crate cpu c).length ≤ n) ∧
      (Spec.VectorRoom cpu.set c →
        K.Puts (kcall t (crate cpu.set) c.width.toNat c.height.toNat c.src_format.num_planes.toNat
        c.src_strides c.src_buffers c.dst_format.num_planes.toNat c.dst_strides c.dst_buffers r) n →
        (writesOf t crate cpu c).length = n) := by
  obtain ⟨ctx, h1, -, -, hT, -⟩ := context_new cpu
  have h0 := u32_pos hv.height_ne
  obtain ⟨r, hk, hr, e1⟩ := convert_checked (t := t) (impls := crate) hT hv.src_legal hv.dst_legal
    hv.supported hv.width_ne hv.height_ne (present_of_fits hv.src_fits) (present_of_fits hv.dst_fits)
    (small_of_fits hv.bits_pos hv.src_legal h0 hv.src_fits hv.src_real)
    (small_of_fits hv.bits_pos hv.dst_legal h0 hv.dst_fits hv.dst_real)
  rw [if_pos ⟨acc_image_of_fits hv.src_legal h0 hv.src_fits _,
    acc_image_of_fits hv.dst_legal h0 hv.dst_fits _⟩] at e1
  refine ⟨r, hk, hr, fun n => ?_⟩
  have hst : select_table ctx none = ctx.converters := rfl
  have split : ∀ x, (convert_image_with t crate ctx.converters c.width c.height c.src_format
      c.src_strides c.src_buffers c.dst_format c.dst_strides (dstSlices c.dst_buffers)).run = .ok x →
      ∃ u, (kcall t (crate cpu.set) c.width.toNat c.height.toNat c.src_format.num_planes.toNat
        c.src_strides c.src_buffers c.dst_format.num_planes.toNat c.dst_strides c.dst_buffers r).run =
        .ok (u, x.2) := by
    intro x e
    rw [e1] at e
    obtain ⟨r', ws⟩ := x
    obtain ⟨y, us, vs, f1, f2, f3⟩ := K.run_bind e
    cases f2
    rw [List.append_nil] at f3
    exact ⟨y, f3 ▸ f1⟩
  constructor
  · intro h
    unfold writesOf
    rw [h1]
    simp only [hst]
    rcases e : (convert_image_with t crate ctx.converters c.width c.height c.src_format
      c.src_strides c.src_buffers c.dst_format c.dst_strides (dstSlices c.dst_buffers)).run with _ | x
    · exact Nat.zero_le _
    · obtain ⟨u, hu⟩ := split x e
      exact h.out _ _ hu
  · intro hm h
    obtain ⟨out, ho⟩ := valid_stores (cpu := cpu) hv hm
    unfold writesOf
    rw [h1]
    simp only [hst]
    rcases e : (convert_image_with t crate ctx.converters c.width c.height c.src_format
      c.src_strides c.src_buffers c.dst_format c.dst_strides (dstSlices c.dst_buffers)).run with _ | x
    · exfalso
      have ho : convert t crate cpu c = _ := ho
      have ec : convert t crate cpu c = convert_image t crate ctx.converters c.width c.height c.src_format
          c.src_strides c.src_buffers c.dst_format c.dst_strides c.dst_buffers := by
        rw [convert, convertHook, h1]; rfl
      rw [ec, convert_image, e] at ho
      cases ho
    · obtain ⟨u, hu⟩ := split x e
      exact h.out _ _ hu

/-- The places of the bytes of an image. -/
def placesFrom (st : Option (List Nat)) : Nat → List (Nat × Nat) → List (Nat × Nat)
  | _, [] => []
  | i, (row, rows) :: l =>
    ((List.range rows).flatMap fun y => (List.range row).map fun j => (i, Spec.strideOf st i row * y + j)) ++
      placesFrom st (i + 1) l

theorem mem_placesFrom {st : Option (List Nat)} {l : List (Nat × Nat)} : ∀ {i : Nat} {p : Nat × Nat},
    p ∈ placesFrom st i l ↔ ∃ m row rows, l[m]? = some (row, rows) ∧ p.1 = i + m ∧
      ∃ y, y < rows ∧ ∃ j, j < row ∧ p.2 = Spec.strideOf st (i + m) row * y + j := by
  induction l with
  | nil => intro i p; simp [placesFrom]
  | cons a l ih =>
    intro i p
    obtain ⟨row, rows⟩ := a
    simp only [placesFrom, List.mem_append, List.mem_flatMap, List.mem_map, List.mem_range, ih]
    constructor
    · rintro (⟨y, hy, j, hj, rfl⟩ | ⟨m, r, q, h1, h2, h3⟩)
      · exact ⟨0, row, rows, rfl, rfl, y, hy, j, hj, rfl⟩
      · rw [show i + 1 + m = i + (m + 1) by omega] at h2 h3
        exact ⟨m + 1, r, q, h1, h2, h3⟩
    · rintro ⟨m, r, q, h1, h2, y, hy, j, hj, h3⟩
      cases m with
      | zero => cases h1; exact .inl ⟨y, hy, j, hj, Prod.ext h2.symm h3.symm⟩
      | succ m =>
        rw [show i + (m + 1) = i + 1 + m by omega] at h2 h3
        exact .inr ⟨m, r, q, h1, h2, y, hy, j, hj, h3⟩

theorem length_placesFrom {st : Option (List Nat)} {l : List (Nat × Nat)} : ∀ {i : Nat},
    (placesFrom st i l).length = (l.map fun rc => rc.1 * rc.2).sum := by
  induction l with
  | nil => intro i; rfl
  | cons a l ih =>
    intro i
    simp only [placesFrom, List.length_append, ih, List.map_cons, List.sum_cons, List.length_flatMap,
      List.length_map, List.length_range, List.map_const']
    simp [Nat.mul_comm]

theorem nodup_placesFrom {st : Option (List Nat)} {l : List (Nat × Nat)} : ∀ {i : Nat},
    (∀ m row rows, l[m]? = some (row, rows) → row ≤ Spec.strideOf st (i + m) row) →
    (placesFrom st i l).Nodup := by
  induction l with
  | nil => intro i _; exact List.nodup_nil
  | cons a l ih =>
    intro i h
    obtain ⟨row, rows⟩ := a
    have h0 := h 0 row rows rfl
    rw [placesFrom, List.nodup_append]
    refine ⟨?_, ih fun m r q hm => ?_, ?_⟩
    · rw [List.nodup_flatMap]
      refine ⟨fun y _ => List.nodup_range.map fun a b e => ?_, List.nodup_range.imp fun {y y'} hne => ?_⟩
      · simp only [Prod.mk.injEq, true_and] at e
        omega
      · intro p hp hp'
        simp only [List.mem_map, List.mem_range] at hp hp'
        obtain ⟨j, hj, rfl⟩ := hp
        obtain ⟨j', hj', e⟩ := hp'
        simp only [Prod.mk.injEq, true_and] at e
        have h0 : row ≤ Spec.strideOf st i row := h0
        apply hne
        have q1 : (Spec.strideOf st i row * y + j) / Spec.strideOf st i row = y := by
          rw [Nat.mul_add_div (by omega), Nat.div_eq_of_lt (by omega), Nat.add_zero]
        have q2 : (Spec.strideOf st i row * y' + j') / Spec.strideOf st i row = y' := by
          rw [Nat.mul_add_div (by omega), Nat.div_eq_of_lt (by omega), Nat.add_zero]
        rw [← q1, ← q2, e]
    · rw [show i + 1 + m = i + (m + 1) by omega]
      exact h (m + 1) r q hm
    · intro p hp q hq e
      subst e
      simp only [List.mem_flatMap, List.mem_map, List.mem_range] at hp
      obtain ⟨y, -, j, -, rfl⟩ := hp
      obtain ⟨m, r, q, -, e, -⟩ := mem_placesFrom.1 hq
      simp only at e
      omega

/-- The places of the bytes of the destination image of a call. -/
def placesOf (c : Call) : List (Nat × Nat) :=
  placesFrom c.dst_strides 0 (dims c.dst_format.pixel_format c.dst_format.num_planes.toNat c.width.toNat
    c.height.toNat)

theorem mem_placesOf {p : Nat × Nat} : p ∈ placesOf c ↔ c.InImage p.1 p.2 := by
  rw [placesOf, mem_placesFrom]
  constructor
  · rintro ⟨m, row, rows, h1, h2, h3⟩
    rw [Nat.zero_add] at h2 h3
    subst h2
    exact ⟨row, rows, h1, h3⟩
  · rintro ⟨row, rows, h1, h3⟩
    exact ⟨p.1, row, rows, h1, (Nat.zero_add _).symm, by rw [Nat.zero_add]; exact h3⟩

theorem nodup_placesOf (hv : Spec.Valid t c) : (placesOf c).Nodup := by
  refine nodup_placesFrom fun m row rows h => ?_
  rw [Nat.zero_add]
  have hi : m < c.dst_buffers.length := plane_lt hv h
  exact (hv.dst_fits.plane m _ _ (List.getElem?_eq_getElem hi) h).row_le

/-- No byte of the image is missed. -/
theorem placesOf_subset (hv : Spec.Valid t c) (hm : Spec.VectorRoom cpu.set c) :
    placesOf c ⊆ (writesOf t crate cpu c).map fun w => (w.plane, w.idx) := by
  intro p hp
  obtain ⟨w, hw, h1, h2⟩ := written hv hm (mem_placesOf.1 hp)
  exact List.mem_map.2 ⟨w, hw, Prod.ext h1 h2⟩

/-- All writes go to the image. -/
theorem subset_placesOf (hv : Spec.Valid t c) (hm : Spec.VectorRoom cpu.set c) :
    ((writesOf t crate cpu c).map fun w => (w.plane, w.idx)) ⊆ placesOf c := by
  intro p hp
  obtain ⟨w, hw, rfl⟩ := List.mem_map.1 hp
  exact mem_placesOf.2 (writes_in hv hm hw)

/-- Nothing is written twice if and only if there are as many writes as bytes of the image. -/
theorem once_iff_length (hv : Spec.Valid t c) (hm : Spec.VectorRoom cpu.set c) :
    ((writesOf t crate cpu c).map fun w => (w.plane, w.idx)).Nodup ↔
      (writesOf t crate cpu c).length ≤ (placesOf c).length := by
  constructor
  · intro h
    have := (h.subperm (subset_placesOf hv hm)).length_le
    rwa [List.length_map] at this
  · intro h
    have p := ((nodup_placesOf hv).subperm (placesOf_subset hv hm)).perm_of_length_le
      (by rwa [List.length_map])
    exact p.nodup (nodup_placesOf hv)

end

end Verif
