import Verif.Lemmas.Align
import Verif.Props.Pixels
/-!
# C110: alignment of the buffers
-/

namespace Verif

open Spec (strideOf dims)

variable {t : Target} {cpu : Cpu} {c : Call} {e : Fault} {a : Nat → Nat}

/-- **C110.** What a valid call does if the demand of `vst1_lane_u32` for aligned addresses is taken
into account: the same as without, except that on a processor with NEON an I420 image of at least eight
pixels per line needs chroma lines that begin at multiples of 4.  (Missing for the full claim, that
alignment never matters: the exception, see `C110_counterexample`.) -/
theorem C110_exact_partial (hv : Spec.Valid t c) (hm : Spec.VectorRoom cpu.set c) :
    (Spec.WordStores cpu.set c → ¬ Spec.ChromaAligned a c →
      convert t (Align.impls e a) cpu c = .error e) ∧
    ((Spec.WordStores cpu.set c → Spec.ChromaAligned a c) →
      convert t (Align.impls e a) cpu c = convert t crate cpu c) := by
  obtain ⟨out, ho⟩ := valid_stores (cpu := cpu) hv hm
  obtain ⟨ctx, h1, -, -, hT, -⟩ := context_new cpu
  have ec : ∀ impls, convert t impls cpu c = convert_image t impls ctx.converters c.width c.height
      c.src_format c.src_strides c.src_buffers c.dst_format c.dst_strides c.dst_buffers := fun impls => by
    rw [convert, convertHook, h1]
    rfl
  have h0 := u32_pos hv.height_ne
  have ex := fun impls => convert_checked (t := t) (impls := impls) hT hv.src_legal hv.dst_legal
    hv.supported hv.width_ne hv.height_ne (present_of_fits hv.src_fits) (present_of_fits hv.dst_fits)
    (small_of_fits hv.bits_pos hv.src_legal h0 hv.src_fits hv.src_real)
    (small_of_fits hv.bits_pos hv.dst_legal h0 hv.dst_fits hv.dst_real)
  obtain ⟨r, hk, -, e1⟩ := ex crate
  obtain ⟨r', hk', -, e2⟩ := ex (Align.impls e a)
  cases key_inj _ _ (hk'.trans hk.symm)
  have hacc := And.intro (acc_image_of_fits hv.src_legal h0 hv.src_fits
      (pxPair c.src_format.pixel_format c.dst_format.pixel_format))
    (acc_image_of_fits hv.dst_legal h0 hv.dst_fits
      (pxPair c.src_format.pixel_format c.dst_format.pixel_format))
  rw [if_pos hacc] at e1 e2
  have key : K.Twin (Spec.WordStores cpu.set c → Spec.ChromaAligned a c) e
      (kcall t (crate cpu.set) c.width.toNat c.height.toNat c.src_format.num_planes.toNat c.src_strides
        c.src_buffers c.dst_format.num_planes.toNat c.dst_strides c.dst_buffers r)
      (kcall t (Align.impls e a cpu.set) c.width.toNat c.height.toNat c.src_format.num_planes.toNat
        c.src_strides c.src_buffers c.dst_format.num_planes.toNat c.dst_strides c.dst_buffers r) := by
    by_cases hn : cpu.set = .neon ∧ c.dst_format.pixel_format = .i420
    · obtain ⟨hset, hd⟩ := hn
      have hp3 : c.dst_format.num_planes.toNat = 3 := by
        have := hv.dst_legal.planes
        rw [hd] at this
        exact this
      have f := fun i hi hdim => plane0 hv.dst_fits i
        (rc := (c.width.toNat / 2, c.height.toNat / 2)) hi hdim
      have f1 := f 1 (by omega) (by rw [hd]; rfl)
      have f2 := f 2 (by omega) (by rw [hd]; rfl)
      have b1 := buf_real hv.dst_real 1
      have b2 := buf_real hv.dst_real 2
      have himax := imax_lt t hv.bits_pos
      have bound : ∀ {len s : Nat}, Spec.PlaneFits len s (c.width.toNat / 2) (c.height.toNat / 2) →
          len ≤ t.imax → ∀ y, y < c.height.toNat / 2 → ∀ x, x < c.width.toNat / 8 →
          s * y + x * 4 ≤ t.imax := by
        intro len s hf hl y hy x hx
        have := hf.extent
        have : s * y ≤ s * (c.height.toNat / 2 - 1) := Nat.mul_le_mul_left _ (by omega)
        omega
      have hr : ∃ s q, r = .rgbYuv s .i420 q := by
        rw [hd] at hk
        rcases r with ⟨s, _ | _ | _, q⟩ | ⟨_ | _ | _, q, _ | _ | _⟩ | _ | _ | _ <;>
          first
            | exact ⟨_, _, rfl⟩
            | simp [Routine.key, YuvFmt.pf, RgbOut.pf] at hk
      obtain ⟨s, q, rfl⟩ := hr
      rw [hset]
      refine (Align.rgb_i420_twin s s.pf.depth q (n := t.imax) c.width.toNat_lt (by omega)
        (bound f1 b1) (bound f2 b2)).congr ?_
      simp only [sliceAt, Nat.add_zero]
      constructor
      · rintro H ⟨-, -, h8⟩ i (rfl | rfl) y hy
        · exact (H h8 y hy).1
        · exact (H h8 y hy).2
      · intro H h8 y hy
        have := H ⟨rfl, hd, h8⟩
        exact ⟨this 1 (.inl rfl) y hy, this 2 (.inr rfl) y hy⟩
    · have same : kcall t (Align.impls e a cpu.set) c.width.toNat c.height.toNat
          c.src_format.num_planes.toNat c.src_strides c.src_buffers c.dst_format.num_planes.toNat
          c.dst_strides c.dst_buffers r = kcall t (crate cpu.set) c.width.toNat c.height.toNat
          c.src_format.num_planes.toNat c.src_strides c.src_buffers c.dst_format.num_planes.toNat
          c.dst_strides c.dst_buffers r := by
        cases hset : cpu.set with
        | x86 => rfl
        | sse2 => rfl
        | avx2 => rfl
        | neon =>
          have hd : c.dst_format.pixel_format ≠ .i420 := fun h => hn ⟨hset, h⟩
          exact Align.kcall_same fun s q hr => by
            rw [hr] at hk
            simp only [Routine.key, YuvFmt.pf, Prod.mk.injEq] at hk
            exact hd hk.2.1.symm
      rw [same]
      exact K.Twin.refl.congr ⟨fun _ h => absurd ⟨h.1, h.2.1⟩ hn, fun _ => trivial⟩
  have hrun : ∃ x, (kcall t (crate cpu.set) c.width.toNat c.height.toNat
      c.src_format.num_planes.toNat c.src_strides c.src_buffers c.dst_format.num_planes.toNat
      c.dst_strides c.dst_buffers r).run = .ok x := by
    unfold Stores at ho
    rw [ec, convert_image, e1, K.bind_def, K.bind] at ho
    revert ho
    cases hx : (kcall t (crate cpu.set) c.width.toNat c.height.toNat
      c.src_format.num_planes.toNat c.src_strides c.src_buffers c.dst_format.num_planes.toNat
      c.dst_strides c.dst_buffers r).run with
    | error f => intro ho; cases ho
    | ok x => intro _; exact ⟨x, rfl⟩
  obtain ⟨x, hx⟩ := hrun
  constructor
  · intro hw hna
    rw [ec, convert_image, e2, key.2 (fun H => hna (H hw)) x hx, K.throw_bind]
  · intro H
    rw [ec, ec, convert_image, convert_image, e1, e2, key.1 H]

/-- **C110.** Sufficient for every image: chroma buffers at multiples of 4, and strides that are
multiples of 4. -/
theorem C110_sufficient_partial (hv : Spec.Valid t c) (hm : Spec.VectorRoom cpu.set c)
    (ha : a 1 % 4 = 0 ∧ a 2 % 4 = 0)
    (hs : strideOf c.dst_strides 1 (c.width.toNat / 2) % 4 = 0 ∧
      strideOf c.dst_strides 2 (c.width.toNat / 2) % 4 = 0) :
    convert t (Align.impls e a) cpu c = convert t crate cpu c := by
  refine (C110_exact_partial hv hm).2 fun _ i hi y _ => ?_
  have : ∀ m n k : Nat, m % 4 = 0 → n % 4 = 0 → (m + n * k) % 4 = 0 := fun m n k h1 h2 => by
    rw [Nat.add_mod, Nat.mul_mod, h1, h2]; simp
  rcases hi with rfl | rfl
  · exact this _ _ _ ha.1 hs.1
  · exact this _ _ _ ha.2 hs.2

/-- **C110.** Without NEON, for other formats and for images of fewer than eight pixels per line the
addresses do not matter. -/
theorem C110_elsewhere_partial (hv : Spec.Valid t c) (hm : Spec.VectorRoom cpu.set c)
    (h : cpu.set ≠ .neon ∨ c.dst_format.pixel_format ≠ .i420 ∨ c.width.toNat < 8) :
    convert t (Align.impls e a) cpu c = convert t crate cpu c := by
  refine (C110_exact_partial hv hm).2 fun hw => ?_
  obtain ⟨h1, h2, h3⟩ := hw
  rcases h with h | h | h
  · exact absurd h1 h
  · exact absurd h2 h
  · omega

/-- **C110.** Packed images in aligned buffers: with NEON an I420 image of more than two lines must have
fewer than eight pixels per line or a multiple of eight. -/
theorem C110_packed_partial (hv : Spec.Valid t c) (hm : Spec.VectorRoom cpu.set c)
    (ha : a 1 % 4 = 0 ∧ a 2 % 4 = 0) (hs : c.dst_strides = none) (hset : cpu.set = .neon)
    (hd : c.dst_format.pixel_format = .i420) (hh : 2 < c.height.toNat) :
    ((∃ out, convert t (Align.impls .sliceIndex a) cpu c = .ok (.ok (), out)) ↔
      c.width.toNat < 8 ∨ c.width.toNat % 8 = 0) := by
  obtain ⟨out, ho⟩ := valid_stores (cpu := cpu) hv hm
  obtain ⟨h1, h2⟩ := C110_exact_partial (e := .sliceIndex) (a := a) hv hm
  have hsz : c.width.toNat % 2 = 0 ∧ c.height.toNat % 2 = 0 := by
    have := hv.dst_legal.size
    rw [hd] at this
    exact this
  have hst : ∀ i, strideOf c.dst_strides i (c.width.toNat / 2) = c.width.toNat / 2 := by
    intro i; rw [hs]; rfl
  constructor
  · rintro ⟨out', h⟩
    by_contra hn
    have hw : Spec.WordStores cpu.set c := ⟨hset, hd, by omega⟩
    rw [h1 hw fun H => ?_] at h
    · cases h
    · have := H 1 (.inl rfl) 1 (by omega)
      rw [hst] at this
      omega
  · intro h
    refine ⟨out, (h2 fun hw i hi y _ => ?_).trans ho⟩
    have h8 := hw.2.2
    rw [hst]
    obtain ⟨k, hk⟩ : ∃ k, c.width.toNat / 2 = 4 * k := ⟨c.width.toNat / 8, by omega⟩
    rw [hk, Nat.mul_assoc]
    rcases hi with rfl | rfl <;> omega

/-- A packed 10x4 I420 image: chroma lines of five bytes. -/
def exPacked : Call where
  width := 10
  height := 4
  src_format := ⟨.bgra, .rgb, 1⟩
  src_strides := none
  src_buffers := [noise 160 1]
  dst_format := ⟨.i420, .bt601, 3⟩
  dst_strides := none
  dst_buffers := [noise 40 2, noise 10 3, noise 10 4]

theorem exPacked_valid : Spec.Valid .x64 exPacked := valid_of_check (by decide +kernel)

/-- **C110 is false in general**: a packed image in buffers at addresses that are multiples of 64. -/
theorem C110_counterexample (cpu : Cpu) (hn : cpu.set = .neon) (e : Fault) :
    convert .x64 (Align.impls e fun i => 64 * i) cpu exPacked = .error e ∧
    ∃ out, convert .x64 crate cpu exPacked = .ok (.ok (), out) := by
  refine ⟨(C110_exact_partial exPacked_valid (.of_ne (by decide))).1 ⟨hn, rfl, by decide⟩
    fun h => ?_, valid_stores exPacked_valid (.of_ne (by decide))⟩
  exact absurd (h 1 (.inl rfl) 1 (by decide)) (by decide)

example (cpu : Cpu) (e : Fault) :
    convert .x64 (Align.impls e fun i => 64 * i) cpu { exPacked with
      dst_strides := some [10, 8, 8], dst_buffers := [noise 40 2, noise 16 3, noise 16 4] } =
    convert .x64 crate cpu { exPacked with
      dst_strides := some [10, 8, 8], dst_buffers := [noise 40 2, noise 16 3, noise 16 4] } :=
  C110_sufficient_partial (valid_of_check (by decide +kernel)) (.of_ne (by decide))
    (by decide) (by decide)

end Verif
