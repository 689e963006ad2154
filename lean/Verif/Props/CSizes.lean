import Verif.Props.CApi
import Verif.Props.Verdict
import Verif.Spec.CCall
/-!
# C85: the C interface cannot see the size of a buffer
-/

namespace Verif

open CApi
open Spec (verdict verdictOf cVerdictOf)

/-- The C function answers as `convert_image` does for slices of `isize::MAX` bytes. -/
theorem dcp_convert_unsized {t : Target} {cpu : Cpu} (world : World) {c : Call} (e0 : ErrorKind)
    (hb : 4 ≤ t.bits) (hc : Spec.CArrays c) :
    cVerdictOf (dcp_convert_image t crate cpu world (cCall c (some e0))) =
      verdictOf (convert t crate cpu (Spec.unsized t c)) := by
  obtain ⟨tb, hT, e⟩ := convert_table t crate cpu
  by_cases hp : Spec.PlanesOk c.src_format.pixel_format c.src_format.num_planes.toNat ∧
      Spec.PlanesOk c.dst_format.pixel_format c.dst_format.num_planes.toNat
  swap
  · have hl : ¬ Spec.Legal c.src_format c.width c.height ∨
        ¬ Spec.Legal c.dst_format c.width c.height := by
      by_cases h : Spec.PlanesOk c.src_format.pixel_format c.src_format.num_planes.toNat
      · exact .inr fun h' => hp ⟨h, h'.planes⟩
      · exact .inl fun h' => h h'.planes
    have ok : ∀ f : ImageFormat, Spec.CPlanesOk (ofFormat f) ↔
        Spec.PlanesOk f.pixel_format f.num_planes.toNat := by
      intro f
      constructor
      · rintro ⟨pf, h, h'⟩
        have h1 := (pixelFormat_valid 0).2 pf
        rw [← h] at h1
        have h2 : pixelFormat? (ofFormat f).pixel_format = some f.pixel_format :=
          (pixelFormat_valid 0).2 f.pixel_format
        rw [h2] at h1
        cases h1
        exact h'
      · intro h; exact ⟨f.pixel_format, rfl, h⟩
    rw [C57_convert_invalid, e]
    rw [Spec.unsized, convert_of_pure (convert_invalid hl)]
    · rfl
    · rintro g l ⟨⟩ hg ⟨⟩
      rw [List.length_map]; exact hc.src_buffers ((ok _).1 hg)
    · rintro g l ⟨⟩ hg ⟨⟩
      rw [List.length_map]; exact hc.dst_buffers ((ok _).1 hg)
    · rintro ⟨⟨f, hf, hf'⟩, ⟨g, hg, hg'⟩, -⟩
      cases hf; cases hg
      exact hp ⟨(ok _).1 hf'.1, (ok _).1 hg'.1⟩
  obtain ⟨p1, p2⟩ := hp
  have b1 := hc.src_buffers p1
  have b2 := hc.dst_buffers p2
  have n1 := planes_min p1
  have n2 := planes_min p2
  have m1 : c.src_format.num_planes.toNat ≤ 4 := by rw [← n1]; exact Nat.min_le_right ..
  have m2 : c.dst_format.num_planes.toNat ≤ 4 := by rw [← n2]; exact Nat.min_le_right ..
  have im : 4 ≤ t.imax := by
    have : 2 ^ 3 ≤ 2 ^ (t.bits - 1) := Nat.pow_le_pow_right (by omega) (by omega)
    unfold Target.imax; omega
  have hag := convert_image_with_agree (t := t) (impls := crate) hT (w := c.width) (h := c.height)
    (sf := c.src_format) (df := c.dst_format)
    (unbounded_agree (t := t) (behind := world.src_strides) (by omega) m1 (hc.src_strides p1))
    (by
      have := append_agree (l := c.src_buffers.map (inflate t)) (n := c.src_format.num_planes.toNat)
        (more := world.src_planes.take (4 - c.src_format.num_planes.toNat)) (by simpa using b1)
      rwa [← List.map_take] at this)
    (unbounded_agree (t := t) (behind := world.dst_strides) (by omega) m2 (hc.dst_strides p2))
    (slices_agree (t := t) (more := world.dst_planes.take (4 - c.dst_format.num_planes.toNat)) b2)
  have e1 := (pixelFormat_valid c.src_format.pixel_format.toU32).1.2 ⟨_, rfl⟩
  have e2 := (pixelFormat_valid c.dst_format.pixel_format.toU32).1.2 ⟨_, rfl⟩
  have e3 := (colorSpace_valid c.src_format.color_space.toU32).1.2 ⟨_, rfl⟩
  have e4 := (colorSpace_valid c.dst_format.color_space.toU32).1.2 ⟨_, rfl⟩
  have k1 := planes_compatible c.src_format.pixel_format c.src_format.num_planes
  have k2 := planes_compatible c.dst_format.pixel_format c.dst_format.num_planes
  rw [decide_eq_true p1] at k1
  rw [decide_eq_true p2] at k2
  have q1 := planePtrs_some b1
  have q2 := planePtrs_some b2
  have f1 : (ofFormat c.src_format).rust = c.src_format := rust_ofFormat _
  have f2 : (ofFormat c.dst_format).rust = c.dst_format := rust_ofFormat _
  unfold ofFormat at f1 f2
  unfold dcp_convert_image cCall ofFormat
  simp only [Option.isNone_some, Bool.or_false, Bool.false_eq_true, if_false, deref, ok_bind, e1, e2,
    e3, e4, k1, k2, Bool.not_true, n1, n2, q1, q2, f1, f2,
    List.length_take, Nat.min_eq_left b1, Nat.min_eq_left b2]
  rw [e, e, convert_image, convert_image]
  simp only [show PixFmt.MAX_NUMBER_OF_PLANES = 4 from rfl, Spec.unsized]
  rw [hag]
  rw [show (fun b : Buf => (⟨t.imax, b.bytes⟩ : Buf)) = inflate t from rfl]
  generalize (convert_image_with t crate tb c.width c.height c.src_format
    c.src_strides (c.src_buffers.map (inflate t)) c.dst_format c.dst_strides
    (dstSlices (c.dst_buffers.map (inflate t)))).run = x
  rcases x with f | ⟨r | ⟨⟩, ws⟩
  · cases f <;> rfl
  · rfl
  · rfl

theorem unsized_real (t : Target) (l : List Buf) :
    ∀ b, b ∈ l.map (fun b : Buf => (⟨t.imax, b.bytes⟩ : Buf)) → b.len ≤ t.imax := by
  intro b hb
  obtain ⟨_, -, rfl⟩ := List.mem_map.1 hb
  exact Nat.le_refl _

/-- **C85.** `dcp_convert_image` ends as `convert_image` would with the longest slices there can be
(`isize::MAX` bytes), whatever the size of the memory the plane pointers point at: it answers
`NotEnoughData` only if the image could not be held by any memory. -/
theorem C85_verdict {t : Target} {cpu : Cpu} (world : World) {c : Call} (e0 : ErrorKind)
    (h32 : 32 ≤ t.bits) (hc : Spec.CArrays c) :
    cVerdictOf (dcp_convert_image t crate cpu world (cCall c (some e0))) =
      verdict t cpu.set (Spec.unsized t c) := by
  rw [dcp_convert_unsized world e0 (by omega) hc]
  exact C76_verdict t cpu _ h32 (unsized_real t _) (unsized_real t _)

/-- **C85.** Size and contents of the memory behind the plane pointers do not influence the answer. -/
theorem C85_sizes_ignored {t : Target} {cpu : Cpu} (world world' : World) {c c' : Call}
    (e0 e0' : ErrorKind) (h32 : 32 ≤ t.bits) (hc : Spec.CArrays c)
    (h : Spec.SamePointers c c') :
    cVerdictOf (dcp_convert_image t crate cpu world' (cCall c' (some e0'))) =
      cVerdictOf (dcp_convert_image t crate cpu world (cCall c (some e0))) := by
  have hc' : Spec.CArrays c' := by
    refine ⟨?_, ?_, ?_, ?_⟩
    · rw [h.src_format, h.src_strides]; exact hc.src_strides
    · rw [h.src_format, h.src_count]; exact hc.src_buffers
    · rw [h.dst_format, h.dst_strides]; exact hc.dst_strides
    · rw [h.dst_format, h.dst_count]; exact hc.dst_buffers
  rw [C85_verdict world e0 h32 hc, C85_verdict world' e0' h32 hc']
  have lens : ∀ {a b : List Buf}, b.length = a.length →
      (b.map fun b : Buf => (⟨t.imax, b.bytes⟩ : Buf)).map Buf.len =
        (a.map fun b : Buf => (⟨t.imax, b.bytes⟩ : Buf)).map Buf.len := by
    intro a b hab
    simp only [List.map_map, Function.comp_def, List.map_const', hab]
  exact verdict_shape _ ⟨h.width, h.height, h.src_format, h.dst_format, h.src_strides, h.dst_strides,
    lens h.src_count, lens h.dst_count⟩

theorem packed_fits {f : ImageFormat} {w h : UInt32} {s : Option (List Nat)} {bufs : List Buf}
    {n : Nat} (hp : Spec.Packed s) (hs : ∀ l, s = some l → f.num_planes.toNat ≤ l.length)
    (hb : f.num_planes.toNat ≤ bufs.length) (hh : h ≠ 0)
    (hn : 4 * (w.toNat * h.toNat) ≤ n) (hl : ∀ b, b ∈ bufs → b.len = n) :
    Spec.Fits f w h s bufs := by
  have h1 := u32_pos hh
  refine ⟨hs, hb, ?_, ?_⟩
  · intro i b rc hb hrc
    rw [hl b (List.mem_of_getElem? hb), packed_stride hp]
    have key : ∀ a r : Nat, a ≤ 4 * w.toNat → r ≤ h.toNat ∨ (a ≤ w.toNat ∧ r ≤ 2 * h.toNat) →
        a * (r - 1) + a ≤ n ∧ a ≤ n := by
      intro a r ha hr
      have q : a ≤ 4 * (w.toNat * h.toNat) := by
        have : w.toNat * 1 ≤ w.toNat * h.toNat := Nat.mul_le_mul_left _ h1
        omega
      rcases Nat.eq_zero_or_pos r with rfl | r0
      · simp only [Nat.zero_sub, Nat.mul_zero]; omega
      have e : a * (r - 1) + a = a * r := by
        obtain ⟨m, rfl⟩ : ∃ m, r = m + 1 := ⟨r - 1, by omega⟩
        rw [Nat.mul_add, Nat.mul_one]; rfl
      rw [e]
      refine ⟨?_, by omega⟩
      rcases hr with hr | ⟨h1, hr⟩
      · have := Nat.mul_le_mul ha hr
        rw [Nat.mul_assoc] at this; omega
      · have := Nat.mul_le_mul h1 hr
        have e : w.toNat * (2 * h.toNat) = 2 * (w.toNat * h.toNat) := by ring
        omega
    have mem := List.mem_of_getElem? hrc
    have fin : rc.1 ≤ 4 * w.toNat ∧ (rc.2 ≤ h.toNat ∨ (rc.1 ≤ w.toNat ∧ rc.2 ≤ 2 * h.toNat)) := by
      revert mem
      cases f.pixel_format <;> simp only [Spec.dims] <;> (try split) <;>
        simp only [List.mem_cons, List.not_mem_nil, or_false, Spec.bpp] <;> intro mem <;>
        (rcases mem with rfl | rfl | rfl <;> simp only <;> omega)
    exact ⟨Nat.le_refl _, (key _ _ fin.1 fin.2).1, (key _ _ fin.1 fin.2).2⟩
  · intro b hb _ _
    rw [hl b (List.mem_of_getElem? hb), packed_stride hp]
    have : w.toNat * (h.toNat + 1) ≤ w.toNat * (4 * h.toNat) := Nat.mul_le_mul_left _ (by omega)
    have e : w.toNat * (4 * h.toNat) = 4 * (w.toNat * h.toNat) := by ring
    omega

/-- **C85.** In particular a legal request for a supported conversion with packed lines succeeds, as
long as the image fits into an address space at all, even if the buffers are empty. -/
theorem C85_undersized {t : Target} {cpu : Cpu} (world : World) {c : Call} (e0 : ErrorKind)
    (h32 : 32 ≤ t.bits) (hc : Spec.CArrays c) (hl : Spec.LegalCall c)
    (hs : Spec.Supported c.src_format.pixel_format c.dst_format.pixel_format)
    (hp : Spec.Packed c.src_strides) (hp' : Spec.Packed c.dst_strides)
    (hn : 4 * (c.width.toNat * c.height.toNat) + 8 ≤ t.imax) :
    cVerdictOf (dcp_convert_image t crate cpu world (cCall c (some e0))) = .done := by
  rw [dcp_convert_unsized world e0 (by omega) hc]
  by_cases he : c.width = 0 ∨ c.height = 0
  · obtain ⟨tb, hT, e⟩ := convert_table t crate cpu
    rw [e, Spec.unsized, convert_empty hT hl.1 hl.2 hs he]
    rfl
  rw [not_or] at he
  have len : ∀ l : List Buf, ∀ b, b ∈ l.map (fun b : Buf => (⟨t.imax, b.bytes⟩ : Buf)) →
      b.len = t.imax := by
    intro l b hb
    obtain ⟨_, -, rfl⟩ := List.mem_map.1 hb
    rfl
  have hv : Spec.Valid t (Spec.unsized t c) := by
    refine ⟨h32, hl.1, hl.2, hs, he.1, he.2, ?_, ?_, unsized_real t _, unsized_real t _⟩
    · exact packed_fits hp (hc.src_strides hl.1.planes)
        (by simpa [Spec.unsized] using hc.src_buffers hl.1.planes) he.2
        (Nat.le_trans (Nat.le_add_right _ 8) hn) (len _)
    · exact packed_fits hp' (hc.dst_strides hl.2.planes)
        (by simpa [Spec.unsized] using hc.dst_buffers hl.2.planes) he.2
        (Nat.le_trans (Nat.le_add_right _ 8) hn) (len _)
  obtain ⟨out, h⟩ := C15_valid_partial t cpu (Spec.unsized t c) hv (by
    intro _ _ b hb
    have hb := len _ b (List.mem_of_getElem? hb)
    have h1 := u32_pos he.2
    show Spec.GroupRoom cpu.set c.width.toNat (Spec.strideOf c.src_strides 0 (3 * c.width.toNat) *
      (c.height.toNat - 1)) b.len
    rw [packed_stride hp, hb]
    have e : 3 * c.width.toNat * (c.height.toNat - 1) + 3 * c.width.toNat =
        3 * (c.width.toNat * c.height.toNat) := by
      obtain ⟨m, hm⟩ : ∃ m, c.height.toNat = m + 1 := ⟨c.height.toNat - 1, by omega⟩
      rw [hm, Nat.add_sub_cancel]; ring
    generalize 3 * c.width.toNat * (c.height.toNat - 1) = last at e ⊢
    generalize c.width.toNat * c.height.toNat = p at *
    cases cpu.set
    · trivial
    · intro _; omega
    · intro _; omega
    · trivial)
  rw [h]
  rfl

/-- 640x480 Bgra to I420 with empty buffers. -/
def exEmptyBuffers : Call where
  width := 640
  height := 480
  src_format := ⟨.bgra, .rgb, 1⟩
  src_strides := none
  src_buffers := [⟨0, fun _ => 7⟩]
  dst_format := ⟨.i420, .bt601, 3⟩
  dst_strides := none
  dst_buffers := [⟨0, fun _ => 0⟩, ⟨0, fun _ => 0⟩, ⟨0, fun _ => 0⟩]

/-- The C function answers `OK`, the Rust function `NotEnoughData`. -/
example (world : World) : cVerdictOf (dcp_convert_image .x64 crate sse2Cpu world
      (cCall exEmptyBuffers (some .invalidValue))) = .done ∧
    verdictOf (convert .x64 crate sse2Cpu exEmptyBuffers) = .rejected .notEnoughData := by
  constructor
  · refine C85_undersized world _ (by decide) ⟨?_, ?_, ?_, ?_⟩ ?_ (by decide) ?_ ?_ (by decide)
    · intro _ l h; cases h
    · intro _; decide
    · intro _ l h; cases h
    · intro _; decide
    · exact ⟨by decide +kernel, by decide +kernel⟩
    · intro l h; cases h
    · intro l h; cases h
  · decide +kernel

end Verif
