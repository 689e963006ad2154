import Verif.Props.CSizes
import Verif.Spec.Slices
/-!
# C91: the references the C interface forms
-/

namespace Verif

open CApi
open Spec (Permitted InObject Overlap LowerHalf sliceBytes)

variable {t : Target} {p : Places}

/-- The walk with addresses stops early exactly when `dcp_convert_image` does. -/
theorem convertRefs_none {impls : InstructionSet → Impl} {cpu : Cpu} {world : World} {c : CCall} :
    convertRefs t p c = .ok none ↔
      ∃ o, dcp_convert_image t impls cpu world c = .ok o ∧ o.planes = none := by
  rcases c with ⟨w, h, sfp, ss, sbp, dfp, ds, dbp, err⟩
  unfold convertRefs dcp_convert_image
  cases sfp with
  | none => exact ⟨fun _ => ⟨_, rfl, rfl⟩, fun _ => rfl⟩
  | some sf =>
  cases dfp with
  | none => exact ⟨fun _ => ⟨_, rfl, rfl⟩, fun _ => rfl⟩
  | some df =>
  cases sbp with
  | none => exact ⟨fun _ => ⟨_, rfl, rfl⟩, fun _ => rfl⟩
  | some sb =>
  cases dbp with
  | none => exact ⟨fun _ => ⟨_, rfl, rfl⟩, fun _ => rfl⟩
  | some db =>
  simp only [Option.isNone_some, Bool.or_false, Bool.false_eq_true, if_false, deref, ok_bind]
  split
  · exact ⟨fun _ => ⟨_, rfl, rfl⟩, fun _ => rfl⟩
  generalize PixFmt.are_planes_compatible sf.pixel_format sf.num_planes = x1
  generalize PixFmt.are_planes_compatible df.pixel_format df.num_planes = x2
  generalize planePtrs sb 0 _ = x3
  generalize planePtrs db 0 _ = x4
  rcases x1 with f | b1
  · exact ⟨fun h => (by cases h), fun ⟨_, h, _⟩ => (by cases h)⟩
  rcases x2 with f | b2
  · exact ⟨fun h => (by cases h), fun ⟨_, h, _⟩ => (by cases h)⟩
  simp only [ok_bind]
  split
  · exact ⟨fun _ => ⟨_, rfl, rfl⟩, fun _ => rfl⟩
  rcases x3 with f | _ | src
  · exact ⟨fun h => (by cases h), fun ⟨_, h, _⟩ => (by cases h)⟩
  · exact ⟨fun _ => ⟨_, rfl, rfl⟩, fun _ => rfl⟩
  rcases x4 with f | _ | dst
  · exact ⟨fun h => (by cases h), fun ⟨_, h, _⟩ => (by cases h)⟩
  · exact ⟨fun _ => ⟨_, rfl, rfl⟩, fun _ => rfl⟩
  simp only [ok_bind]
  refine ⟨fun h => (by cases h), ?_⟩
  rintro ⟨o, h, ho⟩
  exfalso
  generalize convert t impls cpu _ = y at h
  rcases y with f | ⟨r | r, out⟩
  · cases h
  · injection h with h
    rw [← h] at ho
    cases ho
  · injection h with h
    rw [← h] at ho
    cases ho

/-- The references of a call that is not rejected by the checks of the C function. -/
theorem C91_refs {c : Call} {error : Option ErrorKind} (hc : Spec.CArrays c)
    (h1 : Spec.PlanesOk c.src_format.pixel_format c.src_format.num_planes.toNat)
    (h2 : Spec.PlanesOk c.dst_format.pixel_format c.dst_format.num_planes.toNat) :
    convertRefs t p (cCall c error) = .ok (some
      ⟨planeRefs t p.src false c.src_format.num_planes.toNat,
        planeRefs t p.dst true c.dst_format.num_planes.toNat,
        strideRef t p.src_strides c.src_strides ++ strideRef t p.dst_strides c.dst_strides⟩) := by
  have b1 := hc.src_buffers h1
  have b2 := hc.dst_buffers h2
  have e1 := (pixelFormat_valid c.src_format.pixel_format.toU32).1.2 ⟨_, rfl⟩
  have e2 := (pixelFormat_valid c.dst_format.pixel_format.toU32).1.2 ⟨_, rfl⟩
  have e3 := (colorSpace_valid c.src_format.color_space.toU32).1.2 ⟨_, rfl⟩
  have e4 := (colorSpace_valid c.dst_format.color_space.toU32).1.2 ⟨_, rfl⟩
  have k1 := planes_compatible c.src_format.pixel_format c.src_format.num_planes
  have k2 := planes_compatible c.dst_format.pixel_format c.dst_format.num_planes
  rw [decide_eq_true h1] at k1
  rw [decide_eq_true h2] at k2
  unfold convertRefs cCall ofFormat
  simp only [Option.isNone_some, Bool.or_false, Bool.false_eq_true, if_false, deref, ok_bind, e1, e2,
    e3, e4, k1, k2, Bool.not_true, planes_min h1, planes_min h2, planePtrs_some b1,
    planePtrs_some b2, List.length_take, Nat.min_eq_left b1, Nat.min_eq_left b2]
  rfl

theorem planes_range {f : CFormat} (h : Spec.CPlanesOk f) :
    1 ≤ f.num_planes.toNat ∧ f.num_planes.toNat ≤ 3 := by
  obtain ⟨pf, -, h⟩ := h
  cases pf <;> simp only [Spec.PlanesOk] at h <;> omega

theorem planePtrs_length {arr : List (Option Buf)} {n : Nat} : ∀ {i : Nat} {bs : List Buf},
    planePtrs arr i n = .ok (some bs) → bs.length = n := by
  induction n with
  | zero => intro i bs h; cases h; rfl
  | succ n ih =>
    intro i bs h
    unfold planePtrs at h
    split at h
    · cases h
    · cases h
    · generalize hx : planePtrs arr (i + 1) n = x at h
      rcases x with f | _ | bs'
      · cases h
      · cases h
      · cases h
        rw [List.length_cons, ih hx]

/-- The references of any call: between one and three planes on either side. -/
theorem convertRefs_some {c : CCall} {r : Refs} (h : convertRefs t p c = .ok (some r)) :
    ∃ n m, (1 ≤ n ∧ n ≤ 3) ∧ (1 ≤ m ∧ m ≤ 3) ∧ r = ⟨planeRefs t p.src false n,
      planeRefs t p.dst true m,
      strideRef t p.src_strides c.src_strides ++ strideRef t p.dst_strides c.dst_strides⟩ := by
  rcases c with ⟨w, hh, sfp, ss, sbp, dfp, ds, dbp, err⟩
  unfold convertRefs at h
  cases sfp with
  | none => cases h
  | some sf =>
  cases dfp with
  | none => cases h
  | some df =>
  cases sbp with
  | none => cases h
  | some sb =>
  cases dbp with
  | none => cases h
  | some db =>
  simp only [Option.isNone_some, Bool.or_false, Bool.false_eq_true, if_false, deref, ok_bind] at h
  split at h
  · cases h
  next hv =>
  simp only [Bool.or_eq_true, Bool.not_eq_true', not_or, Bool.not_eq_false] at hv
  obtain ⟨b1, k1, p1⟩ := planesOk_of sf hv.1.1.1
  obtain ⟨b2, k2, p2⟩ := planesOk_of df hv.1.1.2
  simp only [k1, k2, ok_bind] at h
  split at h
  · cases h
  next hb =>
  simp only [Bool.or_eq_true, Bool.not_eq_true', not_or, Bool.not_eq_false] at hb
  obtain ⟨n1, n2⟩ := planes_range (p1.1 hb.1)
  obtain ⟨m1, m2⟩ := planes_range (p2.1 hb.2)
  generalize hx : planePtrs sb 0 _ = x at h
  generalize hy : planePtrs db 0 _ = y at h
  rcases x with f | _ | src
  · cases h
  · cases h
  rcases y with f | _ | dst
  · cases h
  · cases h
  have l1 := planePtrs_length hx
  have l2 := planePtrs_length hy
  have e1 : min sf.num_planes.toNat PixFmt.MAX_NUMBER_OF_PLANES = sf.num_planes.toNat :=
    Nat.min_eq_left (by unfold PixFmt.MAX_NUMBER_OF_PLANES; omega)
  have e2 : min df.num_planes.toNat PixFmt.MAX_NUMBER_OF_PLANES = df.num_planes.toNat :=
    Nat.min_eq_left (by unfold PixFmt.MAX_NUMBER_OF_PLANES; omega)
  rw [e1] at l1
  rw [e2] at l2
  refine ⟨_, _, ⟨n1, n2⟩, ⟨m1, m2⟩, ?_⟩
  injection h with h
  injection h with h
  rw [← h, l1, l2]

theorem mem_planeRefs {place : Nat → Nat} {excl : Bool} {n : Nat} {s : Slice} :
    some s ∈ planeRefs t place excl n ↔ ∃ i, i < n ∧ s = ⟨place i, 1, t.imax, excl⟩ := by
  unfold planeRefs
  simp [eq_comm]

theorem mem_strideRef {a : Nat} {l : Option (List Nat)} {s : Slice} :
    s ∈ strideRef t a l ↔ l ≠ none ∧ s = ⟨a, usizeBytes t, t.imax, false⟩ := by
  cases l <;> simp [strideRef]

/-- A slice in a real object is permitted; slices in disjoint objects do not overlap. -/
theorem inObject_permitted {s s' : Slice} {a n a' n' : Nat} (h : InObject s a n) :
    (n ≤ 2 ^ (t.bits - 1) - 1 → a + n ≤ 2 ^ t.bits → Permitted t s) ∧
    (InObject s' a' n' → a + n ≤ a' ∨ a' + n' ≤ a → ¬ Overlap s s') := by
  unfold InObject at *
  refine ⟨fun h1 h2 => ⟨by omega, by omega⟩, ?_⟩
  rintro h1 h2 ⟨b, h3, h4⟩
  omega

/-- C91: `dcp_get_buffers_size` forms slices of the caller's arrays only: each lies in its array.
Hence (`inObject_permitted`) it is permitted if the array is a real object, and the array of sizes,
the only one that is written, does not overlap that of the strides if the arrays do not. -/
theorem C91_sizes {f : CFormat} {strides : Option (List Nat)} {sizes : List Nat} {l : List Slice}
    (h : sizesSlices t p (some f) strides (some sizes) = .ok l)
    (hs : ∀ a, strides = some a → f.num_planes.toNat ≤ a.length)
    (hz : f.num_planes.toNat ≤ sizes.length) :
    ∀ s ∈ l,
      (s.excl = true → InObject s p.sizes (sizes.length * usizeBytes t)) ∧
      (s.excl = false → ∃ a, strides = some a ∧
        InObject s p.src_strides (a.length * usizeBytes t)) := by
  unfold sizesSlices at h
  simp only [Option.isNone_some, Bool.or_false, Bool.false_eq_true, if_false, deref, ok_bind] at h
  split at h
  · cases h; intro s hs; cases hs
  next hv =>
  obtain ⟨b1, k1, -⟩ := planesOk_of f (by simpa using hv)
  simp only [k1, ok_bind] at h
  split at h
  · cases h; intro s hs; cases hs
  injection h with h
  subst h
  intro s hm
  rcases List.mem_append.1 hm with hm | hm
  · cases strides with
    | none => cases hm
    | some a =>
      simp only [List.mem_singleton] at hm
      subst hm
      exact ⟨fun h => (by cases h), fun _ => ⟨a, rfl, Nat.le_refl _,
        Nat.add_le_add_left (Nat.mul_le_mul_right _ (hs a rfl)) _⟩⟩
  · simp only [List.mem_singleton] at hm
    subst hm
    exact ⟨fun _ => ⟨Nat.le_refl _, Nat.add_le_add_left (Nat.mul_le_mul_right _ hz) _⟩,
      fun h => (by cases h)⟩

/-- C91, what holds of `dcp_convert_image`: the slices made of the planes are as long as Rust allows,
and stay in the address space if the planes are in its lower half. Missing: the slices made of stride
arrays, the overlap of slices, uninitialised references (counterexamples below). -/
theorem C91_planes_partial {c : CCall} {r : Refs} (h : convertRefs t p c = .ok (some r))
    (hs : ∀ i, i < 3 → LowerHalf t (p.src i)) (hd : ∀ i, i < 3 → LowerHalf t (p.dst i))
    (hb : 1 ≤ t.bits) :
    (∀ s, some s ∈ r.src ∨ some s ∈ r.dst → Permitted t s) ∧
    (c.src_strides = none → c.dst_strides = none → r.strides = []) := by
  obtain ⟨n, m, ⟨-, hn⟩, ⟨-, hm⟩, rfl⟩ := convertRefs_some h
  have e : 2 ^ t.bits = 2 ^ (t.bits - 1) + 2 ^ (t.bits - 1) := by
    rw [← Nat.two_mul, ← Nat.pow_succ', Nat.succ_eq_add_one, Nat.sub_add_cancel hb]
  have key : ∀ a b, LowerHalf t a → Permitted t ⟨a, 1, t.imax, b⟩ := by
    intro a b ha
    unfold LowerHalf at ha
    unfold Permitted sliceBytes Target.imax
    simp only
    omega
  refine ⟨fun s hm' => ?_, fun h1 h2 => ?_⟩
  · rcases hm' with hm' | hm'
    · obtain ⟨i, hi, rfl⟩ := mem_planeRefs.1 hm'
      exact key _ _ (hs i (by omega))
    · obtain ⟨i, hi, rfl⟩ := mem_planeRefs.1 hm'
      exact key _ _ (hd i (by omega))
  · simp only [h1, h2, strideRef, List.append_nil]

/-- C91 fails for every call with a stride array: the slice made of it is larger than `isize::MAX`
bytes. -/
theorem C91_counterexample_strides {c : CCall} {r : Refs} (h : convertRefs t p c = .ok (some r))
    (hb : 16 ≤ t.bits) :
    (∀ s ∈ r.strides, ¬ Permitted t s) ∧
    ((c.src_strides ≠ none ∨ c.dst_strides ≠ none) → r.strides ≠ []) := by
  obtain ⟨n, m, -, -, rfl⟩ := convertRefs_some h
  have h1 : 2 ≤ usizeBytes t := by unfold usizeBytes; omega
  have h2 : 2 ^ 15 ≤ 2 ^ (t.bits - 1) := Nat.pow_le_pow_right (by decide) (by omega)
  have key : ∀ a, ¬ Permitted t ⟨a, usizeBytes t, t.imax, false⟩ := by
    rintro a ⟨h3, -⟩
    unfold sliceBytes Target.imax at h3
    have := Nat.mul_le_mul_left (2 ^ (t.bits - 1) - 1) h1
    simp only at h3
    omega
  constructor
  · intro s hs
    rcases List.mem_append.1 hs with hs | hs <;> rw [(mem_strideRef.1 hs).2] <;> exact key _
  · rintro (h4 | h4) h5 <;> obtain ⟨h6, h7⟩ := List.append_eq_nil_iff.1 h5
    · cases h8 : c.src_strides with
      | none => exact h4 h8
      | some l => rw [h8] at h6; cases h6
    · cases h8 : c.dst_strides with
      | none => exact h4 h8
      | some l => rw [h8] at h7; cases h7

/-- C91 fails for every call: if the planes are in the lower half of the address space, the `&mut`
slice made of any destination plane overlaps the slice made of any source plane, although the planes
themselves do not; and so do the `&mut` slices of two destination planes. -/
theorem C91_counterexample_overlap {c : CCall} {r : Refs} (h : convertRefs t p c = .ok (some r))
    (hs : ∀ i, i < 3 → LowerHalf t (p.src i + 1)) (hd : ∀ i, i < 3 → LowerHalf t (p.dst i + 1)) :
    (∃ s, some s ∈ r.src) ∧ (∃ d, some d ∈ r.dst) ∧
    ∀ d, some d ∈ r.dst → d.excl = true ∧
      ∀ s, some s ∈ r.src ∨ some s ∈ r.dst → Overlap d s := by
  obtain ⟨n, m, ⟨hn1, hn⟩, ⟨hm1, hm⟩, rfl⟩ := convertRefs_some h
  have key : ∀ a b x y, LowerHalf t (a + 1) → LowerHalf t (b + 1) →
      Overlap ⟨a, 1, t.imax, x⟩ ⟨b, 1, t.imax, y⟩ := by
    intro a b x y ha hb
    unfold LowerHalf at ha hb
    refine ⟨max a b, ?_, ?_⟩ <;> unfold sliceBytes Target.imax <;> simp only <;> omega
  refine ⟨⟨_, mem_planeRefs.2 ⟨0, hn1, rfl⟩⟩, ⟨_, mem_planeRefs.2 ⟨0, hm1, rfl⟩⟩, fun d hd' => ?_⟩
  obtain ⟨i, hi, rfl⟩ := mem_planeRefs.1 hd'
  refine ⟨rfl, fun s hs' => ?_⟩
  rcases hs' with hs' | hs'
  · obtain ⟨j, hj, rfl⟩ := mem_planeRefs.1 hs'
    exact key _ _ _ _ (hd i (by omega)) (hs j (by omega))
  · obtain ⟨j, hj, rfl⟩ := mem_planeRefs.1 hs'
    exact key _ _ _ _ (hd i (by omega)) (hd j (by omega))

/-- C91 fails for every call: both arrays of references have an uninitialised element. -/
theorem C91_counterexample_uninit {c : CCall} {r : Refs} (h : convertRefs t p c = .ok (some r)) :
    none ∈ r.src ∧ none ∈ r.dst := by
  obtain ⟨n, m, ⟨-, hn⟩, ⟨-, hm⟩, rfl⟩ := convertRefs_some h
  unfold planeRefs PixFmt.MAX_NUMBER_OF_PLANES
  constructor <;> refine List.mem_append_right _ (List.mem_replicate.2 ⟨by omega, rfl⟩)

/-- The hypotheses are met: an ordinary conversion of `Bgra` to `I420` with strides, at ordinary
addresses. -/
example : ∃ r, convertRefs .x64 ⟨0x7ffc0000, 0x7ffc0100, 0x7ffc0200, fun _ => 0x55550000,
      fun i => 0x66660000 + 0x1000 * i⟩
    ⟨2, 2, some ⟨1, 0, 1⟩, some [8], some [some ⟨16, fun _ => 7⟩], some ⟨7, 1, 3⟩, some [2, 1, 1],
      some [some ⟨4, fun _ => 0⟩, some ⟨1, fun _ => 0⟩, some ⟨1, fun _ => 0⟩], none⟩ =
      .ok (some r) ∧
    r.strides = [⟨0x7ffc0000, 8, 2 ^ 63 - 1, false⟩, ⟨0x7ffc0100, 8, 2 ^ 63 - 1, false⟩] ∧
    r.dst.length = 4 := by
  exact ⟨_, rfl, rfl, rfl⟩

end Verif
