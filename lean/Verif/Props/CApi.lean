import Verif.Lemmas.CApi
import Verif.Lemmas.Global
import Verif.Props.Sizes
import Verif.Props.Pixels
/-!
# C56 (C string), C57, C58: the C interface
-/

namespace Verif

open CApi

/-- C56: the C function returns the text of the Rust function as a NUL-terminated string, never a
null pointer; reading up to the first NUL gives the text back. -/
theorem C56_c_string {cpu : Cpu} {ctx : Context} (h : Context.new cpu = .ok ctx) :
    ∃ s, dcp_describe_acceleration ctx = some s ∧
      s.takeWhile (· ≠ 0) = (describe_acceleration ctx).toList.map Char.toNat ∧
      s.getLast? = some 0 := by
  have hn : 0 ∉ (describe_acceleration ctx).toList.map Char.toNat := by
    rw [describe_eq h]
    have : ∀ (m : CpuManufacturer) (s : InstructionSet),
        0 ∉ (("{cpu-manufacturer:" ++ m.debug ++ ",instruction-set:" ++ s.debug ++ "}").toList.map
          Char.toNat) := by
      intro m s
      cases m <;> cases s <;> decide +kernel
    exact this _ _
  refine ⟨_, if_neg hn, ?_, by simp⟩
  rw [List.takeWhile_append_of_pos]
  · simp
  · intro a ha
    simp only [decide_eq_true_eq]
    rintro rfl
    exact hn ha

/-- The bytes of `{cpu-manufacturer:Unknown,instruction-set:Avx2}` and a 0. -/
example : ∃ ctx, Context.new avx2Cpu = .ok ctx ∧ dcp_describe_acceleration ctx = some [
      123, 99, 112, 117, 45, 109, 97, 110, 117, 102, 97, 99, 116, 117, 114, 101, 114, 58, 85,
      110, 107, 110, 111, 119, 110, 44, 105, 110, 115, 116, 114, 117, 99, 116, 105, 111, 110,
      45, 115, 101, 116, 58, 65, 118, 120, 50, 125, 0] :=
  ⟨_, rfl, by decide +kernel⟩

/-! ## C57: invalid arguments -/

theorem planesOk_of (f : CFormat) : Dispatcher.is_pixel_format_valid f.pixel_format = true →
    ∃ b, PixFmt.are_planes_compatible f.pixel_format f.num_planes = .ok b ∧
      (b = true ↔ Spec.CPlanesOk f) := by
  intro h
  obtain ⟨pf, e⟩ := (pixelFormat_valid _).1.1 h
  refine ⟨_, by rw [e]; exact planes_compatible pf f.num_planes, ?_⟩
  rw [decide_eq_true_eq]
  constructor
  · intro h; exact ⟨pf, e, h⟩
  · rintro ⟨pf', e', h⟩
    have : pf = pf' := by
      have h1 := (pixelFormat_valid 0).2 pf
      rw [← e, e', (pixelFormat_valid 0).2 pf'] at h1
      exact (Option.some.inj h1).symm
    rw [this]; exact h

theorem planes_min {pf : PixelFormat} {n : Nat} (h : Spec.PlanesOk pf n) :
    min n PixFmt.MAX_NUMBER_OF_PLANES = n := by
  have : n ≤ 4 := by cases pf <;> simp only [Spec.PlanesOk] at h <;> omega
  exact Nat.min_eq_left this

/-- C57: if a format or array pointer is null, an enum value is out of range, a number of planes is
illegal or a plane pointer is null, the call answers `Err`, stores `InvalidValue` in the error slot
if there is one, touches no plane, and does not dereference a null pointer. -/
theorem C57_convert_invalid {t : Target} {impls : InstructionSet → Impl} {cpu : Cpu} {world : World}
    {c : CCall} (h1 : Spec.ArrayReadable c.src_format c.src_buffers)
    (h2 : Spec.ArrayReadable c.dst_format c.dst_buffers)
    (hbad : ¬ (Spec.GoodFormat c.src_format ∧ Spec.GoodFormat c.dst_format ∧
      Spec.GoodPlanes c.src_format c.src_buffers ∧ Spec.GoodPlanes c.dst_format c.dst_buffers)) :
    dcp_convert_image t impls cpu world c =
      .ok ⟨.err, c.error.map fun _ => .invalidValue, none⟩ := by
  rcases c with ⟨w, h, sfp, ss, sbp, dfp, ds, dbp, err⟩
  simp only at *
  unfold dcp_convert_image
  cases sfp with
  | none => rfl
  | some sf =>
  cases dfp with
  | none => rfl
  | some df =>
  cases sbp with
  | none => rfl
  | some sb =>
  cases dbp with
  | none => rfl
  | some db =>
  simp only [Option.isNone_some, Bool.or_false, Bool.false_eq_true, if_false, deref, ok_bind]
  by_cases e1 : Dispatcher.is_pixel_format_valid sf.pixel_format = true
  swap; · simp only [e1, Bool.not_false, Bool.true_or, if_true]; rfl
  by_cases e2 : Dispatcher.is_pixel_format_valid df.pixel_format = true
  swap; · simp only [e2, Bool.not_false, Bool.or_true, Bool.true_or, if_true]; rfl
  by_cases e3 : Dispatcher.is_color_space_valid sf.color_space = true
  swap; · simp only [e3, Bool.not_false, Bool.or_true, Bool.true_or, if_true]; rfl
  by_cases e4 : Dispatcher.is_color_space_valid df.color_space = true
  swap; · simp only [e4, Bool.not_false, Bool.or_true, if_true]; rfl
  simp only [e1, e2, e3, e4, Bool.not_true, Bool.or_false, Bool.false_eq_true, if_false]
  obtain ⟨b1, k1, p1⟩ := planesOk_of sf e1
  obtain ⟨b2, k2, p2⟩ := planesOk_of df e2
  simp only [k1, k2, ok_bind]
  cases b1
  · rfl
  cases b2
  · rfl
  simp only [Bool.not_true, Bool.or_false, Bool.false_eq_true, if_false]
  have q1 := p1.1 rfl
  have q2 := p2.1 rfl
  have l1 := h1 sf sb rfl q1 rfl
  have l2 := h2 df db rfl q2 rfl
  have m1 := planes_min q1.choose_spec.2
  have m2 := planes_min q2.choose_spec.2
  rw [m1, m2]
  have g1 : Spec.GoodFormat (some sf) := ⟨sf, rfl, q1, (colorSpace_valid _).1.1 e3⟩
  have g2 : Spec.GoodFormat (some df) := ⟨df, rfl, q2, (colorSpace_valid _).1.1 e4⟩
  rcases planePtrs_spec sb sf.num_planes.toNat 0 (by omega) with ⟨s1, -⟩ | ⟨bs, s1, s2⟩
  · simp only [s1, ok_bind]; rfl
  · simp only [s1, ok_bind]
    rcases planePtrs_spec db df.num_planes.toNat 0 (by omega) with ⟨d1, -⟩ | ⟨bd, d1, d2⟩
    · simp only [d1, ok_bind]; rfl
    · exfalso
      have good : ∀ {n : Nat} {arr : List (Option Buf)} {l : List Buf},
          l.map some = (arr.drop 0).take n → ∀ j, j < n → arr[j]? ≠ some none := by
        intro n arr l h j hj e
        rw [List.drop_zero] at h
        have : (l.map some)[j]? = some none := by rw [h, List.getElem?_take_of_lt hj, e]
        rw [List.getElem?_map] at this
        cases h3 : l[j]? <;> rw [h3] at this <;> cases this
      exact hbad ⟨g1, g2, ⟨sf, sb, rfl, rfl, good s2⟩, ⟨df, db, rfl, rfl, good d2⟩⟩

/-- Its hypotheses are met: `Nv12` in two planes with a null chroma pointer; a pixel format 77. -/
example : ∃ c : CCall, Spec.ArrayReadable c.src_format c.src_buffers ∧
    Spec.ArrayReadable c.dst_format c.dst_buffers ∧
    ¬ Spec.GoodPlanes c.src_format c.src_buffers ∧ ¬ Spec.GoodFormat c.dst_format := by
  refine ⟨⟨2, 2, some ⟨8, 1, 2⟩, none, some [some ⟨4, fun _ => 0⟩, none], some ⟨77, 0, 1⟩, none,
    some [none], none⟩, ?_, ?_, ?_, ?_⟩
  · rintro g l ⟨⟩ - ⟨⟩; decide
  · rintro g l ⟨⟩ - ⟨⟩; decide
  · rintro ⟨g, arr, ⟨⟩, ⟨⟩, h⟩
    exact h 1 (by decide) rfl
  · rintro ⟨f, ⟨⟩, ⟨pf, h, -⟩, -⟩
    cases pf <;> revert h <;> decide

/-- C57: the same for `dcp_get_buffers_size`, which does not look at the colour space. -/
theorem C57_sizes_invalid {t : Target} {w h : UInt32} {format : Option CFormat}
    {strides sizes : Option (List Nat)} {error : Option ErrorKind}
    (hbad : ¬ ((∃ f, format = some f ∧ Spec.CPlanesOk f) ∧ sizes ≠ none)) :
    dcp_get_buffers_size t w h format strides sizes error =
      .ok ⟨.err, error.map fun _ => .invalidValue, sizes⟩ := by
  unfold dcp_get_buffers_size
  cases format with
  | none => rfl
  | some f =>
  cases sizes with
  | none => rfl
  | some l =>
  simp only [Option.isNone_some, Bool.or_false, Bool.false_eq_true, if_false, deref, ok_bind]
  by_cases e1 : Dispatcher.is_pixel_format_valid f.pixel_format = true
  swap; · simp only [e1, Bool.not_false, if_true]; rfl
  obtain ⟨b, k, p⟩ := planesOk_of f e1
  simp only [e1, Bool.not_true, Bool.false_eq_true, if_false, k, ok_bind]
  cases b
  · rfl
  · exact absurd ⟨⟨f, rfl, p.1 rfl⟩, by simp⟩ hbad

example : ¬ ((∃ f, some (⟨7, 0, 2⟩ : CFormat) = some f ∧ Spec.CPlanesOk f) ∧
    some [0, 0, 0] ≠ none) := by
  rintro ⟨⟨f, ⟨⟩, pf, h1, h2⟩, -⟩
  cases pf <;> first | (revert h1; decide) | (revert h2; decide)

/-! ## C58: agreement with the Rust interface -/

/-- C58: `dcp_get_buffers_size` on the arrays of a legal number of planes is `get_buffers_size` on
the first `num_planes` elements; the caller's further elements are unchanged. -/
theorem C58_sizes {t : Target} {w h : UInt32} {f : ImageFormat} {strides : Option (List Nat)}
    {sizes : List Nat} {error : Option ErrorKind}
    (hp : Spec.PlanesOk f.pixel_format f.num_planes.toNat)
    (ha : Spec.ArraysOk f strides sizes) {r : Except ErrorKind Unit} {out : List Nat}
    (hr : get_buffers_size t w h f (strides.map (·.take f.num_planes.toNat))
      (sizes.take f.num_planes.toNat) = .ok (r, out)) :
    dcp_get_buffers_size t w h (some (ofFormat f)) strides (some sizes) error =
      .ok ⟨cResult r, cError error r, some (out ++ sizes.drop f.num_planes.toNat)⟩ := by
  have e1 : Dispatcher.is_pixel_format_valid (ofFormat f).pixel_format = true :=
    (pixelFormat_valid _).1.2 ⟨f.pixel_format, rfl⟩
  have k : PixFmt.are_planes_compatible (ofFormat f).pixel_format f.num_planes =
      .ok true := by
    have := planes_compatible f.pixel_format f.num_planes
    rwa [decide_eq_true hp] at this
  have hn : (ofFormat f).num_planes = f.num_planes := rfl
  unfold dcp_get_buffers_size
  simp only [Option.isNone_some, Bool.or_false, Bool.false_eq_true, if_false, deref, ok_bind, e1,
    k, Bool.not_true, rawSlice, hn, if_pos ha.2]
  cases strides with
  | none =>
    simp only [pure_bind, rust_ofFormat]
    rw [show get_buffers_size t w h f none _ = _ from hr]
    rcases r with e | ⟨⟩ <;> rfl
  | some l =>
    simp only [if_pos (ha.1 l rfl), rust_ofFormat]
    show (do
      let x ← get_buffers_size t w h f (some (l.take f.num_planes.toNat)) _
      _) = _
    rw [show get_buffers_size t w h f (some (l.take f.num_planes.toNat)) _ = _ from hr]
    rcases r with e | ⟨⟩ <;> rfl

/-- C05 through the C interface, which has its own check of the number of planes: with an admissible
size and arrays as long as the number of planes requires, `dcp_get_buffers_size` reports
`InvalidValue` exactly if the number of planes is not one of those listed. -/
theorem C05_plane_count_c {t : Target} {w h : UInt32} {f : ImageFormat}
    {strides : Option (List Nat)} {sizes : List Nat} {e0 : ErrorKind}
    (hs : Spec.SizeOk f.pixel_format w.toNat h.toNat)
    (ha : Spec.PlanesOk f.pixel_format f.num_planes.toNat → Spec.ArraysOk f strides sizes) :
    (∃ out, dcp_get_buffers_size t w h (some (ofFormat f)) strides (some sizes) (some e0) =
      .ok ⟨.err, some .invalidValue, out⟩) ↔
      f.num_planes ∉ (match f.pixel_format with
        | .i444 | .i422 | .i420 => [3]
        | .nv12 => [1, 2]
        | _ => [1] : List UInt32) := by
  have key := C05_plane_count (t := t) f w h (strides.map (·.take f.num_planes.toNat))
    (sizes.take f.num_planes.toNat) hs
  refine Iff.trans ?_ key
  by_cases hp : Spec.PlanesOk f.pixel_format f.num_planes.toNat
  · have ha := ha hp
    cases hg : get_buffers_size t w h f (strides.map (·.take f.num_planes.toNat))
        (sizes.take f.num_planes.toNat) with
    | ok r =>
      obtain ⟨r, o⟩ := r
      rw [C58_sizes hp ha hg]
      rcases r with e | ⟨⟩
      · simp [cResult, cError]
      · simp [cResult]
    | error e =>
      have : dcp_get_buffers_size t w h (some (ofFormat f)) strides (some sizes) (some e0) =
          .error e := by
        have e1 : Dispatcher.is_pixel_format_valid (ofFormat f).pixel_format = true :=
          (pixelFormat_valid _).1.2 ⟨f.pixel_format, rfl⟩
        have k : PixFmt.are_planes_compatible (ofFormat f).pixel_format f.num_planes =
            .ok true := by
          have := planes_compatible f.pixel_format f.num_planes
          rwa [decide_eq_true hp] at this
        have hn : (ofFormat f).num_planes = f.num_planes := rfl
        unfold dcp_get_buffers_size
        simp only [Option.isNone_some, Bool.or_false, Bool.false_eq_true, if_false, deref, ok_bind,
          e1, k, Bool.not_true, rawSlice, hn, if_pos ha.2]
        cases strides with
        | none =>
          simp only [pure_bind, rust_ofFormat]
          rw [show get_buffers_size t w h f none _ = _ from hg]
          rfl
        | some l =>
          simp only [if_pos (ha.1 l rfl), rust_ofFormat]
          show (do
            let x ← get_buffers_size t w h f (some (l.take f.num_planes.toNat)) _
            _) = _
          rw [show get_buffers_size t w h f (some (l.take f.num_planes.toNat)) _ = _ from hg]
          rfl
      rw [this]
      simp
  · rw [C57_sizes_invalid]
    · constructor
      · intro _
        rw [key]
        intro hm
        apply hp
        revert hm
        cases f.pixel_format <;> simp only [Spec.PlanesOk, List.mem_cons, List.not_mem_nil, or_false]
          <;> intro hm <;> first | (rw [hm]; rfl) | (rcases hm with hm | hm <;> rw [hm] <;> decide)
      · intro _
        exact ⟨_, rfl⟩
    · rintro ⟨⟨g, hg, pf, e1, e2⟩, -⟩
      obtain rfl := Option.some.inj hg
      have h1 := (pixelFormat_valid 0).2 pf
      rw [← e1, show (ofFormat f).pixel_format = f.pixel_format.toU32 from rfl,
        (pixelFormat_valid 0).2 f.pixel_format] at h1
      rw [← Option.some.inj h1] at e2
      exact hp e2

/-- Single-plane and two-plane `Nv12` pass the check of the C function, three planes do not. -/
example : Spec.SizeOk .nv12 2 2 ∧ Spec.ArraysOk ⟨.nv12, .bt601, 2⟩ (some [2, 2]) [0, 0] ∧
    ¬ Spec.PlanesOk .nv12 3 ∧
    dcp_get_buffers_size .x64 2 2 (some ⟨8, 1, 1⟩) none (some [0]) (some .notEnoughData) =
      .ok ⟨.ok, some .notEnoughData, some [6]⟩ ∧
    dcp_get_buffers_size .x64 2 2 (some ⟨8, 1, 3⟩) none (some [0]) (some .notEnoughData) =
      .ok ⟨.err, some .invalidValue, some [0]⟩ := by
  refine ⟨by decide, ⟨?_, by decide⟩, by decide, by decide +kernel, by decide +kernel⟩
  rintro l ⟨⟩; decide

/-- Shape of the C function once the pointers are good. -/
theorem dcp_convert_eq {t : Target} {impls : InstructionSet → Impl} {cpu : Cpu} {world : World}
    {c : Call} {error : Option ErrorKind} 
    (h1 : Spec.PlanesOk c.src_format.pixel_format c.src_format.num_planes.toNat)
    (h2 : Spec.PlanesOk c.dst_format.pixel_format c.dst_format.num_planes.toNat)
    (b1 : c.src_format.num_planes.toNat ≤ c.src_buffers.length)
    (b2 : c.dst_format.num_planes.toNat ≤ c.dst_buffers.length)
    {r : Except ErrorKind Unit} {out : List Buf}
    (hr : convert t impls cpu ⟨c.width, c.height, c.src_format,
      c.src_strides.map fun l => unbounded t l world.src_strides,
      (c.src_buffers.take c.src_format.num_planes.toNat).map (inflate t) ++ world.src_planes.take
        (PixFmt.MAX_NUMBER_OF_PLANES - c.src_format.num_planes.toNat),
      c.dst_format, c.dst_strides.map fun l => unbounded t l world.dst_strides,
      (c.dst_buffers.take c.dst_format.num_planes.toNat).map (inflate t) ++ world.dst_planes.take
        (PixFmt.MAX_NUMBER_OF_PLANES - c.dst_format.num_planes.toNat)⟩ = .ok (r, out)) :
    dcp_convert_image t impls cpu world (cCall c error) = .ok ⟨cResult r, cError error r,
      some ((c.dst_buffers.take c.dst_format.num_planes.toNat).zipWith
        (fun b o => ⟨b.len, o.bytes⟩) out, out.drop c.dst_format.num_planes.toNat)⟩ := by
  have e1 := (pixelFormat_valid c.src_format.pixel_format.toU32).1.2 ⟨_, rfl⟩
  have e2 := (pixelFormat_valid c.dst_format.pixel_format.toU32).1.2 ⟨_, rfl⟩
  have e3 := (colorSpace_valid c.src_format.color_space.toU32).1.2 ⟨_, rfl⟩
  have e4 := (colorSpace_valid c.dst_format.color_space.toU32).1.2 ⟨_, rfl⟩
  have k1 := planes_compatible c.src_format.pixel_format c.src_format.num_planes
  have k2 := planes_compatible c.dst_format.pixel_format c.dst_format.num_planes
  rw [decide_eq_true h1] at k1
  rw [decide_eq_true h2] at k2
  have p1 := planePtrs_some b1
  have p2 := planePtrs_some b2
  have f1 : (ofFormat c.src_format).rust = c.src_format := rust_ofFormat _
  have f2 : (ofFormat c.dst_format).rust = c.dst_format := rust_ofFormat _
  unfold ofFormat at f1 f2
  unfold dcp_convert_image cCall ofFormat
  simp only [Option.isNone_some, Bool.or_false, Bool.false_eq_true, if_false, deref, ok_bind, e1, e2,
    e3, e4, k1, k2, Bool.not_true, planes_min h1, planes_min h2, p1, p2, f1, f2,
    List.length_take, Nat.min_eq_left b1, Nat.min_eq_left b2]
  rw [hr]
  rcases r with e | ⟨⟩ <;> rfl

/-- A rejected or empty conversion: the inflated call gives the same answer. -/
theorem after_same {l junk : List Buf} {t : Target} {n : Nat} (hn : n ≤ l.length) :
    (l.take n).zipWith (fun b o : Buf => (⟨b.len, o.bytes⟩ : Buf))
      ((l.take n).map (inflate t) ++ junk) = l.take n ∧
    ((l.take n).map (inflate t) ++ junk).drop n = junk := by
  constructor
  · apply List.ext_getElem?
    intro i
    rw [List.getElem?_zipWith]
    by_cases hi : i < n
    · have hi' : i < ((l.take n).map (inflate t)).length := by simp; omega
      rw [List.getElem?_append_left hi', List.getElem?_map]
      cases (l.take n)[i]? <;> rfl
    · rw [List.getElem?_eq_none (by simp; omega : (l.take n).length ≤ i)]
  · rw [List.drop_left' (by simp; omega)]

/-- Destination planes of a conversion that takes place. -/
theorem after_painted {l junk : List Buf} {t : Target} {f : ImageFormat} {w h : UInt32}
    {ds : Option (List Nat)} {planes : List Spec.Plane} {n : Nat} (hn : n ≤ l.length)
    (hd : ∀ i, n ≤ i →
      (Spec.dims f.pixel_format f.num_planes.toNat w.toNat h.toNat)[i]? = none) :
    ((l.take n).zipWith (fun b o : Buf => (⟨b.len, o.bytes⟩ : Buf))
      (Spec.painted f w h ds planes ((l.take n).map (inflate t) ++ junk)) ++ l.drop n =
      Spec.painted f w h ds planes l) ∧
    (Spec.painted f w h ds planes ((l.take n).map (inflate t) ++ junk)).drop n = junk := by
  have tl : (l.take n).length = n := by simp; omega
  have zl : ((l.take n).zipWith (fun b o : Buf => (⟨b.len, o.bytes⟩ : Buf))
      (Spec.painted f w h ds planes ((l.take n).map (inflate t) ++ junk))).length = n := by
    unfold Spec.painted
    simp; omega
  constructor
  · apply List.ext_getElem?
    intro i
    by_cases hi : i < n
    · rw [List.getElem?_append_left (by omega), List.getElem?_zipWith]
      unfold Spec.painted
      rw [List.getElem?_mapIdx, List.getElem?_mapIdx,
        List.getElem?_append_left (by rw [List.length_map]; omega), List.getElem?_map,
        List.getElem?_take_of_lt hi, List.getElem?_eq_getElem (by omega : i < l.length)]
      simp only [Option.map_some]
      split <;> rfl
    · rw [List.getElem?_append_right (by omega), zl, List.getElem?_drop,
        show n + (i - n) = i by omega]
      unfold Spec.painted
      rw [List.getElem?_mapIdx, hd i (by omega)]
      cases l[i]? <;> rfl
  · apply List.ext_getElem?
    intro i
    unfold Spec.painted
    rw [List.getElem?_drop, List.getElem?_mapIdx, hd _ (by omega),
      List.getElem?_append_right (by rw [List.length_map]; omega), List.length_map, tl,
      show n + i - n = i by omega]
    cases junk[i]? <;> rfl

/-- `C58_convert` for any kernels that compute `S`. -/
theorem c_convert {t : Target} {impls : InstructionSet → Impl} {cpu : Cpu} {S : Sem}
    (hI : ImplOk t (impls cpu.set) S) (world : World) {c : Call} (error : Option ErrorKind)
    (hc : Spec.CRelies t c)
    (hroom : 0 < c.src_buffers.length → Spec.isRgb c.dst_format.pixel_format = false → ∀ len, (bufAt c.src_buffers 0).len ≤ len →
      S.room c.src_format.pixel_format c.width.toNat c.height.toNat (Spec.strideOf c.src_strides 0
        (Spec.bpp c.src_format.pixel_format * c.width.toNat)) len) :
    ∃ r out o, convert t impls cpu c = .ok (r, out) ∧
      dcp_convert_image t impls cpu world (cCall c error) = .ok o ∧
      o.res = cResult r ∧ o.error = cError error r ∧ planesAfter c.dst_buffers o = out ∧
      ∀ p, o.planes = some p → p.2 = world.dst_planes.take (4 - c.dst_format.num_planes.toNat) := by
  obtain ⟨tb, hT, e⟩ := convert_table t impls cpu
  by_cases hp : Spec.PlanesOk c.src_format.pixel_format c.src_format.num_planes.toNat ∧
      Spec.PlanesOk c.dst_format.pixel_format c.dst_format.num_planes.toNat
  swap
  · -- wrong number of planes
    have hl : ¬ Spec.Legal c.src_format c.width c.height ∨
        ¬ Spec.Legal c.dst_format c.width c.height := by
      by_cases h : Spec.PlanesOk c.src_format.pixel_format c.src_format.num_planes.toNat
      · exact .inr fun h' => hp ⟨h, h'.planes⟩
      · exact .inl fun h' => h h'.planes
    have ok : ∀ f : ImageFormat, Spec.CPlanesOk (ofFormat f) ↔
        Spec.PlanesOk f.pixel_format f.num_planes.toNat := by
      intro f
      constructor
      · rintro ⟨pf, h, h'⟩
        have h1 := (pixelFormat_valid 0).2 pf
        rw [← h] at h1
        have h2 : pixelFormat? (ofFormat f).pixel_format = some f.pixel_format :=
          (pixelFormat_valid 0).2 f.pixel_format
        rw [h2] at h1
        cases h1
        exact h'
      · intro h; exact ⟨f.pixel_format, rfl, h⟩
    refine ⟨_, _, ⟨.err, _, none⟩, by rw [e]; exact convert_of_pure (convert_invalid hl),
      C57_convert_invalid ?_ ?_ ?_, rfl, rfl, rfl, fun p h => nomatch h⟩
    · rintro g l ⟨⟩ hg ⟨⟩
      rw [List.length_map]; exact hc.src_buffers ((ok _).1 hg)
    · rintro g l ⟨⟩ hg ⟨⟩
      rw [List.length_map]; exact hc.dst_buffers ((ok _).1 hg)
    · rintro ⟨⟨f, hf, hf'⟩, ⟨g, hg, hg'⟩, -⟩
      cases hf; cases hg
      exact hp ⟨(ok _).1 hf'.1, (ok _).1 hg'.1⟩
  obtain ⟨p1, p2⟩ := hp
  have b1 := hc.src_buffers p1
  have b2 := hc.dst_buffers p2
  have n1 := planes_min p1
  have n2 := planes_min p2
  have m1 : c.src_format.num_planes.toNat ≤ 4 := by rw [← n1]; exact Nat.min_le_right ..
  have m2 : c.dst_format.num_planes.toNat ≤ 4 := by rw [← n2]; exact Nat.min_le_right ..
  have im : 4 ≤ t.imax := by
    have : 2 ^ 7 ≤ 2 ^ (t.bits - 1) := Nat.pow_le_pow_right (by omega) (by have := hc.bits; omega)
    unfold Target.imax; omega
  -- the call the C function makes
  have same := fun r (h : ∀ ss sb ds dl, convert_image_with t impls tb c.width c.height
      c.src_format ss sb c.dst_format ds dl = pure r) => by
    have h1 : convert t impls cpu c = .ok (r, c.dst_buffers) := by
      rw [e]; exact convert_of_pure (h _ _ _ _)
    have h2 := dcp_convert_eq (t := t) (impls := impls) (cpu := cpu) (world := world) (c := c)
      (error := error) p1 p2 b1 b2 (by rw [e]; exact convert_of_pure (h _ _ _ _))
    rw [(after_same b2).1, (after_same b2).2] at h2
    exact (⟨r, _, _, h1, h2, rfl, rfl, by
      show c.dst_buffers.take _ ++ c.dst_buffers.drop (c.dst_buffers.take _).length = _
      rw [List.length_take, Nat.min_eq_left b2, List.take_append_drop], by
      rintro p ⟨⟩; rfl⟩ : ∃ r out o, convert t impls cpu c = .ok (r, out) ∧
      dcp_convert_image t impls cpu world (cCall c error) = .ok o ∧
      o.res = cResult r ∧ o.error = cError error r ∧ planesAfter c.dst_buffers o = out ∧
      ∀ p, o.planes = some p → p.2 = world.dst_planes.take (4 - c.dst_format.num_planes.toNat))
  by_cases hl : Spec.LegalCall c
  swap
  · have hl' : ¬ Spec.Legal c.src_format c.width c.height ∨
        ¬ Spec.Legal c.dst_format c.width c.height := by
      by_cases h1 : Spec.Legal c.src_format c.width c.height
      · exact .inr fun h2 => hl ⟨h1, h2⟩
      · exact .inl h1
    exact same _ fun _ _ _ _ => convert_invalid hl'
  by_cases hs : Spec.Supported c.src_format.pixel_format c.dst_format.pixel_format
  swap
  · exact same _ fun _ _ _ _ => convert_unsupported hT hl.1 hl.2 hs
  by_cases he : c.width = 0 ∨ c.height = 0
  · refine same (.ok ()) fun ss sb ds dl => ?_
    obtain ⟨r, -, -, e1⟩ := convert_supported (t := t) (impls := impls) (ss := ss)
      (sb := sb) (ds := ds) (dl := dl) hT hl.1 hl.2 hs
    rw [e1, exec_empty r he, pure_bind]
    rfl
  -- a conversion that takes place
  have hw : c.width ≠ 0 := fun h => he (.inl h)
  have hh : c.height ≠ 0 := fun h => he (.inr h)
  obtain ⟨f1, f2⟩ := hc.fits hl hs hw hh
  have hv : Spec.Valid t c := ⟨hc.bits, hl.1, hl.2, hs, hw, hh, f1, f2, hc.real.1,
    hc.real.2⟩
  have hv' : Spec.Valid t { c with
      src_buffers := c.src_buffers.map (inflate t), dst_buffers := c.dst_buffers.map (inflate t) } :=
    ⟨hv.bits, hl.1, hl.2, hs, hw, hh, fits_inflate f1 hc.real.1, fits_inflate f2 hc.real.2,
      real_inflate _ _, real_inflate _ _⟩
  have hne : 0 < c.src_buffers.length := by
    have : 1 ≤ c.src_format.num_planes.toNat := by
      revert p1; cases c.src_format.pixel_format <;> simp only [Spec.PlanesOk] <;> omega
    omega
  have hb0 : (bufAt (c.src_buffers.map (inflate t)) 0).len = t.imax := by
    have := buf_at (bufs := c.src_buffers.map (inflate t)) (i := 0) (by simpa using hne)
    rw [List.getElem?_map, List.getElem?_eq_getElem hne] at this
    rw [← Option.some.inj this]
    rfl
  have hle : (bufAt c.src_buffers 0).len ≤ t.imax := hc.real.1 _ (buf_mem hne)
  have h1 := convert_sem hI hv fun h => hroom hne h _ (Nat.le_refl _)
  obtain ⟨ws, h2, h3⟩ := run_emits hT hI hv' fun h => hroom hne h _ (by rw [hb0]; exact hle)
  simp only [resultPlanes_inflate] at h3
  have hag := convert_image_with_agree (t := t) (impls := impls) hT (w := c.width) (h := c.height)
    (sf := c.src_format) (df := c.dst_format)
    (unbounded_agree (t := t) (behind := world.src_strides) (by omega) m1 (hc.src_strides p1))
    (by
      have := append_agree (l := c.src_buffers.map (inflate t)) (n := c.src_format.num_planes.toNat)
        (more := world.src_planes.take (4 - c.src_format.num_planes.toNat)) (by simpa using b1)
      rwa [← List.map_take] at this)
    (unbounded_agree (t := t) (behind := world.dst_strides) (by omega) m2 (hc.dst_strides p2))
    (slices_agree (t := t) (more := world.dst_planes.take (4 - c.dst_format.num_planes.toNat)) b2)
  have hdim : ∀ i, c.dst_format.num_planes.toNat ≤ i →
      (Spec.dims c.dst_format.pixel_format c.dst_format.num_planes.toNat c.width.toNat
        c.height.toNat)[i]? = none := by
    intro i hi
    rw [List.getElem?_eq_none_iff]
    revert p2
    cases c.dst_format.pixel_format <;> simp only [Spec.PlanesOk, Spec.dims] <;>
      (try split) <;> intro p2 <;> simp <;> omega
  have h4 : convert t impls cpu ⟨c.width, c.height, c.src_format,
      c.src_strides.map fun l => unbounded t l world.src_strides,
      (c.src_buffers.take c.src_format.num_planes.toNat).map (inflate t) ++ world.src_planes.take
        (PixFmt.MAX_NUMBER_OF_PLANES - c.src_format.num_planes.toNat),
      c.dst_format, c.dst_strides.map fun l => unbounded t l world.dst_strides,
      (c.dst_buffers.take c.dst_format.num_planes.toNat).map (inflate t) ++ world.dst_planes.take
        (PixFmt.MAX_NUMBER_OF_PLANES - c.dst_format.num_planes.toNat)⟩ =
      .ok (.ok (), Spec.painted c.dst_format c.width c.height c.dst_strides
        (S.resultPlanes c.width c.height c.src_format c.src_strides c.src_buffers c.dst_format)
        ((c.dst_buffers.take c.dst_format.num_planes.toNat).map (inflate t) ++
          world.dst_planes.take (4 - c.dst_format.num_planes.toNat))) := by
    rw [e, convert_image]
    simp only
    rw [show PixFmt.MAX_NUMBER_OF_PLANES = 4 from rfl, hag, h2]
    simp only
    rw [withMem_painted ?_ h3]
    intro i b rc hb hd
    have hi : i < c.dst_format.num_planes.toNat := by
      rcases Nat.lt_or_ge i c.dst_format.num_planes.toNat with h | h
      · exact h
      · rw [hdim i h] at hd; cases hd
    exact (f2.plane i _ rc (buf_at (by omega)) hd).row_le
  refine ⟨_, _, _, h1, dcp_convert_eq p1 p2 b1 b2 h4, rfl, rfl, ?_, ?_⟩
  · have := (after_painted (t := t) (junk := world.dst_planes.take
      (4 - c.dst_format.num_planes.toNat)) (ds := c.dst_strides) (planes := S.resultPlanes c.width
      c.height c.src_format c.src_strides c.src_buffers c.dst_format) b2 hdim).1
    rw [← this]
    show _ ++ c.dst_buffers.drop _ = _
    congr 2
    unfold Spec.painted
    simp; omega
  · rintro p ⟨⟩
    exact (after_painted (t := t) b2 hdim).2

/-- The C interface relies on nothing more than `Spec.Valid` provides. -/
theorem cRelies_of_valid {t : Target} {c : Call} (hb : 32 ≤ t.bits) (hv : Spec.Valid t c) :
    Spec.CRelies t c :=
  ⟨hb, fun _ => hv.src_fits.strides_len, fun _ => hv.src_fits.bufs_len,
    fun _ => hv.dst_fits.strides_len, fun _ => hv.dst_fits.bufs_len, ⟨hv.src_real, hv.dst_real⟩,
    fun _ _ _ _ => ⟨hv.src_fits, hv.dst_fits⟩⟩

/-- C58: for every call whose arrays are as a C function has to assume, `dcp_convert_image` gives the
answer of `convert_image`, stores its error kind in the error slot (if there is one), and leaves the
destination planes as `convert_image` does, byte for byte, including the memory behind the planes;
uninitialised array elements are not written. This holds on every processor; `VectorRoom` is the room
the vector loads need behind a Bgr image. The result does not depend on what lies behind the
caller's arrays (`world` is arbitrary). -/
theorem C58_convert {t : Target} {cpu : Cpu} (world : World) {c : Call} (error : Option ErrorKind)
    (hc : Spec.CRelies t c) (hm : Spec.VectorRoom cpu.set c) :
    ∃ r out o, convert t crate cpu c = .ok (r, out) ∧
      dcp_convert_image t crate cpu world (cCall c error) = .ok o ∧
      o.res = cResult r ∧ o.error = cError error r ∧ planesAfter c.dst_buffers o = out ∧
      ∀ p, o.planes = some p → p.2 = world.dst_planes.take (4 - c.dst_format.num_planes.toNat) := by
  refine c_convert (crateOk t (by have := hc.bits; omega)
    (byte_fits hc.bits) _) world error hc fun hne hd len hlen => ?_
  have h := room_of_spec hm hne hd
  revert h
  generalize (bufAt c.src_buffers 0).len = l at hlen
  cases cpu.set with
  | x86 => exact id
  | neon => exact id
  | sse2 => exact fun h hs hw => Nat.le_trans (h hs hw) hlen
  | avx2 => exact fun h hs hw => Nat.le_trans (h hs hw) hlen

/-- The hypotheses of `C58_convert` are met by conversions on AVX2 and SSE2. -/
example : Spec.CRelies .x64 exEncode ∧ Spec.VectorRoom avx2Cpu.set exEncode ∧
    Spec.CRelies .x64 exBgr ∧ Spec.VectorRoom sse2Cpu.set exBgr :=
  ⟨cRelies_of_valid (by decide) exEncode_valid, exEncode_room _,
    cRelies_of_valid (by decide) exBgr_valid, exBgr_room _⟩

/-- The hypotheses of `C58_sizes` are met. -/
example : Spec.PlanesOk .i420 3 ∧ Spec.ArraysOk ⟨.i420, .bt601, 3⟩ (some [8, 0, 0, 9]) [1, 2, 3, 4] ∧
    get_buffers_size .x64 4 2 ⟨.i420, .bt601, 3⟩ (some [8, 0, 0]) [1, 2, 3] =
      .ok (.ok (), [16, 2, 2]) := by
  refine ⟨rfl, ⟨?_, by decide⟩, by decide +kernel⟩
  rintro l ⟨⟩
  decide

end Verif
