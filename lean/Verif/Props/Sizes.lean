import Verif.Lemmas.Sizes
import Verif.Lemmas.Check
import Verif.Spec.Sizes
/-!
# C06-C10: `get_buffers_size`
-/

namespace Verif

variable (t : Target) (w h : UInt32) (f : ImageFormat) (strides : Option (List Nat))
  (sizes : List Nat)

theorem room_iff_arrays : Room f strides sizes ↔ Spec.ArraysOk f strides sizes :=
  ⟨fun h => ⟨h.1, h.2⟩, fun h => ⟨h.1, h.2⟩⟩

/-- **C06.** Outcome of `get_buffers_size`: `InvalidValue` exactly for an illegal size or plane
count, `NotEnoughData` exactly for too short arrays, otherwise success or (only if a size does not
fit `usize` and overflow checks are on) an overflow panic. -/
theorem C06_outcome :
    ((∃ out, get_buffers_size t w h f strides sizes = .ok (.error .invalidValue, out)) ↔
      ¬ Spec.Shape f w h) ∧
    ((∃ out, get_buffers_size t w h f strides sizes = .ok (.error .notEnoughData, out)) ↔
      Spec.Shape f w h ∧ ¬ Spec.ArraysOk f strides sizes) ∧
    (∀ out, get_buffers_size t w h f strides sizes ≠ .ok (.error .invalidOperation, out)) := by
  refine ⟨gbs_invalid_iff, ?_, ?_⟩
  · rw [gbs_short_iff, room_iff_arrays]
  · intro out e
    by_cases hs : Spec.Shape f w h
    · by_cases hr : Room f strides sizes
      · cases (gbs_frame hs hr e).1
      · rw [gbs_short hs hr] at e
        cases e
    · rw [gbs_invalid hs] at e
      cases e

example : get_buffers_size .x64 4 2 ⟨.i420, .bt601, 3⟩ none [7, 7] =
      .ok (.error .notEnoughData, [7, 7]) ∧
    get_buffers_size .x64 3 2 ⟨.i420, .bt601, 3⟩ none [7, 7] =
      .ok (.error .invalidValue, [7, 7]) := by decide +kernel

/-- **C06.** Success for legal arguments whenever the strides times the number of lines are small
enough for `usize` (an explicit bound: the sum over the strides fits after multiplication with the
height). -/
theorem C06_success (hb : 32 ≤ t.bits) (hs : Spec.Shape f w h)
    (ha : Spec.ArraysOk f strides sizes)
    (hfit : ((strides.getD []).sum + 4 * w.toNat) * h.toNat < 2 ^ t.bits) :
    ∃ out, get_buffers_size t w h f strides sizes = .ok (.ok (), out) := by
  have hr := (room_iff_arrays f strides sizes).2 ha
  have hle := planes_le hs.planes
  have hl : ∀ i, (strides.getD PixFmt.DEFAULT_STRIDES).getD i 0 = (strides.getD []).getD i 0 := by
    intro i
    cases strides with
    | some l => rfl
    | none =>
      show [0, 0, 0, 0].getD i 0 = [].getD i 0
      rcases i with _ | _ | _ | _ | i <;> rfl
  have ent : ∀ (l : List Nat) i row, entB l i row ≤ l.getD i 0 + row := by
    intro l i row
    unfold entB
    rw [List.getD_eq_getElem?_getD]
    cases l[i]? with
    | none => simp
    | some s => simp only [Option.getD_some]; split <;> omega
  have rB : ∀ i, rowB f.pixel_format i w.toNat ≤ w.toNat := by
    intro i
    cases f.pixel_format <;> simp only [rowB] <;> (repeat' split) <;> omega
  have hB : ∀ i, rowsB f.pixel_format i h.toNat ≤ h.toNat := by
    intro i
    cases f.pixel_format <;> simp only [rowsB] <;> (repeat' split) <;> omega
  have z : ∀ i, sizeB f.pixel_format w.toNat h.toNat (strides.getD PixFmt.DEFAULT_STRIDES) i ≤
      ((strides.getD []).getD i 0 + w.toNat) * h.toNat := by
    intro i
    unfold sizeB
    refine Nat.mul_le_mul ?_ (hB i)
    have := ent (strides.getD PixFmt.DEFAULT_STRIDES) i (rowB f.pixel_format i w.toNat)
    rw [hl] at this
    have := rB i
    omega
  have s4 : ∀ l : List Nat, l.getD 0 0 + l.getD 1 0 + (l.getD 2 0 + l.getD 3 0) ≤ l.sum := by
    intro l
    rcases l with _ | ⟨a, _ | ⟨b, _ | ⟨c, _ | ⟨d, l⟩⟩⟩⟩ <;> simp [List.getD] <;> omega
  have tot : sizeB f.pixel_format w.toNat h.toNat (strides.getD PixFmt.DEFAULT_STRIDES) 0 +
      sizeB f.pixel_format w.toNat h.toNat (strides.getD PixFmt.DEFAULT_STRIDES) 1 +
      (sizeB f.pixel_format w.toNat h.toNat (strides.getD PixFmt.DEFAULT_STRIDES) 2 +
      sizeB f.pixel_format w.toNat h.toNat (strides.getD PixFmt.DEFAULT_STRIDES) 3) <
      2 ^ t.bits := by
    refine Nat.lt_of_le_of_lt ?_ hfit
    have a0 := z 0
    have a1 := z 1
    have a2 := z 2
    have a3 := z 3
    have := Nat.mul_le_mul_right h.toNat (Nat.add_le_add_right (s4 (strides.getD []))
      (4 * w.toNat))
    refine Nat.le_trans ?_ this
    have e : ((strides.getD []).getD 0 0 + (strides.getD []).getD 1 0 +
        ((strides.getD []).getD 2 0 + (strides.getD []).getD 3 0) + 4 * w.toNat) * h.toNat =
        ((strides.getD []).getD 0 0 + w.toNat) * h.toNat +
        ((strides.getD []).getD 1 0 + w.toNat) * h.toNat +
        (((strides.getD []).getD 2 0 + w.toNat) * h.toNat +
        ((strides.getD []).getD 3 0 + w.toNat) * h.toNat) := by
      simp only [← Nat.add_mul]
      congr 1
      omega
    rw [e]
    omega
  rcases (by omega : f.num_planes.toNat = 1 ∨ 1 < f.num_planes.toNat) with hn | hn
  · exact ⟨_, gbs_single hb hs hr hn tot⟩
  · refine ⟨_, gbs_multi hb hs hr hn fun i hi => ?_⟩
    rcases (by omega : i = 0 ∨ i = 1 ∨ i = 2) with e | e | e <;> subst e <;> omega

/-- A 4K Nv12 image in two planes with a stride. -/
example : Spec.Shape ⟨.nv12, .bt709, 2⟩ 3840 2160 ∧
    Spec.ArraysOk ⟨.nv12, .bt709, 2⟩ (some [4096, 0]) [0, 0, 7] ∧
    (((some [4096, 0] : Option (List Nat)).getD []).sum + 4 * 3840) * 2160 < 2 ^ 64 := by
  refine ⟨by decide +kernel, ⟨?_, by decide⟩, by decide⟩
  rintro l ⟨⟩
  decide

/-- **C07.** On failure the output array keeps its value; on success only the entries of the
planes may change and the length stays the same. -/
theorem C07_frame (r : Except ErrorKind Unit) (out : List Nat)
    (e : get_buffers_size t w h f strides sizes = .ok (r, out)) :
    ((∃ k, r = .error k) → out = sizes) ∧ out.length = sizes.length ∧
      (r = .ok () → ∀ j, f.num_planes.toNat ≤ j → out[j]? = sizes[j]?) := by
  by_cases hs : Spec.Shape f w h
  · by_cases hr : Room f strides sizes
    · obtain ⟨h1, h2, h3⟩ := gbs_frame hs hr e
      refine ⟨?_, h2, fun _ => h3⟩
      rintro ⟨k, rfl⟩
      cases h1
    · rw [gbs_short hs hr] at e
      cases e
      exact ⟨fun _ => rfl, rfl, fun hh => nomatch hh⟩
  · rw [gbs_invalid hs] at e
    cases e
    exact ⟨fun _ => rfl, rfl, fun hh => nomatch hh⟩

example : get_buffers_size .x64 4 2 ⟨.i420, .bt601, 3⟩ none [9, 9, 9, 9] =
    .ok (.ok (), [8, 2, 2, 9]) := by decide +kernel
example : get_buffers_size .x64 4 3 ⟨.i420, .bt601, 3⟩ none [9, 9, 9, 9] =
    .ok (.error .invalidValue, [9, 9, 9, 9]) := by decide +kernel

theorem overwrite_one {a : Nat} {sizes : List Nat} (h1 : 1 ≤ sizes.length) :
    sizes.set 0 a = Spec.overwrite [a] sizes := by
  rcases sizes with _ | ⟨b, l⟩
  · cases h1
  · rfl

theorem overwrite_two {g : Nat → Nat} {sizes : List Nat} (h1 : 2 ≤ sizes.length) :
    setAll g 0 2 sizes = Spec.overwrite [g 0, g 1] sizes := by
  rcases sizes with _ | ⟨b, _ | ⟨c, l⟩⟩
  · simp at h1
  · simp at h1
  · rfl

theorem overwrite_three {g : Nat → Nat} {sizes : List Nat} (h1 : 3 ≤ sizes.length) :
    setAll g 0 3 sizes = Spec.overwrite [g 0, g 1, g 2] sizes := by
  rcases sizes with _ | ⟨b, _ | ⟨c, _ | ⟨d, l⟩⟩⟩
  · simp at h1
  · simp at h1
  · simp at h1
  · rfl

/-- **C08.** With default strides the reported sizes are those of the tightly packed image,
provided that their sum is representable in `usize`. (Missing for the full claim: it is *not* true
that the computation never overflows on 64-bit targets, see `C08_overflow`.) -/
theorem C08_packed_sizes_partial (hb : 32 ≤ t.bits) (hs : Spec.Shape f w h)
    (hlen : f.num_planes.toNat ≤ sizes.length)
    (hfit : (Spec.packedSizes f.pixel_format f.num_planes.toNat w.toNat h.toNat).sum <
      2 ^ t.bits) :
    get_buffers_size t w h f none sizes =
      .ok (.ok (), Spec.overwrite
        (Spec.packedSizes f.pixel_format f.num_planes.toNat w.toNat h.toNat) sizes) := by
  have hr : Room f none sizes := ⟨fun l e => (nomatch e), hlen⟩
  have hsz := hs.size
  have hpl := hs.planes
  have single := gbs_single (t := t) (strides := none) hb hs hr
  have multi := gbs_multi (t := t) (strides := none) hb hs hr
  rcases f with ⟨pf, cs, n⟩
  simp only at *
  have ent : ∀ i row, i < 4 → entB (Option.getD none PixFmt.DEFAULT_STRIDES) i row = row := by
    intro i row hi
    rcases (by omega : i = 0 ∨ i = 1 ∨ i = 2 ∨ i = 3) with e | e | e | e <;> subst e <;> rfl
  have z : ∀ i, i < 4 → sizeB pf w.toNat h.toNat (Option.getD none PixFmt.DEFAULT_STRIDES) i =
      rowB pf i w.toNat * rowsB pf i h.toNat := by
    intro i hi
    rw [sizeB, ent _ _ hi]
  rw [z 0 (by omega), z 1 (by omega), z 2 (by omega), z 3 (by omega)] at single
  have mulhalf : w.toNat % 2 = 0 → w.toNat / 2 * h.toNat = w.toNat * h.toNat / 2 := by
    intro he
    obtain ⟨a, ha⟩ : ∃ a, w.toNat = 2 * a := ⟨w.toNat / 2, by omega⟩
    rw [ha, Nat.mul_div_cancel_left _ (by omega), Nat.mul_assoc,
      Nat.mul_div_cancel_left _ (by omega)]
  have mulhalf' : h.toNat % 2 = 0 → w.toNat * (h.toNat / 2) = w.toNat * h.toNat / 2 := by
    intro he
    obtain ⟨a, ha⟩ : ∃ a, h.toNat = 2 * a := ⟨h.toNat / 2, by omega⟩
    rw [ha, Nat.mul_div_cancel_left _ (by omega), Nat.mul_left_comm,
      Nat.mul_div_cancel_left _ (by omega)]
  have mulquart : w.toNat % 2 = 0 → h.toNat % 2 = 0 →
      w.toNat / 2 * (h.toNat / 2) = w.toNat * h.toNat / 4 := by
    intro he he'
    obtain ⟨a, ha⟩ : ∃ a, w.toNat = 2 * a := ⟨w.toNat / 2, by omega⟩
    obtain ⟨b, hb⟩ : ∃ b, h.toNat = 2 * b := ⟨h.toNat / 2, by omega⟩
    rw [ha, hb, Nat.mul_div_cancel_left _ (by omega), Nat.mul_div_cancel_left _ (by omega),
      show 2 * a * (2 * b) = 4 * (a * b) by rw [Nat.mul_mul_mul_comm],
      Nat.mul_div_cancel_left _ (by omega)]
  have four : w.toNat * h.toNat + w.toNat * h.toNat + (w.toNat * h.toNat + w.toNat * h.toNat) =
      4 * w.toNat * h.toNat := by rw [Nat.mul_assoc]; omega
  have three : w.toNat * h.toNat + w.toNat * h.toNat + (w.toNat * h.toNat + 0 * h.toNat) =
      3 * w.toNat * h.toNat := by rw [Nat.mul_assoc]; omega
  cases pf
  case argb | bgra | rgba =>
    have hn : n.toNat = 1 := hpl
    rw [hn] at hlen
    simp only [rowB, rowsB, Spec.packedSizes, List.sum_cons, List.sum_nil, Nat.add_zero] at *
    rw [four] at single
    rw [single hn hfit, overwrite_one hlen]
  case bgr | rgb =>
    have hn : n.toNat = 1 := hpl
    rw [hn] at hlen
    simp only [rowB, rowsB, Spec.packedSizes, List.sum_cons, List.sum_nil, Nat.add_zero] at *
    simp only [Nat.reduceLT, if_true, if_false, Nat.lt_irrefl] at single
    rw [three] at single
    rw [single hn hfit, overwrite_one hlen]
  case i444 =>
    have hn : n.toNat = 3 := hpl
    rw [hn] at multi hlen
    simp only [Spec.packedSizes, List.sum_cons, List.sum_nil] at *
    rw [multi (by omega) ?_, overwrite_three hlen, z 0 (by omega), z 1 (by omega), z 2 (by omega)]
    · rfl
    · intro i hi
      rw [z i (by omega)]
      rcases (by omega : i = 0 ∨ i = 1 ∨ i = 2) with e | e | e <;> subst e <;>
        simp only [rowB, rowsB] <;> simp only [Nat.reduceLT, if_true] <;> omega
  case i422 =>
    have hn : n.toNat = 3 := hpl
    rw [hn] at multi hlen
    simp only [Spec.packedSizes, List.sum_cons, List.sum_nil] at *
    have m := mulhalf hsz
    rw [multi (by omega) ?_, overwrite_three hlen, z 0 (by omega), z 1 (by omega), z 2 (by omega)]
    · show Except.ok (_, Spec.overwrite [w.toNat * h.toNat, w.toNat / 2 * h.toNat,
        w.toNat / 2 * h.toNat] sizes) = _
      rw [m]
    · intro i hi
      rw [z i (by omega)]
      rcases (by omega : i = 0 ∨ i = 1 ∨ i = 2) with e | e | e <;> subst e <;>
        simp only [rowB, rowsB] <;> simp only [Nat.reduceLT, Nat.reduceEqDiff, if_true, if_false] <;>
        omega
  case i420 =>
    have hn : n.toNat = 3 := hpl
    rw [hn] at multi hlen
    simp only [Spec.packedSizes, List.sum_cons, List.sum_nil] at *
    have m := mulquart hsz.1 hsz.2
    rw [multi (by omega) ?_, overwrite_three hlen, z 0 (by omega), z 1 (by omega), z 2 (by omega)]
    · show Except.ok (_, Spec.overwrite [w.toNat * h.toNat, w.toNat / 2 * (h.toNat / 2),
        w.toNat / 2 * (h.toNat / 2)] sizes) = _
      rw [m]
    · intro i hi
      rw [z i (by omega)]
      rcases (by omega : i = 0 ∨ i = 1 ∨ i = 2) with e | e | e <;> subst e <;>
        simp only [rowB, rowsB] <;>
        simp only [Nat.reduceLT, Nat.reduceEqDiff, if_true, if_false, true_or, or_true, or_self] <;>
        omega
  case nv12 =>
    have m := mulhalf' hsz.2
    rcases hpl with hn | hn
    · rw [hn] at hlen hfit ⊢
      simp only [Spec.packedSizes, List.sum_cons, List.sum_nil] at *
      have e : rowB .nv12 0 w.toNat * rowsB .nv12 0 h.toNat +
          rowB .nv12 1 w.toNat * rowsB .nv12 1 h.toNat +
          (rowB .nv12 2 w.toNat * rowsB .nv12 2 h.toNat +
          rowB .nv12 3 w.toNat * rowsB .nv12 3 h.toNat) = w.toNat * h.toNat +
          w.toNat * h.toNat / 2 := by
        show w.toNat * h.toNat + w.toNat * (h.toNat / 2) + (0 * h.toNat + 0 * h.toNat) = _
        rw [m]; omega
      rw [e] at single
      rw [single hn hfit, overwrite_one hlen]
    · rw [hn] at multi hlen hfit ⊢
      simp only [Spec.packedSizes, List.sum_cons, List.sum_nil] at *
      rw [multi (by omega) ?_, overwrite_two hlen, z 0 (by omega), z 1 (by omega)]
      · show Except.ok (_, Spec.overwrite [w.toNat * h.toNat, w.toNat * (h.toNat / 2)] sizes) = _
        rw [m]
      · intro i hi
        rw [z i (by omega)]
        rcases (by omega : i = 0 ∨ i = 1) with e | e <;> subst e <;>
          simp only [rowB, rowsB] <;>
          simp only [Nat.reduceLT, Nat.reduceEqDiff, if_true, if_false] <;> omega

example : get_buffers_size .x64 4 2 ⟨.i420, .bt601, 3⟩ none [7, 7, 7, 7] =
    .ok (.ok (), [8, 2, 2, 7]) := by decide +kernel

/-- On a 64-bit target the sum always fits for images of fewer than 2^30 pixels per line. -/
theorem C08_packed_sizes_64 (hbits : t.bits = 64) (hs : Spec.Shape f w h)
    (hlen : f.num_planes.toNat ≤ sizes.length) (hw : w.toNat < 2 ^ 30) :
    get_buffers_size t w h f none sizes =
      .ok (.ok (), Spec.overwrite
        (Spec.packedSizes f.pixel_format f.num_planes.toNat w.toNat h.toNat) sizes) := by
  refine C08_packed_sizes_partial t w h f sizes (by omega) hs hlen ?_
  rw [hbits]
  have hh := h.toNat_lt
  have hb : w.toNat * h.toNat < 2 ^ 62 := by
    calc w.toNat * h.toNat ≤ w.toNat * 2 ^ 32 := Nat.mul_le_mul_left _ (by omega)
      _ < 2 ^ 30 * 2 ^ 32 := Nat.mul_lt_mul_of_pos_right hw (by decide)
      _ = 2 ^ 62 := by decide
  have e4 : 4 * w.toNat * h.toNat = 4 * (w.toNat * h.toNat) := Nat.mul_assoc ..
  have e3 : 3 * w.toNat * h.toNat = 3 * (w.toNat * h.toNat) := Nat.mul_assoc ..
  rcases planes_le hs.planes with ⟨n1, n3⟩
  rcases (by omega : f.num_planes.toNat = 1 ∨ f.num_planes.toNat = 2 ∨ f.num_planes.toNat = 3)
    with hn | hn | hn <;> rw [hn] <;> cases f.pixel_format <;>
    simp only [Spec.packedSizes, List.sum_cons, List.sum_nil] <;> omega

example : Spec.Shape ⟨.i422, .bt601, 3⟩ 6 5 ∧ (Spec.packedSizes .i422 3 6 5) = [30, 15, 15] := by
  decide +kernel

/-- **C08 is false as stated**: on a 64-bit target the size of a 2^31 x 2^31 Argb image (2^64 bytes)
panics with overflow checks, and is reported as 0 bytes without. -/
theorem C08_overflow :
    get_buffers_size .x64 2147483648 2147483648 ⟨.argb, .rgb, 1⟩ none [7] = .error .overflow ∧
    get_buffers_size .x64r 2147483648 2147483648 ⟨.argb, .rgb, 1⟩ none [7] = .ok (.ok (), [0]) := by
  decide +kernel

/-- **C09.** Images in several planes: every size is the stride (or the packed line) times the
number of lines of the plane. -/
theorem C09_custom_strides (hb : 32 ≤ t.bits) (hs : Spec.Shape f w h)
    (ha : Spec.ArraysOk f strides sizes) (hn : 1 < f.num_planes.toNat)
    (hfit : ∀ i rc, (Spec.dims f.pixel_format f.num_planes.toNat w.toNat h.toNat)[i]? = some rc →
      Spec.strideOf strides i rc.1 * rc.2 < 2 ^ t.bits) :
    ∃ out, get_buffers_size t w h f strides sizes = .ok (.ok (), out) ∧
      ∀ i rc, (Spec.dims f.pixel_format f.num_planes.toNat w.toNat h.toNat)[i]? = some rc →
        out[i]? = some (Spec.strideOf strides i rc.1 * rc.2) := by
  have hr := (room_iff_arrays f strides sizes).2 ha
  have ent : ∀ i row, i < 4 → entB (strides.getD PixFmt.DEFAULT_STRIDES) i row =
      Spec.strideOf strides i row := by
    intro i row hi
    cases strides with
    | none =>
      rcases (by omega : i = 0 ∨ i = 1 ∨ i = 2 ∨ i = 3) with e | e | e | e <;> subst e <;> rfl
    | some l =>
      simp only [Option.getD_some, entB, Spec.strideOf, List.getD_eq_getElem?_getD]
      cases l[i]? with
      | none => rfl
      | some s => rfl
  have key : ∀ i, i < f.num_planes.toNat → ∃ rc,
      (Spec.dims f.pixel_format f.num_planes.toNat w.toNat h.toNat)[i]? = some rc ∧
      sizeB f.pixel_format w.toNat h.toNat (strides.getD PixFmt.DEFAULT_STRIDES) i =
        Spec.strideOf strides i rc.1 * rc.2 := by
    intro i hi
    have hle := planes_le hs.planes
    have hpl := hs.planes
    unfold sizeB
    rw [ent i _ (by omega)]
    cases hpf : f.pixel_format <;> rw [hpf] at hpl <;> simp only [Spec.PlanesOk] at hpl
    case argb | bgra | bgr | rgba | rgb => omega
    case i444 | i422 | i420 =>
      rcases (by omega : i = 0 ∨ i = 1 ∨ i = 2) with e | e | e <;> subst e <;> exact ⟨_, rfl, rfl⟩
    case nv12 =>
      have hn2 : f.num_planes.toNat = 2 := by omega
      rw [hn2]
      rcases (by omega : i = 0 ∨ i = 1) with e | e <;> subst e <;> exact ⟨_, rfl, rfl⟩
  refine ⟨_, gbs_multi hb hs hr hn ?_, ?_⟩
  · intro i hi
    obtain ⟨rc, h1, h2⟩ := key i hi
    rw [h2]
    exact hfit i rc h1
  · intro i rc hrc
    have hi : i < f.num_planes.toNat := by
      have h1 := (List.getElem?_eq_some_iff.1 hrc).1
      have hpl := hs.planes
      cases hpf : f.pixel_format <;> rw [hpf] at hpl h1 <;> simp only [Spec.PlanesOk] at hpl <;>
        simp only [Spec.dims, List.length_cons, List.length_nil] at h1
      case nv12 =>
        have hn2 : f.num_planes.toNat = 2 := by omega
        rw [hn2] at h1 ⊢
        exact h1
      all_goals omega
    obtain ⟨rc', h1, h2⟩ := key i hi
    rw [hrc] at h1
    cases h1
    rw [setAll_get, if_pos ⟨by omega, by omega, by have := ha.2; omega⟩, h2]

example : get_buffers_size .x64 4 2 ⟨.i420, .bt601, 3⟩ (some [10, 0, 7]) [0, 0, 0] =
    .ok (.ok (), [20, 2, 7]) := by decide +kernel

/-- **C10 is false**: for a 2x2 Bgra image with a stride of 16 bytes (32 bytes of memory) 44 bytes
are reported; for a 4x4 Nv12 image in one buffer with a stride of 10 (60 bytes) 48 bytes are
reported. -/
theorem C10_counterexample :
    get_buffers_size .x64 2 2 ⟨.bgra, .rgb, 1⟩ (some [16]) [0] = .ok (.ok (), [44]) ∧
    get_buffers_size .x64 4 4 ⟨.nv12, .bt601, 1⟩ (some [10]) [0] = .ok (.ok (), [48]) := by
  decide +kernel

/-- What is reported for an image in a single buffer with one custom stride `S`: the remaining
pseudo planes are added with their packed size. -/
theorem C10_single_buffer_partial (hb : 32 ≤ t.bits) (hs : Spec.Shape f w h)
    (hlen : 1 ≤ sizes.length) (S : Nat) (hS : S ≠ 0) (hn : f.num_planes.toNat = 1)
    (hfit : S * h.toNat + 3 * (w.toNat * h.toNat) < 2 ^ t.bits) :
    ∃ extra, get_buffers_size t w h f (some [S]) sizes =
        .ok (.ok (), Spec.overwrite [S * h.toNat + extra] sizes) ∧
      extra = match f.pixel_format with
        | .argb | .bgra | .rgba => 3 * (w.toNat * h.toNat)
        | .nv12 => w.toNat * (h.toNat / 2)
        | _ => 2 * (w.toNat * h.toNat) := by
  have hr : Room f (some [S]) sizes := ⟨fun l e => by cases e; rw [hn]; exact Nat.le_refl 1, by omega⟩
  have hpl := hs.planes
  have single := gbs_single (t := t) (strides := some [S]) hb hs hr hn
  rcases f with ⟨pf, cs, n⟩
  simp only at *
  have e0 : ∀ row, entB [S] 0 row = S := fun row => if_neg hS
  have e1 : ∀ row, entB [S] 1 row = row := fun row => rfl
  have e2 : ∀ row, entB [S] 2 row = row := fun row => rfl
  have e3 : ∀ row, entB [S] 3 row = row := fun row => rfl
  simp only [Option.getD_some, sizeB, e0, e1, e2, e3] at single
  have hhalf : w.toNat * (h.toNat / 2) ≤ w.toNat * h.toNat := Nat.mul_le_mul_left _ (by omega)
  cases pf <;> simp only [Spec.PlanesOk] at hpl
  case argb | bgra | rgba =>
    simp only [rowB, rowsB] at single
    refine ⟨_, ?_, rfl⟩
    rw [single (by omega), overwrite_one hlen]
    congr 4
    simp only
    omega
  case bgr | rgb =>
    simp only [rowB, rowsB, Nat.reduceLT, if_true, if_false, Nat.lt_irrefl] at single
    refine ⟨_, ?_, rfl⟩
    rw [single (by omega), overwrite_one hlen]
    congr 4
    simp only
    omega
  case nv12 =>
    have single' : S * h.toNat + w.toNat * (h.toNat / 2) + (0 * h.toNat + 0 * h.toNat) <
        2 ^ t.bits → get_buffers_size t w h ⟨.nv12, cs, n⟩ (some [S]) sizes =
        .ok (.ok (), sizes.set 0 (S * h.toNat + w.toNat * (h.toNat / 2) +
          (0 * h.toNat + 0 * h.toNat))) := single
    refine ⟨_, ?_, rfl⟩
    rw [single' (by omega), overwrite_one hlen]
    simp only [Nat.zero_mul, Nat.add_zero]
  all_goals omega

example : Spec.Shape ⟨.nv12, .bt601, 1⟩ 4 4 ∧ 10 * 4 + 3 * (4 * 4) < 2 ^ 64 := by decide +kernel

end Verif
