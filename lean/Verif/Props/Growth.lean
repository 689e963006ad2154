import Verif.Props.Verdict
/-!
# C86: longer buffers never turn a success into a failure
-/

namespace Verif

open Spec (verdict verdictOf)

/-- Every buffer has a counterpart that is at least as long; there may be further ones. -/
def Spec.Longer (a b : List Buf) : Prop :=
  ∀ (i : Nat) (x : Buf), a[i]? = some x → ∃ y, b[i]? = some y ∧ x.len ≤ y.len

/-- `c'` is the call `c` with buffers at least as long, of any contents. -/
structure Spec.LongerCall (c c' : Call) : Prop where
  width : c'.width = c.width
  height : c'.height = c.height
  src_format : c'.src_format = c.src_format
  dst_format : c'.dst_format = c.dst_format
  src_strides : c'.src_strides = c.src_strides
  dst_strides : c'.dst_strides = c.dst_strides
  src_longer : Spec.Longer c.src_buffers c'.src_buffers
  dst_longer : Spec.Longer c.dst_buffers c'.dst_buffers

namespace Spec

variable {f : ImageFormat} {w h : UInt32} {s : Option (List Nat)} {a b : List Buf}

theorem Longer.length (hl : Longer a b) : a.length ≤ b.length := by
  rcases Nat.eq_zero_or_pos a.length with h | h
  · omega
  · obtain ⟨y, hy, -⟩ := hl (a.length - 1) _ (List.getElem?_eq_getElem (by omega))
    have := (List.getElem?_eq_some_iff.1 hy).1
    omega

/-- A condition on the planes of an image that longer buffers meet too. -/
theorem Longer.planes (hl : Longer a b) {ds : List (Nat × Nat)} {P : Nat → Nat → Nat × Nat → Prop}
    (hd : ds.length ≤ a.length) (mono : ∀ i n m rc, n ≤ m → P i n rc → P i m rc)
    (h1 : ∀ (i : Nat) (x : Buf) (rc : Nat × Nat), a[i]? = some x → ds[i]? = some rc → P i x.len rc) :
    ∀ (i : Nat) (x : Buf) (rc : Nat × Nat), b[i]? = some x → ds[i]? = some rc → P i x.len rc := by
  intro i x rc hx hr
  have hi := (List.getElem?_eq_some_iff.1 hr).1
  have ha := List.getElem?_eq_getElem (by omega : i < a.length)
  obtain ⟨y, hy, hle⟩ := hl i _ ha
  rw [hx] at hy
  cases hy
  exact mono i _ _ rc hle (h1 i _ rc ha hr)

end Spec

theorem dims_planes {f : ImageFormat} {w h : UInt32} (hl : Spec.Legal f w h)
    (h422 : f.pixel_format ≠ .i422) :
    (Spec.dims f.pixel_format f.num_planes.toNat w.toNat h.toNat).length ≤ f.num_planes.toNat := by
  have hp := hl.planes
  revert hp h422
  cases f.pixel_format <;> simp only [Spec.PlanesOk, Spec.dims, List.length_cons, List.length_nil] <;>
    (try split) <;> simp <;> omega

section
variable {t : Target} {set : InstructionSet} {f : ImageFormat} {w h : UInt32}
  {s : Option (List Nat)} {a b : List Buf}

theorem lines_longer (hl : Spec.Longer a b) (hg : Spec.Legal f w h) (hf : f.pixel_format ≠ .i422)
    (hb : f.num_planes.toNat ≤ a.length) {e : Nat → Nat}
    (h1 : Spec.LinesInside f w h s a e) : Spec.LinesInside f w h s b e :=
  hl.planes (P := fun i n rc => Spec.strideOf s i rc.1 * (rc.2 - 1) + e rc.1 ≤ n)
    (Nat.le_trans (dims_planes hg hf) hb) (fun _ _ _ _ h1 h2 => Nat.le_trans h2 h1) h1

theorem accepts_longer (hl : Spec.Longer a b) (hg : Spec.Legal f w h) (hf : f.pixel_format ≠ .i422)
    {px : Bool} (h1 : Spec.AcceptsImage px f w h s a) : Spec.AcceptsImage px f w h s b where
  strides_len := h1.strides_len
  bufs_len := Nat.le_trans h1.bufs_len hl.length
  plane := fun hc => hl.planes (P := fun i n rc => Spec.strideOf s i rc.1 +
      (if px then w.toNat else rc.1) * (rc.2 - 1) ≤ n)
    (Nat.le_trans (dims_planes hg hf) h1.bufs_len) (fun _ _ _ _ h1 h2 => Nat.le_trans h2 h1)
    (h1.plane hc)
  single := fun h2 h3 x hx => by
    have hb := h1.bufs_len
    have ha := List.getElem?_eq_getElem (by omega : 0 < a.length)
    obtain ⟨y, hy, hle⟩ := hl 0 _ ha
    rw [hx] at hy
    cases hy
    have := h1.single h2 h3 _ ha
    exact ⟨this.1, Nat.le_trans this.2 hle⟩

theorem wrapped_longer (hl : Spec.Longer a b) (hg : Spec.Legal f w h) (hf : f.pixel_format ≠ .i422)
    (hb : f.num_planes.toNat ≤ a.length) {px : Bool} (h1 : Spec.WrappedImage t px f w h s a) :
    Spec.WrappedImage t px f w h s b := by
  have hpl := planes_le hg.planes
  unfold Spec.WrappedImage at *
  split
  · rename_i hc
    rw [if_pos hc] at h1
    intro x hx
    have ha := List.getElem?_eq_getElem (by omega : 0 < a.length)
    obtain ⟨y, hy, hle⟩ := hl 0 _ ha
    rw [hx] at hy
    cases hy
    have := h1 _ ha
    exact ⟨Nat.le_trans this.1 hle, this.2.1, Nat.le_trans this.2.2 (by omega)⟩
  · rename_i hc
    rw [if_neg hc] at h1
    split
    · rename_i hr
      rw [if_pos hr] at h1
      intro x hx
      have ha := List.getElem?_eq_getElem (by omega : 0 < a.length)
      obtain ⟨y, hy, hle⟩ := hl 0 _ ha
      rw [hx] at hy
      cases hy
      exact Nat.le_trans (h1 _ ha) hle
    · rename_i hr
      rw [if_neg hr] at h1
      exact accepts_longer hl hg hf h1

end

theorem verdict_done {t : Target} {set : InstructionSet} {c : Call} :
    verdict t set c = .done ↔ (Spec.Legal c.src_format c.width c.height ∧
        Spec.Legal c.dst_format c.width c.height) ∧
      Spec.Supported c.src_format.pixel_format c.dst_format.pixel_format ∧
      (c.width = 0 ∨ c.height = 0 ∨
        (Spec.Supplied c.src_format c.src_strides c.src_buffers ∧
          Spec.Supplied c.dst_format c.dst_strides c.dst_buffers) ∧
        (Spec.SizesFit t c.src_format c.width c.height c.src_strides ∧
          Spec.SizesFit t c.dst_format c.width c.height c.dst_strides) ∧ Spec.Accepts c ∧
        ¬ (t.checked ∧ (Spec.PartOverflow set c ∨ Spec.OffsetOverflow t set c)) ∧
        Spec.InBounds set c ∧ Spec.SurplusInside t set c) := by
  unfold verdict
  split_ifs <;> simp only [false_iff, true_iff] <;> tauto

theorem LongerCall.done {t : Target} {set : InstructionSet} {c c' : Call}
    (h : Spec.LongerCall c c') (hd : verdict t set c = .done)
    (hp : t.checked = true → c.width ≠ 0 → c.height ≠ 0 → Spec.PartsFit set c) :
    verdict t set c' = .done := by
  obtain ⟨w, hh, sf, ss, sb, df, ds, db⟩ := c
  obtain ⟨w', hh', sf', ss', sb', df', ds', db'⟩ := c'
  obtain ⟨h1, h2, h3, h4, h5, h6, h7, h8⟩ := h
  dsimp only at h1 h2 h3 h4 h5 h6 h7 h8 hp
  subst h1 h2 h3 h4 h5 h6
  rw [verdict_done] at hd ⊢
  dsimp only at hd ⊢
  obtain ⟨hl, hs, hd⟩ := hd
  refine ⟨hl, hs, ?_⟩
  have h422 := sup_ne_i422 hs
  by_cases he : w' = 0
  · exact .inl he
  by_cases he' : hh' = 0
  · exact .inr (.inl he')
  rcases hd with hd | hd | ⟨hu, hsp, ha, ho, hi, hx⟩
  · exact absurd hd he
  · exact absurd hd he'
  refine .inr (.inr ⟨⟨⟨hu.1.1, Nat.le_trans hu.1.2 h7.length⟩, hu.2.1, Nat.le_trans hu.2.2 h8.length⟩,
    hsp, ⟨accepts_longer h7 hl.1 h422.1 ha.src, accepts_longer h8 hl.2 h422.2 ha.dst⟩, ?_,
    ⟨lines_longer h7 hl.1 h422.1 hu.1.2 hi.src, lines_longer h8 hl.2 h422.2 hu.2.2 hi.dst⟩, ?_⟩)
  · rintro ⟨hc, h | h⟩
    · obtain ⟨p, hm, hf, -⟩ := h
      exact hf (hp hc he he' p hm)
    · exact ho ⟨hc, .inr h⟩
  · intro a1 a2 a3 a4 a5 a6 x hb
    have hb1 := hu.1.2
    have hn := hl.1.planes
    rw [show sf'.pixel_format = .rgb from a1] at hn
    have hn : sf'.num_planes.toNat = 1 := hn
    have hg := List.getElem?_eq_getElem (by omega : 0 < sb.length)
    obtain ⟨y, hy, hle⟩ := h7 0 _ hg
    change sb'[0]? = some x at hb
    rw [hb] at hy
    cases hy
    exact Nat.le_trans (hx a1 a2 a3 a4 a5 a6 _ hg) hle

theorem LongerCall.rejected {t : Target} {set : InstructionSet} {c c' : Call} {e : ErrorKind}
    (h : Spec.LongerCall c c') (hd : verdict t set c' = .rejected e) :
    verdict t set c = .rejected e := by
  obtain ⟨w, hh, sf, ss, sb, df, ds, db⟩ := c
  obtain ⟨w', hh', sf', ss', sb', df', ds', db'⟩ := c'
  obtain ⟨h1, h2, h3, h4, h5, h6, h7, h8⟩ := h
  dsimp only at h1 h2 h3 h4 h5 h6 h7 h8
  subst h1 h2 h3 h4 h5 h6
  unfold verdict at hd ⊢
  dsimp only at hd ⊢
  split at hd
  · rename_i q; rw [if_pos q]; exact hd
  rename_i hl
  rw [if_neg hl]
  rw [not_not] at hl
  split at hd
  · rename_i q; rw [if_pos q]; exact hd
  rename_i hs
  rw [if_neg hs]
  rw [not_not] at hs
  have h422 := sup_ne_i422 hs
  split at hd
  · cases hd
  rename_i he
  rw [if_neg he]
  by_cases hu : Spec.Supplied sf' ss' sb ∧ Spec.Supplied df' ds' db
  swap
  · rw [if_pos hu]
    split at hd
    · exact hd
    split at hd
    · split at hd
      · cases hd
      · split at hd
        · cases hd
        · exact hd
    split at hd
    · exact hd
    split at hd
    · cases hd
    split at hd <;> cases hd
  rw [if_neg (not_not.2 ⟨⟨hu.1.1, Nat.le_trans hu.1.2 h7.length⟩, hu.2.1,
    Nat.le_trans hu.2.2 h8.length⟩)] at hd
  rw [if_neg (not_not.2 hu)]
  split at hd
  · rename_i q
    rw [if_pos q]
    split at hd
    · cases hd
    rename_i hc
    rw [if_neg hc]
    split at hd
    · cases hd
    rename_i hw
    rw [if_neg fun h => hw ⟨wrapped_longer h7 hl.1 h422.1 hu.1.2 h.1,
      wrapped_longer h8 hl.2 h422.2 hu.2.2 h.2⟩]
    exact hd
  rename_i q
  rw [if_neg q]
  split at hd
  · rename_i ha
    rw [if_pos fun h => ha ⟨accepts_longer h7 hl.1 h422.1 h.src, accepts_longer h8 hl.2 h422.2 h.dst⟩]
    exact hd
  split at hd
  · cases hd
  split at hd <;> cases hd

/-- **C86.** A call that succeeds also succeeds with longer buffers, and with further ones. -/
theorem C86_done {t : Target} {cpu : Cpu} {c c' : Call} (h : Spec.LongerCall c c')
    (h32 : 32 ≤ t.bits) (hr : Spec.Real t c.src_buffers) (hr' : Spec.Real t c.dst_buffers)
    (hr2 : Spec.Real t c'.src_buffers) (hr2' : Spec.Real t c'.dst_buffers)
    (hd : ∃ out, convert t crate cpu c = .ok (.ok (), out)) :
    ∃ out, convert t crate cpu c' = .ok (.ok (), out) := by
  obtain ⟨out, hd⟩ := hd
  have v := C76_verdict t cpu c h32 hr hr'
  rw [hd] at v
  have hv := verdict_done.1 v.symm
  have v' := LongerCall.done h v.symm fun hc hw hh => by
    have hq : Spec.Asked t c := ⟨hv.1.1, hv.1.2, hv.2.1, hw, hh, hr, hr'⟩
    rcases hv.2.2 with e | e | -
    · exact absurd e hw
    · exact absurd e hh
    exact ((C67_succeeds_iff t cpu c h32 hq).1 ⟨out, hd⟩).2.2 hc
  rw [← C76_verdict t cpu c' h32 hr2 hr2'] at v'
  revert v'
  rcases convert t crate cpu c' with f | ⟨r | ⟨⟩, o⟩
  · cases f <;> intro h <;> cases h
  · intro h; cases h
  · exact fun _ => ⟨o, rfl⟩

/-- **C86.** A call that is rejected is rejected with the same error if the buffers are shorter or
some are missing. -/
theorem C86_rejected {t : Target} {cpu : Cpu} {c c' : Call} {e : ErrorKind}
    (h : Spec.LongerCall c c')
    (h32 : 32 ≤ t.bits) (hr : Spec.Real t c.src_buffers) (hr' : Spec.Real t c.dst_buffers)
    (hr2 : Spec.Real t c'.src_buffers) (hr2' : Spec.Real t c'.dst_buffers)
    (hd : ∃ out, convert t crate cpu c' = .ok (.error e, out)) :
    ∃ out, convert t crate cpu c = .ok (.error e, out) := by
  obtain ⟨out, hd⟩ := hd
  have v := C76_verdict t cpu c' h32 hr2 hr2'
  rw [hd] at v
  have v' := LongerCall.rejected h v.symm
  rw [← C76_verdict t cpu c h32 hr hr'] at v'
  revert v'
  rcases convert t crate cpu c with f | ⟨r | ⟨⟩, o⟩
  · cases f <;> intro h <;> cases h
  · intro h; cases h; exact ⟨o, rfl⟩
  · intro h; cases h

/-- The hypotheses are met by a call with a stride below the row length (which no documented
requirement covers): it succeeds and so it does with more memory. -/
example : Spec.LongerCall (exNarrow 20 64 200) { exNarrow 20 64 200 with
      src_buffers := [noise 300 5, noise 3 1], dst_buffers := [noise 250 9] } ∧
    verdictOf (convert .x64 crate sse2Cpu (exNarrow 20 64 200)) = .done := by
  refine ⟨⟨rfl, rfl, rfl, rfl, rfl, rfl, ?_, ?_⟩, by decide +kernel⟩
  · intro i x hx
    match i, hx with
    | 0, hx => cases hx; exact ⟨_, rfl, by decide +kernel⟩
  · intro i x hx
    match i, hx with
    | 0, hx => cases hx; exact ⟨_, rfl, by decide +kernel⟩

/-- One line of four pixels with stride 1. -/
def exOneLine (n : Nat) : Call where
  width := 4
  height := 1
  src_format := ⟨.bgra, .rgb, 1⟩
  src_strides := some [1]
  src_buffers := [noise n 1]
  dst_format := ⟨.i444, .bt601, 3⟩
  dst_strides := none
  dst_buffers := [noise 4 2, noise 4 3, noise 4 4]

/-- Longer buffers can turn a rejection into an access out of bounds and that into
a success: nothing more can be said. -/
example : verdictOf (convert .x64 crate plainCpu (exOneLine 0)) = .rejected .notEnoughData ∧
    verdictOf (convert .x64 crate plainCpu (exOneLine 13)) = .stray ∧
    verdictOf (convert .x64 crate plainCpu (exOneLine 15)) = .done := by decide +kernel

end Verif
