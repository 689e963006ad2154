import Verif.Props.Exact
import Verif.Spec.Verdict
/-!
# C76, C77: the ending of every call, and its independence of the contents of the buffers

`C76_verdict` gathers C01-C03, C66-C68 and C75: it says of every call, without any condition on sizes,
formats, strides and buffers, and for builds with and without overflow checks, how it ends.
-/

namespace Verif

variable (t : Target) (cpu : Cpu) (c c' : Call)

open Spec (verdict verdictOf)

/-- **C76.** Every call ends as `Spec.verdict` says, on 32-bit and 64-bit targets. (The slices are real:
Rust slices have at most `isize::MAX` bytes.) -/
theorem C76_verdict (h32 : 32 ≤ t.bits)
    (hsr : ∀ b, b ∈ c.src_buffers → b.len ≤ t.imax) (hdr : ∀ b, b ∈ c.dst_buffers → b.len ≤ t.imax) :
    verdictOf (convert t crate cpu c) = verdict t cpu.set c := by
  obtain ⟨tb, hT, e⟩ := convert_table t crate cpu
  unfold verdict
  split
  · rename_i h
    rw [e, convert_of_pure (convert_invalid (by tauto))]
    rfl
  rename_i hl
  rw [not_not] at hl
  split
  · rename_i h
    rw [e, convert_of_pure (convert_unsupported hT hl.1 hl.2 h)]
    rfl
  rename_i hs
  rw [not_not] at hs
  split
  · rename_i h
    rw [e, convert_empty hT hl.1 hl.2 hs h]
    rfl
  rename_i hne
  rw [not_or] at hne
  have hq : Spec.Asked t c := ⟨hl.1, hl.2, hs, hne.1, hne.2, hsr, hdr⟩
  split
  · rename_i h
    rcases asked_outcome t cpu c h32 hq with ⟨-, ha, -⟩ | ⟨-, -, _, h'⟩ | ⟨h', -⟩
    · exact absurd ha.supplied h
    · rw [h']; rfl
    · exact absurd h' h
  rename_i hsu
  rw [not_not] at hsu
  split
  · rename_i h
    rcases asked_outcome t cpu c h32 hq with ⟨h', -⟩ | ⟨-, h' | h', -⟩ | ⟨-, -, h'⟩
    · exact absurd ⟨h'.src_sizes, h'.dst_sizes⟩ h
    · exact absurd ⟨h'.src_sizes, h'.dst_sizes⟩ h
    · exact absurd hsu h'
    split at h'
    · rename_i hc
      rw [if_pos hc, h']
      rfl
    · rename_i hc
      rw [if_neg hc]
      split at h'
      · rename_i hw
        rw [if_pos hw]
        rcases h' with h' | h' <;> rw [h'] <;> rfl
      · rename_i hw
        obtain ⟨_, h'⟩ := h'
        rw [if_neg hw, h']
        rfl
  rename_i hsp
  rw [not_not] at hsp
  have hch : Spec.Checked t c := ⟨hq, hsp.1, hsp.2⟩
  split
  · rename_i h
    obtain ⟨out, h'⟩ := (C66_rejected_iff t crate cpu none c h32 hch).2 h
    rw [convert, h']
    rfl
  rename_i ha
  rw [not_not] at ha
  split
  · rename_i h
    rw [(C75_panics_iff t cpu c h32 h.1 hq).2 (.inr ⟨ha, h.2⟩)]
    rfl
  rename_i hov
  rcases asked_outcome t cpu c h32 hq with ⟨-, -, ho⟩ | ⟨h, -⟩ | ⟨-, h, -⟩
  · rcases ho with ⟨hi, -, out, h⟩ | ⟨hi, h⟩ | ⟨-, h⟩
    · rw [if_pos hi, h]
      rfl
    · rw [if_neg hi]
      rcases h with h | h <;> rw [h] <;> rfl
    · exact absurd h hov
  · exact absurd ha h
  · exact absurd hch h

theorem lens_get {a b : List Buf} (h : b.map Buf.len = a.map Buf.len) {i : Nat} {x : Buf}
    (hx : a[i]? = some x) : ∃ y, b[i]? = some y ∧ y.len = x.len := by
  have := congrArg (fun l : List Nat => l[i]?) h
  simp only [List.getElem?_map, hx, Option.map_some] at this
  cases hb : b[i]? with
  | none => rw [hb] at this; cases this
  | some y =>
    rw [hb] at this
    exact ⟨y, rfl, Option.some.inj this⟩

theorem lens_length {a b : List Buf} (h : b.map Buf.len = a.map Buf.len) : b.length = a.length := by
  have := congrArg List.length h
  simpa using this

namespace Spec

variable {f : ImageFormat} {w h : UInt32} {s : Option (List Nat)} {a b : List Buf}

theorem LinesInside.of_lens {e : Nat → Nat} (hl : b.map Buf.len = a.map Buf.len)
    (h1 : LinesInside f w h s b e) : LinesInside f w h s a e := fun i x rc hx hr => by
  obtain ⟨y, hy, e⟩ := lens_get hl hx
  rw [← e]
  exact h1 i y rc hy hr

theorem AcceptsImage.of_lens {px : Bool} (hl : b.map Buf.len = a.map Buf.len)
    (h1 : AcceptsImage px f w h s b) : AcceptsImage px f w h s a where
  strides_len := h1.strides_len
  bufs_len := lens_length hl ▸ h1.bufs_len
  plane := fun hc i x rc hx hr => by
    obtain ⟨y, hy, e⟩ := lens_get hl hx
    rw [← e]
    exact h1.plane hc i y rc hy hr
  single := fun h2 h3 x hx => by
    obtain ⟨y, hy, e⟩ := lens_get hl hx
    rw [← e]
    exact h1.single h2 h3 y hy

end Spec

variable {t cpu c c'}

theorem lines_lens {f : ImageFormat} {w h : UInt32} {s : Option (List Nat)} {a b : List Buf}
    {e : Nat → Nat} (hl : b.map Buf.len = a.map Buf.len) :
    Spec.LinesInside f w h s b e ↔ Spec.LinesInside f w h s a e := ⟨.of_lens hl, .of_lens hl.symm⟩

theorem accepts_lens {f : ImageFormat} {w h : UInt32} {s : Option (List Nat)} {a b : List Buf}
    {px : Bool} (hl : b.map Buf.len = a.map Buf.len) :
    Spec.AcceptsImage px f w h s b ↔ Spec.AcceptsImage px f w h s a :=
  ⟨.of_lens hl, .of_lens hl.symm⟩

theorem first_lens {a b : List Buf} (hl : b.map Buf.len = a.map Buf.len) {P : Nat → Prop}
    (h : ∀ x, b[0]? = some x → P x.len) : ∀ x, a[0]? = some x → P x.len := fun x hx => by
  obtain ⟨y, hy, e⟩ := lens_get hl hx
  rw [← e]
  exact h y hy

theorem wrapped_lens {f : ImageFormat} {w h : UInt32} {s : Option (List Nat)} {a b : List Buf}
    {px : Bool} (hl : b.map Buf.len = a.map Buf.len) :
    Spec.WrappedImage t px f w h s b ↔ Spec.WrappedImage t px f w h s a := by
  unfold Spec.WrappedImage
  split
  · constructor
    · exact first_lens hl (P := fun n => _ ≤ n ∧ _ ∧ _ ≤ n - _)
    · exact first_lens hl.symm (P := fun n => _ ≤ n ∧ _ ∧ _ ≤ n - _)
  · split
    · constructor
      · exact first_lens hl (P := fun n => _ ≤ n)
      · exact first_lens hl.symm (P := fun n => _ ≤ n)
    · exact accepts_lens hl

theorem surplus_lens {set : InstructionSet} {w h : UInt32} {sf df : ImageFormat}
    {ss ds : Option (List Nat)} {sb sb' db db' : List Buf}
    (hl : sb'.map Buf.len = sb.map Buf.len)
    (hi : Spec.SurplusInside t set ⟨w, h, sf, ss, sb', df, ds, db'⟩) :
    Spec.SurplusInside t set ⟨w, h, sf, ss, sb, df, ds, db⟩ := fun h1 h2 h3 h4 h5 h6 =>
  first_lens hl (P := fun n => _ ≤ n) (hi h1 h2 h3 h4 h5 h6)

/-- The verdict depends on the lengths of the buffers only. -/
theorem verdict_shape (set : InstructionSet) (h : Spec.SameShape c c') :
    verdict t set c' = verdict t set c := by
  obtain ⟨w, hh, sf, ss, sb, df, ds, db⟩ := c
  obtain ⟨w', hh', sf', ss', sb', df', ds', db'⟩ := c'
  obtain ⟨h1, h2, h3, h4, h5, h6, h7, h8⟩ := h
  dsimp only at h1 h2 h3 h4 h5 h6 h7 h8
  subst h1 h2 h3 h4 h5 h6
  have e1 : Spec.Accepts ⟨w', hh', sf', ss', sb', df', ds', db'⟩ ↔
      Spec.Accepts ⟨w', hh', sf', ss', sb, df', ds', db⟩ :=
    ⟨fun h => ⟨(accepts_lens h7).1 h.src, (accepts_lens h8).1 h.dst⟩,
      fun h => ⟨(accepts_lens h7).2 h.src, (accepts_lens h8).2 h.dst⟩⟩
  have e2 : Spec.InBounds set ⟨w', hh', sf', ss', sb', df', ds', db'⟩ ↔
      Spec.InBounds set ⟨w', hh', sf', ss', sb, df', ds', db⟩ :=
    ⟨fun h => ⟨(lines_lens h7).1 h.src, (lines_lens h8).1 h.dst⟩,
      fun h => ⟨(lines_lens h7).2 h.src, (lines_lens h8).2 h.dst⟩⟩
  have e3 : Spec.PartOverflow set ⟨w', hh', sf', ss', sb', df', ds', db'⟩ ↔
      Spec.PartOverflow set ⟨w', hh', sf', ss', sb, df', ds', db⟩ := by
    simp only [Spec.PartOverflow, Spec.PixelsFit, Spec.PixelsInside, lines_lens h7, lines_lens h8]
  have e4 : Spec.OffsetOverflow t set ⟨w', hh', sf', ss', sb', df', ds', db'⟩ =
      Spec.OffsetOverflow t set ⟨w', hh', sf', ss', sb, df', ds', db⟩ := rfl
  have e5 : Spec.Supplied sf' ss' sb' = Spec.Supplied sf' ss' sb := by
    rw [Spec.Supplied, Spec.Supplied, lens_length h7]
  have e6 : Spec.Supplied df' ds' db' = Spec.Supplied df' ds' db := by
    rw [Spec.Supplied, Spec.Supplied, lens_length h8]
  have e7 : Spec.WrapAccepts t ⟨w', hh', sf', ss', sb', df', ds', db'⟩ ↔
      Spec.WrapAccepts t ⟨w', hh', sf', ss', sb, df', ds', db⟩ :=
    ⟨fun h => ⟨(wrapped_lens h7).1 h.1, (wrapped_lens h8).1 h.2⟩,
      fun h => ⟨(wrapped_lens h7).2 h.1, (wrapped_lens h8).2 h.2⟩⟩
  have e8 : Spec.SurplusInside t set ⟨w', hh', sf', ss', sb', df', ds', db'⟩ ↔
      Spec.SurplusInside t set ⟨w', hh', sf', ss', sb, df', ds', db⟩ :=
    ⟨surplus_lens h7, surplus_lens h7.symm⟩
  unfold verdict
  dsimp only
  simp only [propext e1, propext e2, propext e3, e4, e5, e6, propext e7, propext e8]

theorem real_lens {a b : List Buf} {n : Nat} (hl : b.map Buf.len = a.map Buf.len)
    (h : ∀ x, x ∈ a → x.len ≤ n) : ∀ x, x ∈ b → x.len ≤ n := fun x hx => by
  have : x.len ∈ b.map Buf.len := List.mem_map_of_mem hx
  rw [hl] at this
  obtain ⟨y, hy, e⟩ := List.mem_map.1 this
  rw [← e]
  exact h y hy

/-- **C77.** Two calls that differ in nothing but the contents of the source and destination buffers
end alike: both succeed, both are rejected with the same error, both panic, or both leave the
buffers. -/
theorem C77_contents (h : Spec.SameShape c c') (h32 : 32 ≤ t.bits)
    (hsr : ∀ b, b ∈ c.src_buffers → b.len ≤ t.imax) (hdr : ∀ b, b ∈ c.dst_buffers → b.len ≤ t.imax) :
    verdictOf (convert t crate cpu c') = verdictOf (convert t crate cpu c) := by
  rw [C76_verdict t cpu c h32 hsr hdr, C76_verdict t cpu c' h32 (real_lens h.src_lens hsr)
    (real_lens h.dst_lens hdr), verdict_shape _ h]

/-- Every kind of ending occurs, and on the same call they differ between processors. -/
example : verdictOf (convert .x64 crate plainCpu (exNarrow 20 64 200)) = .panic ∧
    verdictOf (convert .x64 crate sse2Cpu (exNarrow 20 64 200)) = .done := by
  rw [C76_verdict _ _ _ (by decide +kernel) (by decide +kernel) (by decide +kernel),
    C76_verdict _ _ _ (by decide +kernel) (by decide +kernel) (by decide +kernel)]
  constructor
  · rw [verdict, if_neg (by decide +kernel), if_neg (by decide +kernel), if_neg (by decide +kernel),
      if_neg (by decide +kernel), if_neg (by decide +kernel), if_neg (by decide +kernel),
      if_pos (by decide +kernel)]
  · rw [verdict, if_neg (by decide +kernel), if_neg (by decide +kernel), if_neg (by decide +kernel),
      if_neg (by decide +kernel), if_neg (by decide +kernel), if_neg (by decide +kernel),
      if_neg (by decide +kernel), if_pos (by decide +kernel)]

example : verdictOf (convert .x64 crate plainCpu exShort) = .rejected .notEnoughData ∧
    verdictOf (convert .x64 crate plainCpu exStride) = .stray := by
  rw [C76_verdict _ _ _ (by decide +kernel) (by decide +kernel) (by decide +kernel),
    C76_verdict _ _ _ (by decide +kernel) (by decide +kernel) (by decide +kernel)]
  constructor
  · rw [verdict, if_neg (by decide +kernel), if_neg (by decide +kernel), if_neg (by decide +kernel),
      if_neg (by decide +kernel), if_neg (by decide +kernel), if_pos (by decide +kernel)]
  · rw [verdict, if_neg (by decide +kernel), if_neg (by decide +kernel), if_neg (by decide +kernel),
      if_neg (by decide +kernel), if_neg (by decide +kernel), if_neg (by decide +kernel),
      if_neg (by decide +kernel), if_neg (by decide +kernel)]

/-- The build without overflow checks ends otherwise than the one with them. -/
example : verdictOf (convert .x64r crate plainCpu (exNarrow 20 64 200)) = .done ∧
    verdictOf (convert .x64r crate plainCpu (exWrapped (2 ^ 44))) = .stray := by
  rw [C76_verdict _ _ _ (by decide +kernel) (by decide +kernel) (by decide +kernel),
    C76_verdict _ _ _ (by decide +kernel) (by decide +kernel) (by decide +kernel)]
  constructor
  · rw [verdict, if_neg (by decide +kernel), if_neg (by decide +kernel), if_neg (by decide +kernel),
      if_neg (by decide +kernel), if_neg (by decide +kernel), if_neg (by decide +kernel),
      if_neg (by decide +kernel), if_pos (by decide +kernel)]
  · rw [verdict, if_neg (by decide +kernel), if_neg (by decide +kernel), if_neg (by decide +kernel),
      if_neg (by decide +kernel), if_pos (by decide +kernel), if_neg (by decide +kernel),
      if_pos (by decide +kernel)]

/-- The call with other bytes in the source buffers. -/
def Call.refill (c : Call) (seed : Nat) : Call :=
  { c with src_buffers := c.src_buffers.map fun b => noise b.len seed }

example : Spec.SameShape exEncode (exEncode.refill 77) ∧
    ((exEncode.refill 77).src_buffers.map fun b => b.bytes 0) ≠
      exEncode.src_buffers.map fun b => b.bytes 0 := by
  refine ⟨⟨rfl, rfl, rfl, rfl, rfl, rfl, ?_, ?_⟩, ?_⟩ <;> decide +kernel

end Verif
