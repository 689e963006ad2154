import Verif.Spec.Reach
/-!
# How a call ends

`verdict` decides from the arguments of a call alone, without the contents of the buffers, how
`convert_image` ends.
-/

namespace Verif.Spec

/-! The conditions can be computed. -/

instance {α : Type} (o : Option α) (P : α → Prop) [∀ a, Decidable (P a)] :
    Decidable (∀ a, o = some a → P a) :=
  match o with
  | none => isTrue fun _ h => nomatch h
  | some a => decidable_of_iff (P a) ⟨fun h _ e => Option.some.inj e ▸ h, fun h => h a rfl⟩

instance {α β : Type} (l : List α) (l' : List β) (P : Nat → α → β → Prop)
    [∀ i a b, Decidable (P i a b)] :
    Decidable (∀ i a b, l[i]? = some a → l'[i]? = some b → P i a b) :=
  decidable_of_iff (∀ i, i < l.length → ∀ a, l[i]? = some a → ∀ b, l'[i]? = some b → P i a b)
    ⟨fun h i a b ha hb => h i (List.getElem?_eq_some_iff.1 ha).1 a ha b hb,
      fun h i _ a ha b hb => h i a b ha hb⟩

instance (f : ImageFormat) (w h : UInt32) : Decidable (Legal f w h) :=
  decidable_of_iff (CsOk f ∧ SizeOk f.pixel_format w.toNat h.toNat ∧
    PlanesOk f.pixel_format f.num_planes.toNat)
    ⟨fun ⟨a, b, c⟩ => ⟨a, b, c⟩, fun ⟨a, b, c⟩ => ⟨a, b, c⟩⟩

instance (f : ImageFormat) (s : Option (List Nat)) (b : List Buf) : Decidable (Supplied f s b) := by
  unfold Supplied; infer_instance

instance (t : Target) (f : ImageFormat) (w h : UInt32) (s : Option (List Nat)) :
    Decidable (SizesFit t f w h s) :=
  decidable_of_iff ((isRgb f.pixel_format = true → bpp f.pixel_format * w.toNat < 2 ^ t.bits) ∧
    (f.pixel_format = .nv12 → f.num_planes.toNat = 1 →
      strideOf s 0 w.toNat * h.toNat < 2 ^ t.bits))
    ⟨fun ⟨a, b⟩ => ⟨a, b⟩, fun ⟨a, b⟩ => ⟨a, b⟩⟩

instance (f : ImageFormat) (w h : UInt32) (s : Option (List Nat)) (b : List Buf) (e : Nat → Nat) :
    Decidable (LinesInside f w h s b e) := by
  unfold LinesInside; infer_instance

instance (set : InstructionSet) (c : Call) : Decidable (InBounds set c) :=
  decidable_of_iff (_ ∧ _) ⟨fun ⟨a, b⟩ => ⟨a, b⟩, fun ⟨a, b⟩ => ⟨a, b⟩⟩

instance (px : Bool) (f : ImageFormat) (w h : UInt32) (s : Option (List Nat)) (bufs : List Buf) :
    Decidable (AcceptsImage px f w h s bufs) :=
  decidable_of_iff ((∀ l, s = some l → f.num_planes.toNat ≤ l.length) ∧
    f.num_planes.toNat ≤ bufs.length ∧
    (¬ (f.pixel_format = .nv12 ∧ f.num_planes.toNat = 1) → ∀ (i : Nat) (b : Buf) (rc : Nat × Nat),
      bufs[i]? = some b →
      (dims f.pixel_format f.num_planes.toNat w.toNat h.toNat)[i]? = some rc →
      strideOf s i rc.1 + (if px then w.toNat else rc.1) * (rc.2 - 1) ≤ b.len) ∧
    (f.pixel_format = .nv12 → f.num_planes.toNat = 1 → ∀ b, bufs[0]? = some b →
      w.toNat ≤ strideOf s 0 w.toNat ∧
      strideOf s 0 w.toNat * (h.toNat + 1) + w.toNat * (h.toNat / 2 - 1) ≤ b.len))
    ⟨fun ⟨a, b, c, d⟩ => ⟨a, b, c, d⟩, fun ⟨a, b, c, d⟩ => ⟨a, b, c, d⟩⟩

instance (c : Call) : Decidable (Accepts c) :=
  decidable_of_iff (_ ∧ _) ⟨fun ⟨a, b⟩ => ⟨a, b⟩, fun ⟨a, b⟩ => ⟨a, b⟩⟩

instance (t : Target) (px : Bool) (f : ImageFormat) (w h : UInt32) (s : Option (List Nat))
    (bufs : List Buf) : Decidable (WrappedImage t px f w h s bufs) := by
  unfold WrappedImage; infer_instance

instance (t : Target) (c : Call) : Decidable (WrapAccepts t c) := by
  unfold WrapAccepts; infer_instance

instance (t : Target) (set : InstructionSet) (c : Call) : Decidable (SurplusInside t set c) := by
  unfold SurplusInside; infer_instance

instance (c : Call) (n : Nat) : Decidable (PixelsFit c n) := by unfold PixelsFit; infer_instance

instance (c : Call) (n : Nat) : Decidable (PixelsInside c n) := by
  unfold PixelsInside; infer_instance

instance (set : InstructionSet) (c : Call) : Decidable (PartOverflow set c) := by
  unfold PartOverflow; infer_instance

instance (set : InstructionSet) (src : PixelFormat) (w : Nat) : Decidable (Vectorised set src w) :=
  decidable_of_iff ((groupWidth set src).any (fun n => decide (n ≤ w)) = true) (by
    unfold Vectorised
    cases groupWidth set src <;> simp)

instance (t : Target) (set : InstructionSet) (c : Call) : Decidable (OffsetOverflow t set c) := by
  unfold OffsetOverflow LastLineOverflow FourthLineOverflow; infer_instance

/-- The ways in which a call can end. -/
inductive Verdict where
  /-- The conversion was carried out. -/
  | done
  /-- An error is returned. -/
  | rejected (e : ErrorKind)
  /-- The program panics. -/
  | panic
  /-- Memory outside a buffer is accessed (undefined behaviour). -/
  | stray
deriving DecidableEq

/-- How a call ended. -/
def verdictOf : Outcome → Verdict
  | .ok (.ok (), _) => .done
  | .ok (.error e, _) => .rejected e
  | .error .oobRead => .stray
  | .error .oobWrite => .stray
  | .error _ => .panic

/-- How a call ends. -/
def verdict (t : Target) (set : InstructionSet) (c : Call) : Verdict :=
  if ¬ (Legal c.src_format c.width c.height ∧ Legal c.dst_format c.width c.height) then
    .rejected .invalidValue
  else if ¬ Supported c.src_format.pixel_format c.dst_format.pixel_format then
    .rejected .invalidOperation
  else if c.width = 0 ∨ c.height = 0 then .done
  else if ¬ (Supplied c.src_format c.src_strides c.src_buffers ∧
      Supplied c.dst_format c.dst_strides c.dst_buffers) then
    .rejected .notEnoughData
  else if ¬ (SizesFit t c.src_format c.width c.height c.src_strides ∧
      SizesFit t c.dst_format c.width c.height c.dst_strides) then
    if t.checked then .panic
    else if WrapAccepts t c then .stray
    else .rejected .notEnoughData
  else if ¬ Accepts c then .rejected .notEnoughData
  else if t.checked ∧ (PartOverflow set c ∨ OffsetOverflow t set c) then .panic
  else if InBounds set c ∧ SurplusInside t set c then .done
  else .stray

/-- Two calls that differ in nothing but the contents of the buffers. -/
structure SameShape (c c' : Call) : Prop where
  width : c'.width = c.width
  height : c'.height = c.height
  src_format : c'.src_format = c.src_format
  dst_format : c'.dst_format = c.dst_format
  src_strides : c'.src_strides = c.src_strides
  dst_strides : c'.dst_strides = c.dst_strides
  src_lens : c'.src_buffers.map Buf.len = c.src_buffers.map Buf.len
  dst_lens : c'.dst_buffers.map Buf.len = c.dst_buffers.map Buf.len

end Verif.Spec
