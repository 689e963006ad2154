import Verif.Lemmas.Run
import Verif.Lemmas.Check
import Verif.Lemmas.Sizes
import Verif.Props.Dispatch
import Verif.Lemmas.Crate
/-!
# C11-C16, C59, C64: buffer sizes and memory safety

The code violates several of these properties. Each violation is recorded as a theorem about a
concrete call (`..._counterexample`), next to the strongest true statement we can prove
(`..._partial`).
-/

namespace Verif

variable (t : Target) (impls : InstructionSet → Impl) (cpu : Cpu) (hook : Option Int) (c : Call)

/-- Fault of an outcome, if any. -/
def Outcome.fault : Outcome → Option Fault
  | .error e => some e
  | .ok _ => none

/-- Answer of an outcome, if there is no fault. -/
def Outcome.status : Outcome → Option (Option ErrorKind)
  | .error _ => none
  | .ok (.ok _, _) => some none
  | .ok (.error e, _) => some (some e)

/-- First `n` bytes of destination buffer `i` after the call. -/
def Outcome.bytes (o : Outcome) (i n : Nat) : Option (List UInt8) :=
  match o with
  | .error _ => none
  | .ok (_, out) => out[i]?.map fun b => (List.range n).map b.bytes

/-! ## Packed images -/

theorem bpp_le (pf : PixelFormat) : Spec.bpp pf ≤ 4 := by cases pf <;> decide

theorem small_packed {f : ImageFormat} {w h : UInt32} {strides : Option (List Nat)}
    {bufs : List Buf} (hb : 1 ≤ t.bits) (h4 : Spec.bpp f.pixel_format * w.toNat < 2 ^ t.bits)
    (hwh : w.toNat * h.toNat < 2 ^ t.bits) (hp : Spec.Packed strides) (hr : Spec.Real t bufs) :
    Small t f w h strides bufs := by
  refine ⟨h4, fun b hm => Nat.le_trans (hr b hm) (imax_le_umax t hb), fun _ _ => ?_⟩
  rw [packed_stride hp]; exact hwh

theorem supported_ne_i422 {s d : PixelFormat} (h : Spec.Supported s d) : s ≠ .i422 ∧ d ≠ .i422 := by
  revert h; cases s <;> cases d <;> decide

/-- C12 for any width of `usize` for which the length of a line and the product `wh` are
representable. -/
theorem packed_short_iff (hb : 1 ≤ t.bits)
    (h4 : Spec.bpp c.src_format.pixel_format * c.width.toNat < 2 ^ t.bits)
    (h4' : Spec.bpp c.dst_format.pixel_format * c.width.toNat < 2 ^ t.bits)
    (hwh : c.width.toNat * c.height.toNat < 2 ^ t.bits)
    (hq : Spec.Request t c)
    (hc : Spec.ColourModel c)
    (hp : Spec.Packed c.src_strides) (hp' : Spec.Packed c.dst_strides) :
    (∃ out, convertHook t impls cpu hook c = .ok (.error .notEnoughData, out)) ↔
      ¬ (Spec.HoldsPacked c.src_format c.width c.height c.src_buffers ∧
        Spec.HoldsPacked c.dst_format c.width c.height c.dst_buffers) := by
  obtain ⟨hl, hl', hs, hw, hh, hg, hg', hr, hr'⟩ := hq
  rw [short_iff hl hl' hs hw hh (small_packed t hb h4 hwh hp hr) (small_packed t hb h4' hwh hp' hr')]
  have hpx : pxPair c.src_format.pixel_format c.dst_format.pixel_format = false := by
    unfold Spec.ColourModel at hc
    unfold pxPair
    revert hc
    cases Spec.isRgb c.src_format.pixel_format <;> cases Spec.isRgb c.dst_format.pixel_format <;>
      simp
  rw [hpx]
  have h422 := supported_ne_i422 hs
  apply not_congr
  constructor
  · rintro ⟨h1, h2, h3, h5⟩
    exact ⟨(acc_image_packed hl hh hp h1.bufs_len h422.1).1 h3,
      (acc_image_packed hl' hh hp' h2.bufs_len h422.2).1 h5⟩
  · rintro ⟨h1, h2⟩
    have b1 := holds_length hl.planes h1
    have b2 := holds_length hl'.planes h2
    exact ⟨⟨hg, b1⟩, ⟨hg', b2⟩, (acc_image_packed hl hh hp b1 h422.1).2 h1,
      (acc_image_packed hl' hh hp' b2 h422.2).2 h2⟩

theorem prod64 (hbits : t.bits = 64) (w h : UInt32) :
    4 * w.toNat < 2 ^ t.bits ∧ w.toNat * h.toNat < 2 ^ t.bits := by
  have hw := w.toNat_lt
  have hh := h.toNat_lt
  rw [hbits]
  refine ⟨by omega, ?_⟩
  calc w.toNat * h.toNat ≤ w.toNat * 2 ^ 32 := Nat.mul_le_mul_left _ (by omega)
    _ < 2 ^ 32 * 2 ^ 32 := Nat.mul_lt_mul_of_pos_right hw (by decide)

/-- **C12.** On 64-bit targets, for every instruction set: with packed lines an RGB <-> YCbCr
conversion of a non-empty image answers `NotEnoughData` exactly if some plane has no buffer or one
that is too short. -/
theorem C12_packed_rejected (hbits : t.bits = 64)
    (hq : Spec.Request t c)
    (hc : Spec.ColourModel c)
    (hp : Spec.Packed c.src_strides) (hp' : Spec.Packed c.dst_strides) :
    (∃ out, convertHook t impls cpu hook c = .ok (.error .notEnoughData, out)) ↔
      ¬ (Spec.HoldsPacked c.src_format c.width c.height c.src_buffers ∧
        Spec.HoldsPacked c.dst_format c.width c.height c.dst_buffers) :=
  packed_short_iff t impls cpu hook c (by omega)
    (Nat.lt_of_le_of_lt (Nat.mul_le_mul_right _ (bpp_le _)) (prod64 t hbits _ c.height).1)
    (Nat.lt_of_le_of_lt (Nat.mul_le_mul_right _ (bpp_le _)) (prod64 t hbits _ c.height).1)
    (prod64 t hbits _ _).2
    hq hc hp hp'

/-- A call that meets the hypotheses of C12 and whose third destination plane is one byte short. -/
def exShort : Call where
  width := 4
  height := 4
  src_format := ⟨.argb, .rgb, 1⟩
  src_strides := none
  src_buffers := [noise 64 1]
  dst_format := ⟨.i420, .bt709, 3⟩
  dst_strides := some [0, 0, 0]
  dst_buffers := [noise 16 2, noise 4 3, noise 3 4]

example : Spec.Legal exShort.src_format 4 4 ∧ Spec.Legal exShort.dst_format 4 4 ∧
    Spec.Supported .argb .i420 ∧ Spec.Packed exShort.dst_strides ∧
    Spec.StridesGiven exShort.dst_format exShort.dst_strides ∧
    Spec.Real .x64 exShort.dst_buffers :=
  ⟨by decide +kernel, by decide +kernel, by decide, by rintro l ⟨⟩; decide,
    by rintro l ⟨⟩; decide, by intro b hb; simp [exShort] at hb; rcases hb with rfl | rfl | rfl <;> decide⟩

/-! ## RGB <-> RGB conversions -/

/-- A 1x2 Bgr image (6 bytes) in buffers of 4 bytes. -/
def exPixelRow : Call where
  width := 1
  height := 2
  src_format := ⟨.bgr, .rgb, 1⟩
  src_strides := none
  src_buffers := [noise 4 1]
  dst_format := ⟨.rgb, .rgb, 1⟩
  dst_strides := none
  dst_buffers := [noise 4 2]

/-- **C13, C15 are false.** Too small buffers are accepted by Bgr -> Rgb, and bytes behind the
source buffer are read. -/
theorem C13_counterexample :
    (convert .x64 crate plainCpu exPixelRow).fault = some .oobRead := by
  decide +kernel

/-- With a large enough source the destination is overrun. -/
theorem C13_counterexample_write :
    (convert .x64 crate plainCpu
      { exPixelRow with src_buffers := [noise 6 1] }).fault = some .oobWrite := by
  decide +kernel

/-- What RGB <-> RGB conversions check for packed lines: one packed line plus `w` *pixels* (not
bytes) for each further line. -/
theorem C13_criterion_partial (hbits : t.bits = 64)
    (hq : Spec.Request t c)
    (hc : Spec.isRgb c.src_format.pixel_format = true ∧ Spec.isRgb c.dst_format.pixel_format = true)
    (hp : Spec.Packed c.src_strides) (hp' : Spec.Packed c.dst_strides)
    (s d : Buf) (hsb : c.src_buffers[0]? = some s) (hdb : c.dst_buffers[0]? = some d) :
    (∃ out, convertHook t impls cpu hook c = .ok (.error .notEnoughData, out)) ↔
      (s.len < Spec.bpp c.src_format.pixel_format * c.width.toNat +
          c.width.toNat * (c.height.toNat - 1) ∨
        d.len < Spec.bpp c.dst_format.pixel_format * c.width.toNat +
          c.width.toNat * (c.height.toNat - 1)) := by
  obtain ⟨hl, hl', hs, hw, hh, hg, hg', hr, hr'⟩ := hq
  have hz := prod64 t hbits c.width c.height
  rw [short_iff hl hl' hs hw hh (small_packed t (by omega)
      (Nat.lt_of_le_of_lt (Nat.mul_le_mul_right _ (bpp_le _)) hz.1) hz.2 hp hr)
    (small_packed t (by omega)
      (Nat.lt_of_le_of_lt (Nat.mul_le_mul_right _ (bpp_le _)) hz.1) hz.2 hp' hr')]
  have l1 := (List.getElem?_eq_some_iff.1 hsb).1
  have l2 := (List.getElem?_eq_some_iff.1 hdb).1
  have e1 : bufAt c.src_buffers 0 = s := by
    have := buf_at l1; rw [hsb] at this; cases this; rfl
  have e2 : bufAt c.dst_buffers 0 = d := by
    have := buf_at l2; rw [hdb] at this; cases this; rfl
  have n1 : c.src_format.num_planes.toNat = 1 := by
    have := hl.planes; have h0 := hc.1; revert this h0
    cases c.src_format.pixel_format <;> simp [Spec.PlanesOk, Spec.isRgb]
  have n2 : c.dst_format.num_planes.toNat = 1 := by
    have := hl'.planes; have h0 := hc.2; revert this h0
    cases c.dst_format.pixel_format <;> simp [Spec.PlanesOk, Spec.isRgb]
  have hpx : pxPair c.src_format.pixel_format c.dst_format.pixel_format = true := by
    unfold pxPair; rw [hc.1, hc.2]; rfl
  have acc : ∀ pf n (st : Option (List Nat)) bufs, Spec.isRgb pf = true → Spec.Packed st →
      (AccImage true pf n c.width.toNat c.height.toNat st bufs ↔
        Spec.bpp pf * c.width.toNat + c.width.toNat * (c.height.toNat - 1) ≤
          (bufAt bufs 0).len) := by
    intro pf n st bufs hpf hst
    cases pf <;> simp only [Spec.isRgb, Bool.false_eq_true] at hpf <;>
      simp only [AccImage, packed_stride hst, Acc, if_true]
  rw [hpx, acc _ _ _ _ hc.1 hp, acc _ _ _ _ hc.2 hp', e1, e2]
  have p1 : Present c.src_format c.src_strides c.src_buffers := ⟨hg, by omega⟩
  have p2 : Present c.dst_format c.dst_strides c.dst_buffers := ⟨hg', by omega⟩
  simp only [p1, p2, true_and]
  omega

/-- 3 bytes are rejected; 4 of the 6 needed are accepted (`C13_counterexample`). -/
example : (convert .x64 crate plainCpu { exPixelRow with src_buffers := [noise 3 1] }).status =
    some (some .notEnoughData) := by decide +kernel

/-- Consequences: packed buffers of sufficient size are never rejected, and for images of a single
line the check is exact. -/
theorem C13_sufficient_partial (hbits : t.bits = 64)
    (hq : Spec.Request t c)
    (hc : Spec.isRgb c.src_format.pixel_format = true ∧ Spec.isRgb c.dst_format.pixel_format = true)
    (hp : Spec.Packed c.src_strides) (hp' : Spec.Packed c.dst_strides)
    (s d : Buf) (hsb : c.src_buffers[0]? = some s) (hdb : c.dst_buffers[0]? = some d) :
    ((∃ out, convertHook t impls cpu hook c = .ok (.error .notEnoughData, out)) →
      s.len < Spec.bpp c.src_format.pixel_format * c.width.toNat * c.height.toNat ∨
        d.len < Spec.bpp c.dst_format.pixel_format * c.width.toNat * c.height.toNat) ∧
    (c.height = 1 →
      s.len < Spec.bpp c.src_format.pixel_format * c.width.toNat * c.height.toNat ∨
        d.len < Spec.bpp c.dst_format.pixel_format * c.width.toNat * c.height.toNat →
      ∃ out, convertHook t impls cpu hook c = .ok (.error .notEnoughData, out)) := by
  rw [C13_criterion_partial t impls cpu hook c hbits hq hc hp hp' s d hsb hdb]
  have hh := hq.height_ne
  have h1 := u32_pos hh
  have mono : ∀ pf, Spec.isRgb pf = true → Spec.bpp pf * c.width.toNat +
      c.width.toNat * (c.height.toNat - 1) ≤ Spec.bpp pf * c.width.toNat * c.height.toNat := by
    intro pf hpf
    have h3 : 3 ≤ Spec.bpp pf := by
      cases pf <;> simp only [Spec.isRgb, Bool.false_eq_true] at hpf <;> decide
    obtain ⟨k, hk⟩ : ∃ k, c.height.toNat = k + 1 := ⟨c.height.toNat - 1, by omega⟩
    rw [hk, Nat.add_sub_cancel, Nat.mul_succ, Nat.add_comm]
    have : c.width.toNat * k ≤ Spec.bpp pf * c.width.toNat * k := by
      refine Nat.mul_le_mul_right _ ?_
      calc c.width.toNat = 1 * c.width.toNat := (Nat.one_mul _).symm
        _ ≤ _ := Nat.mul_le_mul_right _ (by omega)
    omega
  have m1 := mono _ hc.1
  have m2 := mono _ hc.2
  refine ⟨fun h => by omega, fun he h => ?_⟩
  rw [he] at h ⊢
  have e1 : (1 : UInt32).toNat = 1 := rfl
  rw [e1] at h ⊢
  omega

example : Spec.Legal exPixelRow.src_format 1 2 ∧ Spec.Legal exPixelRow.dst_format 1 2 ∧
    Spec.Supported .bgr .rgb ∧ Spec.isRgb .bgr = true ∧ Spec.Packed exPixelRow.src_strides :=
  ⟨by decide +kernel, by decide +kernel, by decide, rfl, by rintro l ⟨⟩⟩

/-! ## Strided images -/

/-- A 1x3 Bgra image whose lines are 12 bytes apart (28 bytes) in a buffer of 20 bytes. -/
def exStride : Call where
  width := 1
  height := 3
  src_format := ⟨.bgra, .rgb, 1⟩
  src_strides := some [12]
  src_buffers := [noise 20 1]
  dst_format := ⟨.i444, .bt601, 3⟩
  dst_strides := none
  dst_buffers := [noise 3 2, noise 3 3, noise 3 4]

/-- **C14, C15 are false.** The bounds check exchanges stride and line length: a too short strided
source is accepted and read past its end. -/
theorem C14_counterexample :
    (convert .x64 crate plainCpu exStride).fault = some .oobRead := by
  decide +kernel

/-- The same for a destination plane: luma lines 4 bytes apart need 9 bytes, 6 are accepted. -/
theorem C14_counterexample_write :
    (convert .x64 crate plainCpu { exStride with
      src_strides := none
      dst_strides := some [4, 0, 0]
      dst_buffers := [noise 6 2, noise 3 3, noise 3 4] }).fault = some .oobWrite := by
  decide +kernel

/-- The check of one plane, as performed by the code: stride plus *line length* times the number
of further lines. -/
theorem C14_criterion_partial (hbits : t.bits = 64)
    (hq : Spec.Request t c)
    (hc : Spec.ColourModel c)
    (hb : c.src_format.num_planes.toNat ≤ c.src_buffers.length)
    (hb' : c.dst_format.num_planes.toNat ≤ c.dst_buffers.length)
    (h1 : c.src_format.pixel_format = .nv12 → c.src_format.num_planes.toNat ≠ 1)
    (h1' : c.dst_format.pixel_format = .nv12 → c.dst_format.num_planes.toNat ≠ 1) :
    (∃ out, convertHook t impls cpu hook c = .ok (.error .notEnoughData, out)) ↔
      ∃ (f : ImageFormat) (strides : Option (List Nat)) (bufs : List Buf) (i : Nat)
        (rc : Nat × Nat) (b : Buf),
        ((f = c.src_format ∧ strides = c.src_strides ∧ bufs = c.src_buffers) ∨
          (f = c.dst_format ∧ strides = c.dst_strides ∧ bufs = c.dst_buffers)) ∧
        (Spec.dims f.pixel_format f.num_planes.toNat c.width.toNat c.height.toNat)[i]? = some rc ∧
        bufs[i]? = some b ∧ b.len < Spec.strideOf strides i rc.1 + rc.1 * (rc.2 - 1) := by
  obtain ⟨hl, hl', hs, hw, hh, hg, hg', hr, hr'⟩ := hq
  have hz := prod64 t hbits c.width c.height
  have small : ∀ (f : ImageFormat) st bufs, Spec.Real t bufs →
      (f.pixel_format = .nv12 → f.num_planes.toNat ≠ 1) → Small t f c.width c.height st bufs := by
    intro f st bufs hrb hn
    exact ⟨Nat.lt_of_le_of_lt (Nat.mul_le_mul_right _ (bpp_le _)) hz.1,
      fun b hm => Nat.le_trans (hrb b hm) (imax_le_umax t (by omega)), fun a b => absurd b (hn a)⟩
  rw [short_iff hl hl' hs hw hh (small _ _ _ hr h1) (small _ _ _ hr' h1')]
  have hpx : pxPair c.src_format.pixel_format c.dst_format.pixel_format = false := by
    unfold Spec.ColourModel at hc
    unfold pxPair
    revert hc
    cases Spec.isRgb c.src_format.pixel_format <;> cases Spec.isRgb c.dst_format.pixel_format <;>
      simp
  rw [hpx]
  have h422 := supported_ne_i422 hs
  have acc : ∀ (f : ImageFormat) st (bufs : List Buf), f.pixel_format ≠ .i422 →
      Spec.PlanesOk f.pixel_format f.num_planes.toNat →
      f.num_planes.toNat ≤ bufs.length → (f.pixel_format = .nv12 → f.num_planes.toNat ≠ 1) →
      (¬ AccImage false f.pixel_format f.num_planes.toNat c.width.toNat c.height.toNat st bufs ↔
        ∃ (i : Nat) (rc : Nat × Nat) (b : Buf),
        (Spec.dims f.pixel_format f.num_planes.toNat c.width.toNat c.height.toNat)[i]? = some rc ∧
        bufs[i]? = some b ∧ b.len < Spec.strideOf st i rc.1 + rc.1 * (rc.2 - 1)) := by
    intro f st bufs h4 hpl hlen hn1
    have ex : ∀ (ds : List (Nat × Nat)), ds.length ≤ bufs.length →
        ((∃ (i : Nat) (rc : Nat × Nat) (b : Buf), ds[i]? = some rc ∧ bufs[i]? = some b ∧
          b.len < Spec.strideOf st i rc.1 + rc.1 * (rc.2 - 1)) ↔
        ∃ (i : Nat) (rc : Nat × Nat), ds[i]? = some rc ∧
          (bufAt bufs i).len < Spec.strideOf st i rc.1 + rc.1 * (rc.2 - 1)) := by
      intro ds hd
      constructor
      · rintro ⟨i, rc, b, a1, a2, a3⟩
        have := (List.getElem?_eq_some_iff.1 a2).1
        rw [buf_at this] at a2
        cases a2
        exact ⟨i, rc, a1, a3⟩
      · rintro ⟨i, rc, a1, a2⟩
        have := (List.getElem?_eq_some_iff.1 a1).1
        exact ⟨i, rc, _, a1, buf_at (by omega), a2⟩
    rw [ex _ (by rw [dims_len hpl]; exact hlen)]
    have one : ∀ r0 : Nat × Nat, (∃ (i : Nat) (rc : Nat × Nat), [r0][i]? = some rc ∧
          (bufAt bufs i).len < Spec.strideOf st i rc.1 + rc.1 * (rc.2 - 1)) ↔
        ¬ Acc (bufAt bufs 0).len (Spec.strideOf st 0 r0.1) r0.1 r0.2 := by
      intro r0
      unfold Acc
      constructor
      · rintro ⟨i, rc, a1, a2⟩
        rcases i with _ | i
        · cases a1; omega
        · simp at a1
      · intro a
        exact ⟨0, r0, rfl, by omega⟩
    have two : ∀ r0 r1 : Nat × Nat, (∃ (i : Nat) (rc : Nat × Nat), [r0, r1][i]? = some rc ∧
          (bufAt bufs i).len < Spec.strideOf st i rc.1 + rc.1 * (rc.2 - 1)) ↔
        ¬ (Acc (bufAt bufs 0).len (Spec.strideOf st 0 r0.1) r0.1 r0.2 ∧
          Acc (bufAt bufs 1).len (Spec.strideOf st 1 r1.1) r1.1 r1.2) := by
      intro r0 r1
      unfold Acc
      constructor
      · rintro ⟨i, rc, a1, a2⟩
        rcases i with _ | _ | i
        · cases a1; omega
        · cases a1; simp only [Nat.zero_add] at a2; omega
        · simp at a1
      · intro a
        by_cases h0 : (bufAt bufs 0).len < Spec.strideOf st 0 r0.1 + r0.1 * (r0.2 - 1)
        · exact ⟨0, r0, rfl, h0⟩
        · exact ⟨1, r1, rfl, by omega⟩
    have three : ∀ r0 r1 r2 : Nat × Nat,
        (∃ (i : Nat) (rc : Nat × Nat), [r0, r1, r2][i]? = some rc ∧
          (bufAt bufs i).len < Spec.strideOf st i rc.1 + rc.1 * (rc.2 - 1)) ↔
        ¬ (Acc (bufAt bufs 0).len (Spec.strideOf st 0 r0.1) r0.1 r0.2 ∧
          Acc (bufAt bufs 1).len (Spec.strideOf st 1 r1.1) r1.1 r1.2 ∧
          Acc (bufAt bufs 2).len (Spec.strideOf st 2 r2.1) r2.1 r2.2) := by
      intro r0 r1 r2
      unfold Acc
      constructor
      · rintro ⟨i, rc, a1, a2⟩
        rcases i with _ | _ | _ | i
        · cases a1; omega
        · cases a1; simp only [Nat.zero_add] at a2; omega
        · cases a1; simp only [Nat.zero_add, Nat.reduceAdd] at a2; omega
        · simp at a1
      · intro a
        by_cases h0 : (bufAt bufs 0).len < Spec.strideOf st 0 r0.1 + r0.1 * (r0.2 - 1)
        · exact ⟨0, r0, rfl, h0⟩
        · by_cases h2 : (bufAt bufs 1).len < Spec.strideOf st 1 r1.1 + r1.1 * (r1.2 - 1)
          · exact ⟨1, r1, rfl, h2⟩
          · exact ⟨2, r2, rfl, by omega⟩
    cases hpf : f.pixel_format <;> rw [hpf] at hpl h4 hn1
    case argb | bgra | bgr | rgba | rgb => exact (one (_, _)).symm
    case i444 => exact (three (_, _) (_, _) (_, _)).symm
    case i422 => exact absurd rfl h4
    case i420 => exact (three (_, _) (_, _) (_, _)).symm
    case nv12 =>
      have := hn1 rfl
      simp only [AccImage, Spec.dims, if_neg this]
      exact (two (_, _) (_, _)).symm
  have a1 := acc c.src_format c.src_strides c.src_buffers h422.1 hl.planes hb h1
  have a2 := acc c.dst_format c.dst_strides c.dst_buffers h422.2 hl'.planes hb' h1'
  have p1 : Present c.src_format c.src_strides c.src_buffers := ⟨hg, hb⟩
  have p2 : Present c.dst_format c.dst_strides c.dst_buffers := ⟨hg', hb'⟩
  simp only [p1, p2, true_and]
  rw [not_and_or, a1, a2]
  constructor
  · rintro (⟨i, rc, b, h⟩ | ⟨i, rc, b, h⟩)
    · exact ⟨_, _, _, i, rc, b, .inl ⟨rfl, rfl, rfl⟩, h⟩
    · exact ⟨_, _, _, i, rc, b, .inr ⟨rfl, rfl, rfl⟩, h⟩
  · rintro ⟨f, st, bufs, i, rc, b, ⟨rfl, rfl, rfl⟩ | ⟨rfl, rfl, rfl⟩, h⟩
    · exact .inl ⟨i, rc, b, h⟩
    · exact .inr ⟨i, rc, b, h⟩

/-- 19 bytes are rejected; 20 of the 28 needed are accepted (`C14_counterexample`). -/
example : (convert .x64 crate plainCpu { exStride with src_buffers := [noise 19 1] }).status =
    some (some .notEnoughData) := by decide +kernel

/-- Planes of one or two lines that are too short are always rejected, whatever the stride. (For
three and more lines see `C14_counterexample`.) -/
theorem C14_two_lines_partial (hbits : t.bits = 64)
    (hq : Spec.Request t c)
    (hc : Spec.ColourModel c)
    (hb : c.src_format.num_planes.toNat ≤ c.src_buffers.length)
    (hb' : c.dst_format.num_planes.toNat ≤ c.dst_buffers.length)
    (h1 : c.src_format.pixel_format = .nv12 → c.src_format.num_planes.toNat ≠ 1)
    (h1' : c.dst_format.pixel_format = .nv12 → c.dst_format.num_planes.toNat ≠ 1)
    (f : ImageFormat) (strides : Option (List Nat)) (bufs : List Buf)
    (hf : (f = c.src_format ∧ strides = c.src_strides ∧ bufs = c.src_buffers) ∨
      (f = c.dst_format ∧ strides = c.dst_strides ∧ bufs = c.dst_buffers))
    (i row rows : Nat) (b : Buf)
    (hd : (Spec.dims f.pixel_format f.num_planes.toNat c.width.toNat c.height.toNat)[i]? =
      some (row, rows))
    (hbi : bufs[i]? = some b) (h2 : rows ≤ 2) (hS : row ≤ Spec.strideOf strides i row)
    (hshort : b.len < Spec.strideOf strides i row * (rows - 1) + row) :
    ∃ out, convertHook t impls cpu hook c = .ok (.error .notEnoughData, out) := by
  rw [C14_criterion_partial t impls cpu hook c hbits hq hc hb hb' h1 h1']
  refine ⟨f, strides, bufs, i, (row, rows), b, hf, hd, hbi, ?_⟩
  rcases (by omega : rows = 0 ∨ rows = 1 ∨ rows = 2) with rfl | rfl | rfl
  · simp only [Nat.zero_sub, Nat.mul_zero] at hshort ⊢; omega
  · simp only [Nat.sub_self, Nat.mul_zero] at hshort ⊢; omega
  · simp only [Nat.reduceSub, Nat.mul_one] at hshort ⊢; omega

theorem request_of_valid {c : Call} (hv : Spec.Valid t c) : Spec.Request t c :=
  ⟨hv.src_legal, hv.dst_legal, hv.supported, hv.width_ne, hv.height_ne, hv.src_fits.strides_len,
    hv.dst_fits.strides_len, hv.src_real, hv.dst_real⟩

/-- The hypotheses of the C12 and C14 theorems are met by `exEncode` (4x2, strided). -/
example : Spec.Request .x64 exEncode ∧ Spec.ColourModel exEncode :=
  ⟨request_of_valid _ exEncode_valid, by unfold Spec.ColourModel; decide⟩

/-! ## Absence of faults -/

/-- Calls that satisfy the documented requirements neither panic nor touch memory outside the
buffers, on every processor, when the loads of the vector kernels have room. (C15 and C16 claim this
for all calls; see the counterexamples.) -/
theorem C15_valid_partial (hv : Spec.Valid t c) (hm : Spec.VectorRoom cpu.set c) :
    ∃ out, convert t crate cpu c = .ok (.ok (), out) :=
  ⟨_, (Runs.crate hv hm).stores⟩

example : Spec.Valid .x64 exEncode ∧ Spec.Valid .x64 exDecode ∧ Spec.Valid .x64 exShuffle :=
  ⟨exEncode_valid, exDecode_valid, exShuffle_valid⟩

/-- RGB <-> YCbCr conversions with packed lines never fault on a 64-bit target, whatever the sizes,
formats and buffers (illegal, missing and too short ones included). -/
theorem C15_packed_partial (hbits : t.bits = 64) (hm : Spec.VectorRoom cpu.set c)
    (hc : Spec.ColourModel c) (hp : Spec.Packed c.src_strides) (hp' : Spec.Packed c.dst_strides)
    (hr : Spec.Real t c.src_buffers) (hr' : Spec.Real t c.dst_buffers) :
    ∃ r out, convert t crate cpu c = .ok (r, out) := by
  by_cases hl : Spec.LegalCall c
  case neg => exact ⟨_, _, illegal_outcome t crate cpu none hl⟩
  by_cases hs : Spec.Supported c.src_format.pixel_format c.dst_format.pixel_format
  case neg => exact ⟨_, _, unsupported_outcome t crate cpu none hl hs⟩
  by_cases he : c.width = 0 ∨ c.height = 0
  case pos => exact ⟨_, _, C18_empty_images t crate cpu none c hl hs he⟩
  have hw : c.width ≠ 0 := fun h => he (.inl h)
  have hh : c.height ≠ 0 := fun h => he (.inr h)
  obtain ⟨set, tb, hT, e⟩ := hook_table t crate cpu none
  by_cases hg : Spec.StridesGiven c.src_format c.src_strides
  case neg =>
    refine ⟨.error .notEnoughData, c.dst_buffers, ?_⟩
    rw [convert, e]
    exact convert_short hT hl.1 hl.2 hs hw hh (.inl fun h => hg h.strides_len)
  by_cases hg' : Spec.StridesGiven c.dst_format c.dst_strides
  case neg =>
    refine ⟨.error .notEnoughData, c.dst_buffers, ?_⟩
    rw [convert, e]
    exact convert_short hT hl.1 hl.2 hs hw hh (.inr fun h => hg' h.strides_len)
  have hq : Spec.Request t c := ⟨hl.1, hl.2, hs, hw, hh, hg, hg', hr, hr'⟩
  by_cases hold : Spec.HoldsPacked c.src_format c.width c.height c.src_buffers ∧
    Spec.HoldsPacked c.dst_format c.width c.height c.dst_buffers
  · obtain ⟨out, h⟩ := C15_valid_partial t cpu c ⟨by omega, hl.1, hl.2, hs, hw, hh,
      fits_of_packed hl.1 hh hp hg hold.1, fits_of_packed hl.2 hh hp' hg' hold.2, hr, hr'⟩ hm
    exact ⟨_, _, h⟩
  · obtain ⟨out, h⟩ := (C12_packed_rejected t crate cpu none c hbits hq hc hp hp').2 hold
    exact ⟨_, _, h⟩

example : Spec.ColourModel exShort ∧ Spec.Packed exShort.src_strides ∧
    Spec.Packed exShort.dst_strides :=
  ⟨by unfold Spec.ColourModel; decide, by rintro l ⟨⟩, by rintro l ⟨⟩; decide⟩

/-- **C16 is false**: a huge stride of a single-plane Nv12 image overflows `stride * height`. -/
def exHugeStride : Call where
  width := 2
  height := 2
  src_format := ⟨.nv12, .bt601, 1⟩
  src_strides := some [9223372036854775808]
  src_buffers := [noise 6 1]
  dst_format := ⟨.bgra, .rgb, 1⟩
  dst_strides := none
  dst_buffers := [noise 16 2]

theorem C16_counterexample :
    (convert .x64 crate plainCpu exHugeStride).fault = some .overflow := by
  decide +kernel

/-- A stride smaller than a packed line underflows `stride - 3 * width` in Rgb -> Bgra. -/
def exNarrowStride : Call where
  width := 2
  height := 2
  src_format := ⟨.rgb, .rgb, 1⟩
  src_strides := none
  src_buffers := [noise 12 1]
  dst_format := ⟨.bgra, .rgb, 1⟩
  dst_strides := some [7]
  dst_buffers := [noise 16 2]

theorem C16_counterexample_narrow :
    (convert .x64 crate plainCpu exNarrowStride).fault = some .overflow := by
  decide +kernel

/-! ## Overlapping lines -/

/-- A 4x2 Bgra image; luma lines of four bytes are to be stored at distance 1. -/
def exOverlap : Call where
  width := 4
  height := 2
  src_format := ⟨.bgra, .rgb, 1⟩
  src_strides := none
  src_buffers := [noise 32 1]
  dst_format := ⟨.i444, .bt601, 3⟩
  dst_strides := some [1, 0, 0]
  dst_buffers := [noise 5 2, noise 8 3, noise 8 4]

/-- **C59 is false**: the call succeeds and the second luma line overwrites the first. -/
theorem C59_counterexample :
    (convert .x64 crate plainCpu exOverlap).status = some none ∧
    (convert .x64 crate plainCpu { exOverlap with dst_strides := none, dst_buffers :=
      [noise 8 2, noise 8 3, noise 8 4] }).bytes 0 8 = some [55, 182, 89, 150, 123, 56, 158, 65] ∧
    (convert .x64 crate plainCpu exOverlap).bytes 0 5 =
      some [55, 123, 56, 158, 65] := by
  decide +kernel

/-- A destination plane of at least two lines with a stride smaller than a packed line is rejected
if its buffer has no more than stride times lines bytes (the size reported by `get_buffers_size`).
(Missing: larger buffers are accepted, see the counterexample.) -/
theorem C59_reported_size_partial (hbits : t.bits = 64)
    (hq : Spec.Request t c)
    (hc : Spec.ColourModel c)
    (hb : c.src_format.num_planes.toNat ≤ c.src_buffers.length)
    (hb' : c.dst_format.num_planes.toNat ≤ c.dst_buffers.length)
    (h1 : c.src_format.pixel_format = .nv12 → c.src_format.num_planes.toNat ≠ 1)
    (h1' : c.dst_format.pixel_format = .nv12 → c.dst_format.num_planes.toNat ≠ 1)
    (i row rows : Nat) (b : Buf)
    (hd : (Spec.dims c.dst_format.pixel_format c.dst_format.num_planes.toNat c.width.toNat
      c.height.toNat)[i]? = some (row, rows))
    (hbi : c.dst_buffers[i]? = some b) (h2 : 2 ≤ rows)
    (hS : Spec.strideOf c.dst_strides i row < row)
    (hlen : b.len ≤ Spec.strideOf c.dst_strides i row * rows) :
    ∃ out, convertHook t impls cpu hook c = .ok (.error .notEnoughData, out) := by
  rw [C14_criterion_partial t impls cpu hook c hbits hq hc hb hb' h1 h1']
  refine ⟨_, _, _, i, (row, rows), b, .inr ⟨rfl, rfl, rfl⟩, hd, hbi, ?_⟩
  obtain ⟨k, rfl⟩ : ∃ k, rows = k + 2 := ⟨rows - 2, by omega⟩
  simp only [show k + 2 - 1 = k + 1 by omega] at hlen ⊢
  generalize Spec.strideOf c.dst_strides i row = S at *
  have e : S * (k + 2) = S + S * (k + 1) := by rw [Nat.mul_add, Nat.mul_add]; omega
  have : S * (k + 1) < row * (k + 1) := Nat.mul_lt_mul_of_pos_right hS (by omega)
  omega

example : Spec.Legal exOverlap.src_format 4 2 ∧ Spec.Legal exOverlap.dst_format 4 2 ∧
    (Spec.dims .i444 3 4 2)[0]? = some (4, 2) ∧ Spec.strideOf exOverlap.dst_strides 0 4 = 1 ∧
    (1 : Nat) * 2 < (noise 5 2).len :=
  ⟨by decide +kernel, by decide +kernel, rfl, rfl, by decide⟩

/-! ## 32-bit targets -/

/-- A Bgra image of 2^30 pixels (4 GiB, more than a 32-bit process can address) in an empty
buffer. -/
def exWide : Call where
  width := 1073741824
  height := 1
  src_format := ⟨.bgra, .rgb, 1⟩
  src_strides := none
  src_buffers := [noise 0 1]
  dst_format := ⟨.i444, .bt601, 3⟩
  dst_strides := none
  dst_buffers := [noise 1073741824 2, noise 1073741824 3, noise 1073741824 4]

/-- **C64 is false**: in a 32-bit release build `4 * width` wraps to 0 and the call is accepted. -/
theorem C64_counterexample :
    (convert .x32r crate plainCpu exWide).fault = some .oobRead := by
  decide +kernel

/-- On 32-bit targets packed RGB <-> YCbCr conversions are accepted exactly if the buffers hold the
image, provided the length of a line and `width * height` fit 32 bits. -/
theorem C64_packed_partial (hbits : t.bits = 32)
    (h4 : Spec.bpp c.src_format.pixel_format * c.width.toNat < 2 ^ 32)
    (h4' : Spec.bpp c.dst_format.pixel_format * c.width.toNat < 2 ^ 32)
    (hwh : c.width.toNat * c.height.toNat < 2 ^ 32)
    (hq : Spec.Request t c) (hc : Spec.ColourModel c)
    (hp : Spec.Packed c.src_strides) (hp' : Spec.Packed c.dst_strides) :
    (∃ out, convertHook t impls cpu hook c = .ok (.error .notEnoughData, out)) ↔
      ¬ (Spec.HoldsPacked c.src_format c.width c.height c.src_buffers ∧
        Spec.HoldsPacked c.dst_format c.width c.height c.dst_buffers) :=
  packed_short_iff t impls cpu hook c (by omega) (by rw [hbits]; exact h4) (by rw [hbits]; exact h4')
    (by rw [hbits]; exact hwh)
    hq hc hp hp'

example : Spec.Valid .x32r { exEncode444 with dst_strides := some [0, 0, 0] } ∧
    Spec.Packed (some [0, 0, 0]) ∧ Spec.Packed exEncode444.src_strides :=
  ⟨valid_of_check (by decide +kernel), by rintro l ⟨⟩; decide, by rintro l ⟨⟩⟩

/-! ## Buffers of the reported size -/

theorem ent_eq (strides : Option (List Nat)) (i row : Nat) (hi : i < 4) :
    entB (strides.getD PixFmt.DEFAULT_STRIDES) i row = Spec.strideOf strides i row := by
  cases strides with
  | none =>
    rcases (by omega : i = 0 ∨ i = 1 ∨ i = 2 ∨ i = 3) with e | e | e | e <;> subst e <;> rfl
  | some l =>
    simp only [Option.getD_some, entB, Spec.strideOf, List.getD_eq_getElem?_getD]
    cases l[i]? <;> rfl

theorem plane_of_size {len S row rows : Nat} (h1 : 1 ≤ rows) (h2 : row ≤ S) (h3 : S * rows ≤ len) :
    Spec.PlaneFits len S row rows := by
  obtain ⟨k, rfl⟩ : ∃ k, rows = k + 1 := ⟨rows - 1, by omega⟩
  rw [Nat.mul_succ] at h3
  exact ⟨h2, by rw [Nat.add_sub_cancel]; omega, by omega⟩

theorem fits_of_reported (hb : 32 ≤ t.bits) (hc : t.checked = true) {f : ImageFormat}
    {w h : UInt32} {strides : Option (List Nat)} {sizes out : List Nat} {bufs : List Buf}
    (hh : h ≠ 0) (e : get_buffers_size t w h f strides sizes = .ok (.ok (), out))
    (hS : Spec.StridesOk f w h strides) (hx : Spec.NoExtraStrides f w strides)
    (ha : Spec.Allocated f out bufs) : Spec.Fits f w h strides bufs := by
  obtain ⟨hs, hr, h1, h2⟩ := gbs_checked hb hc e
  have hpl := hs.planes
  have hn := planes_le hpl
  have hblen : f.num_planes.toNat ≤ bufs.length := by
    obtain ⟨z, b, -, hb, -⟩ := ha (f.num_planes.toNat - 1) (by omega)
    have := (List.getElem?_eq_some_iff.1 hb).1
    omega
  have hh0 := u32_pos hh
  -- total of a single-plane image
  have single : f.num_planes.toNat = 1 → ∀ b, bufs[0]? = some b →
      sizeB f.pixel_format w.toNat h.toNat (strides.getD PixFmt.DEFAULT_STRIDES) 0 +
      sizeB f.pixel_format w.toNat h.toNat (strides.getD PixFmt.DEFAULT_STRIDES) 1 +
      (sizeB f.pixel_format w.toNat h.toNat (strides.getD PixFmt.DEFAULT_STRIDES) 2 +
      sizeB f.pixel_format w.toNat h.toNat (strides.getD PixFmt.DEFAULT_STRIDES) 3) ≤ b.len := by
    intro hn1 b hb0
    obtain ⟨z, b', hz, hb', hle⟩ := ha 0 (by omega)
    rw [hb0] at hb'
    cases hb'
    have hsl := hr.sizes_len
    rw [(h1 hn1).2, List.getElem?_set_self (by omega)] at hz
    cases hz
    exact hle
  simp only [sizeB, ent_eq strides 0 _ (by omega), ent_eq strides 1 _ (by omega),
    ent_eq strides 2 _ (by omega), ent_eq strides 3 _ (by omega)] at single
  have multi : 1 < f.num_planes.toNat → ∀ i b, i < f.num_planes.toNat → bufs[i]? = some b →
      Spec.strideOf strides i (rowB f.pixel_format i w.toNat) * rowsB f.pixel_format i h.toNat ≤
        b.len := by
    intro hn1 i b hi hbi
    obtain ⟨z, b', hz, hb', hle⟩ := ha i hi
    rw [hbi] at hb'
    cases hb'
    have hsl := hr.sizes_len
    rw [(h2 hn1).2, setAll_get, if_pos ⟨by omega, by omega, by omega⟩] at hz
    cases hz
    rw [sizeB, ent_eq strides i _ (by omega)] at hle
    exact hle
  have extra : ¬ (f.pixel_format = .nv12 ∧ f.num_planes.toNat = 1) → f.num_planes.toNat = 1 →
      ∀ i row, 1 ≤ i → Spec.strideOf strides i row = row := by
    intro hnv hn1 i row hi
    unfold Spec.NoExtraStrides at hx
    rw [if_neg hnv] at hx
    cases strides with
    | none => rfl
    | some l =>
      have := hx l rfl
      have : l.getD i 0 = 0 := by
        rw [List.getD_eq_getElem?_getD, List.getElem?_eq_none (by omega)]; rfl
      simp only [Spec.strideOf, this, if_true]
  refine ⟨hr.strides_len, hblen, ?_, ?_⟩
  · intro i b rc hbi hd
    have h3 := dims_rows_pos hs.size hh hd
    have h4 := hS i rc hd
    refine plane_of_size h3 h4 ?_
    have hlt : i < f.num_planes.toNat := by
      have := (List.getElem?_eq_some_iff.1 hd).1
      rw [dims_len hpl] at this
      exact this
    have rgb4 : f.num_planes.toNat = 1 → f.pixel_format ≠ .nv12 → rc = (4 * w.toNat, h.toNat) →
        (∀ i, rowB f.pixel_format i w.toNat = w.toNat) →
        (∀ i, rowsB f.pixel_format i h.toNat = h.toNat) →
        Spec.strideOf strides i rc.1 * rc.2 ≤ b.len := by
      intro hn1 hpf hrc hrow hrows
      have hi : i = 0 := by omega
      subst hi
      have := single hn1 b hbi
      have ex := extra (fun h => hpf h.1) hn1
      simp only [hrow, hrows, ex 1 _ (by omega), ex 2 _ (by omega), ex 3 _ (by omega)] at this
      subst hrc
      refine Nat.le_trans ?_ this
      simp only [Spec.strideOf]
      have e4 : 4 * w.toNat * h.toNat = w.toNat * h.toNat + w.toNat * h.toNat +
        (w.toNat * h.toNat + w.toNat * h.toNat) := by rw [Nat.mul_assoc]; omega
      cases strides with
      | none => simp only; omega
      | some l =>
        simp only
        split <;> omega
    have rgb3 : f.num_planes.toNat = 1 → f.pixel_format ≠ .nv12 → rc = (3 * w.toNat, h.toNat) →
        (∀ i, rowB f.pixel_format i w.toNat = if i < 3 then w.toNat else 0) →
        (∀ i, rowsB f.pixel_format i h.toNat = h.toNat) →
        Spec.strideOf strides i rc.1 * rc.2 ≤ b.len := by
      intro hn1 hpf hrc hrow hrows
      have hi : i = 0 := by omega
      subst hi
      have := single hn1 b hbi
      have ex := extra (fun h => hpf h.1) hn1
      simp only [hrow, hrows, ex 1 _ (by omega), ex 2 _ (by omega), ex 3 _ (by omega),
        Nat.reduceLT, if_true, if_false, Nat.lt_irrefl, Nat.zero_mul] at this
      subst hrc
      refine Nat.le_trans ?_ this
      simp only [Spec.strideOf]
      have e3 : 3 * w.toNat * h.toNat = w.toNat * h.toNat + w.toNat * h.toNat +
        (w.toNat * h.toNat + 0) := by rw [Nat.mul_assoc]; omega
      cases strides with
      | none => simp only; omega
      | some l =>
        simp only
        split <;> omega
    cases hpf : f.pixel_format <;> rw [hpf] at hpl hd <;> simp only [Spec.PlanesOk] at hpl
    case argb | bgra | rgba =>
      have hi : i = 0 := by omega
      subst hi
      cases hd
      rw [hpf] at rgb4
      exact rgb4 hpl (by decide) rfl (fun _ => rfl) (fun _ => rfl)
    case bgr | rgb =>
      have hi : i = 0 := by omega
      subst hi
      cases hd
      rw [hpf] at rgb3
      exact rgb3 hpl (by decide) rfl (fun _ => rfl) (fun _ => rfl)
    case i444 | i422 | i420 =>
      have := multi (by omega) i b hlt hbi
      rw [hpf] at this
      rcases (by omega : i = 0 ∨ i = 1 ∨ i = 2) with hi | hi | hi <;> subst hi <;> cases hd <;>
        exact this
    case nv12 =>
      rcases hpl with hn1 | hn1
      · have hi : i = 0 := by omega
        subst hi
        rw [hn1] at hd
        cases hd
        have := single hn1 b hbi
        rw [hpf] at this
        unfold Spec.NoExtraStrides at hx
        rw [if_pos ⟨hpf, hn1⟩] at hx
        have : Spec.strideOf strides 0 w.toNat * h.toNat +
          Spec.strideOf strides 1 w.toNat * (h.toNat / 2) ≤ b.len := by
          refine Nat.le_trans ?_ this
          exact Nat.le_add_right _ _
        refine Nat.le_trans ?_ this
        simp only [Nat.mul_add]
        exact Nat.add_le_add_left (Nat.mul_le_mul_right _ hx) _
      · have := multi (by omega) i b hlt hbi
        rw [hpf] at this
        rw [hn1] at hd
        rcases (by omega : i = 0 ∨ i = 1) with hi | hi <;> subst hi <;> cases hd <;> exact this
  · intro b hb0 hpf hn1
    have hsz := hs.size
    rw [hpf] at hsz
    have := single hn1 b hb0
    rw [hpf] at this
    unfold Spec.NoExtraStrides at hx
    rw [if_pos ⟨hpf, hn1⟩] at hx
    have : Spec.strideOf strides 0 w.toNat * h.toNat +
      Spec.strideOf strides 1 w.toNat * (h.toNat / 2) ≤ b.len := by
      refine Nat.le_trans ?_ this
      exact Nat.le_add_right _ _
    refine Nat.le_trans ?_ this
    rw [Nat.mul_add]
    refine Nat.add_le_add_left (Nat.mul_le_mul hx ?_) _
    have := hsz.2
    omega

/-- **C11, partial.** In a build with overflow checks (where a returned size is the exact one),
buffers of the reported sizes are accepted; every instruction set. The condition `NoExtraStrides`
is what is missing for the full claim. -/
theorem C11_reported_size_partial (hb : 32 ≤ t.bits) (hck : t.checked = true)
    (hl : Spec.LegalCall c)
    (hs : Spec.Supported c.src_format.pixel_format c.dst_format.pixel_format)
    (hr : Spec.Real t c.src_buffers) (hr' : Spec.Real t c.dst_buffers)
    (sizes sizes' out out' : List Nat)
    (e : get_buffers_size t c.width c.height c.src_format c.src_strides sizes = .ok (.ok (), out))
    (e' : get_buffers_size t c.width c.height c.dst_format c.dst_strides sizes' =
      .ok (.ok (), out'))
    (hS : Spec.StridesOk c.src_format c.width c.height c.src_strides)
    (hS' : Spec.StridesOk c.dst_format c.width c.height c.dst_strides)
    (hx : Spec.NoExtraStrides c.src_format c.width c.src_strides)
    (hx' : Spec.NoExtraStrides c.dst_format c.width c.dst_strides)
    (ha : Spec.Allocated c.src_format out c.src_buffers)
    (ha' : Spec.Allocated c.dst_format out' c.dst_buffers) :
    (¬ ∃ res, convertHook t impls cpu hook c = .ok (.error .notEnoughData, res)) ∧
    (Spec.VectorRoom cpu.set c → ∃ res, convert t crate cpu c = .ok (.ok (), res)) := by
  by_cases he : c.width = 0 ∨ c.height = 0
  · rw [C18_empty_images t impls cpu hook c hl hs he]
    refine ⟨fun ⟨_, h⟩ => (nomatch h), fun _ => ⟨_, C18_empty_images t crate cpu none c hl hs he⟩⟩
  have hw : c.width ≠ 0 := fun h => he (.inl h)
  have hh : c.height ≠ 0 := fun h => he (.inr h)
  have f1 := fits_of_reported t hb hck hh e hS hx ha
  have f2 := fits_of_reported t hb hck hh e' hS' hx' ha'
  have h0 := u32_pos hh
  refine ⟨?_, fun hm => C15_valid_partial t cpu c
    ⟨by omega, hl.1, hl.2, hs, hw, hh, f1, f2, hr, hr'⟩ hm⟩
  rw [short_iff hl.1 hl.2 hs hw hh (small_of_fits (by omega) hl.1 h0 f1 hr)
    (small_of_fits (by omega) hl.2 h0 f2 hr')]
  intro h
  exact h ⟨present_of_fits f1, present_of_fits f2, acc_image_of_fits hl.1 h0 f1 _,
    acc_image_of_fits hl.2 h0 f2 _⟩

/-- A strided Nv12 image in two planes. -/
example : Spec.StridesOk ⟨.nv12, .bt601, 2⟩ 4 2 (some [6, 5]) ∧
    Spec.NoExtraStrides ⟨.nv12, .bt601, 2⟩ 4 (some [6, 5]) ∧
    get_buffers_size .x64 4 2 ⟨.nv12, .bt601, 2⟩ (some [6, 5]) [0, 0] = .ok (.ok (), [12, 5]) ∧
    Spec.Allocated ⟨.nv12, .bt601, 2⟩ [12, 5] [noise 12 1, noise 7 2] := by
  refine ⟨?_, ?_, by decide +kernel, ?_⟩
  · intro i rc h
    rcases i with _ | _ | i
    · cases h; decide
    · cases h; decide
    · cases h
  · rintro l ⟨⟩; decide
  · intro i hi
    have hi : i < 2 := hi
    rcases (by omega : i = 0 ∨ i = 1) with rfl | rfl
    · exact ⟨_, _, rfl, rfl, by decide⟩
    · exact ⟨_, _, rfl, rfl, by decide⟩

/-- A 4x4 Nv12 image in one buffer of the reported size, lines at distance 10. -/
def exNv12Stride : Call where
  width := 4
  height := 4
  src_format := ⟨.nv12, .bt601, 1⟩
  src_strides := some [10]
  src_buffers := [noise 48 1]
  dst_format := ⟨.bgra, .rgb, 1⟩
  dst_strides := none
  dst_buffers := [noise 64 2]

/-- **C11 is false** for single-plane Nv12 images with one custom stride: a buffer of the reported
size is rejected. -/
theorem C11_counterexample :
    get_buffers_size .x64 4 4 ⟨.nv12, .bt601, 1⟩ (some [10]) [0] = .ok (.ok (), [48]) ∧
    (convert .x64 crate plainCpu exNv12Stride).status =
      some (some .notEnoughData) := by
  decide +kernel

end Verif
