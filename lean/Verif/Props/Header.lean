import Verif.Props.CApi
import Verif.Props.Dispatch
import Verif.Spec.Header
/-!
# C87: the C functions answer as the header documents
-/

namespace Verif

open CApi
open Spec (HeaderShape HeaderSpace HeaderPlanes HeaderValues HeaderConversion HeaderReadable
  HeaderPlanePointers OnePlaneI422 SlotHolds PlanesKept headerPixelFormat headerColorSpace
  headerMultiples headerConversions DCP_RESULT_OK DCP_RESULT_ERR DCP_ERROR_KIND_INVALID_VALUE
  DCP_ERROR_KIND_INVALID_OPERATION DCP_ERROR_KIND_NOT_ENOUGH_DATA)

/-! ## Reading the numbers -/

theorem header_pf (n : UInt32) (pf : PixelFormat) :
    headerPixelFormat n = some pf ↔ n = pf.toU32 := by
  constructor
  · intro h
    unfold headerPixelFormat at h
    repeat' (split at h; · cases h; assumption)
    cases h
  · rintro rfl; cases pf <;> rfl

theorem header_cs (n : UInt32) (cs : ColorSpace) :
    headerColorSpace n = some cs ↔ n = cs.toU32 := by
  constructor
  · intro h
    unfold headerColorSpace at h
    repeat' (split at h; · cases h; assumption)
    cases h
  · rintro rfl; cases cs <;> rfl

theorem toU32_inj {p q : PixelFormat} (h : p.toU32 = q.toU32) : p = q := by
  have h1 := (pixelFormat_valid 0).2 p
  rw [h, (pixelFormat_valid 0).2 q] at h1
  exact (Option.some.inj h1).symm

/-- Numbers of planes: documentation and library differ for I422 in one plane only. -/
theorem header_planes {f : CFormat} (h1 : ¬ OnePlaneI422 (some f)) {pf : PixelFormat}
    (e : f.pixel_format = pf.toU32) :
    HeaderPlanes pf f.num_planes.toNat ↔ Spec.PlanesOk pf f.num_planes.toNat := by
  cases pf
  case i422 =>
    constructor
    · rintro (h | h)
      · exact absurd ⟨f, rfl, e, UInt32.toNat_inj.1 h⟩ h1
      · exact h
    · exact .inr
  all_goals exact Iff.rfl

theorem header_size (pf : PixelFormat) (w h : Nat) :
    ((headerMultiples pf).1 ∣ w ∧ (headerMultiples pf).2 ∣ h) ↔ Spec.SizeOk pf w h := by
  cases pf <;> simp [headerMultiples, Spec.SizeOk] <;> omega

theorem rust_pf {f : CFormat} {pf : PixelFormat} (e : f.pixel_format = pf.toU32) :
    f.rust.pixel_format = pf := by
  show (pixelFormat? f.pixel_format).getD .argb = pf
  rw [e, (pixelFormat_valid 0).2 pf]
  rfl

theorem rust_cs {f : CFormat} {cs : ColorSpace} (e : f.color_space = cs.toU32) :
    f.rust.color_space = cs := by
  show (colorSpace? f.color_space).getD .rgb = cs
  rw [e, (colorSpace_valid 0).2 cs]
  rfl

theorem header_shape {f : CFormat} (h1 : ¬ OnePlaneI422 (some f)) (w h : UInt32) :
    HeaderShape f w h ↔ Spec.CPlanesOk f ∧ Spec.Shape f.rust w h := by
  constructor
  · rintro ⟨pf, e, hp, hs⟩
    have e := (header_pf _ _).1 e
    have hp := (header_planes h1 e).1 hp
    refine ⟨⟨pf, e, hp⟩, ?_, ?_⟩
    · rw [rust_pf e]; exact (header_size ..).1 hs
    · rw [rust_pf e]; exact hp
  · rintro ⟨⟨pf, e, hp⟩, hs, -⟩
    rw [rust_pf e] at hs
    exact ⟨pf, (header_pf _ _).2 e, (header_planes h1 e).2 hp, (header_size ..).2 hs⟩

theorem header_legal {f : CFormat} (h1 : ¬ OnePlaneI422 (some f)) (w h : UInt32) :
    (HeaderShape f w h ∧ HeaderSpace f) ↔ Spec.CFormatOk f ∧ Spec.Legal f.rust w h := by
  rw [header_shape h1]
  constructor
  · rintro ⟨⟨hp, hs⟩, pf, cs, e1, e2, h⟩
    have e1 := (header_pf _ _).1 e1
    have e2 := (header_cs _ _).1 e2
    refine ⟨⟨hp, cs, e2⟩, ?_, hs.size, hs.planes⟩
    unfold Spec.CsOk
    rw [rust_pf e1, rust_cs e2]
    revert h
    cases pf <;> cases cs <;> decide
  · rintro ⟨⟨hp, cs, e2⟩, hl⟩
    refine ⟨⟨hp, hl.size, hl.planes⟩, ?_⟩
    obtain ⟨pf, e1, -⟩ := hp
    refine ⟨pf, cs, (header_pf _ _).2 e1, (header_cs _ _).2 e2, ?_⟩
    have h := hl.cs
    unfold Spec.CsOk at h
    rw [rust_pf e1, rust_cs e2] at h
    revert h
    cases pf <;> cases cs <;> decide

theorem header_conv (p q : PixelFormat) :
    (p.toU32, q.toU32) ∈ headerConversions ↔ Spec.Supported p q := by
  cases p <;> cases q <;> decide

theorem header_readable {α : Type} {f : Option CFormat} {p : Option (List α)}
    (h1 : ¬ OnePlaneI422 f) (h : HeaderReadable f p) : Spec.ArrayReadable f p := by
  rintro g l rfl ⟨pf, e, hp⟩ rfl
  exact h g l rfl rfl ⟨pf, (header_pf _ _).2 e, (header_planes h1 e).2 hp⟩

/-! ## `dcp_convert_image` -/

/-- The C function once the pointers are good: a call of `convert_image` on the caller's planes
(and unused array elements). -/
theorem dcp_convert_raw {t : Target} {impls : InstructionSet → Impl} {cpu : Cpu} {world : World}
    {c : CCall} {sf df : CFormat} {sb db : List (Option Buf)}
    (e1 : c.src_format = some sf) (e2 : c.dst_format = some df)
    (e3 : c.src_buffers = some sb) (e4 : c.dst_buffers = some db)
    (h1 : Spec.CFormatOk sf) (h2 : Spec.CFormatOk df)
    (b1 : sf.num_planes.toNat ≤ sb.length) (b2 : df.num_planes.toNat ≤ db.length)
    (g1 : HeaderPlanePointers sf sb) (g2 : HeaderPlanePointers df db) :
    ∃ (call : Call) (bd junk : List Buf), call.width = c.width ∧ call.height = c.height ∧
      call.src_format = sf.rust ∧ call.dst_format = df.rust ∧
      bd.map some = db.take df.num_planes.toNat ∧
      call.dst_buffers = bd.map (inflate t) ++ junk ∧
      (∀ f, convert t impls cpu call = .error f →
        dcp_convert_image t impls cpu world c = .error f) ∧
      ∀ r out, convert t impls cpu call = .ok (r, out) →
        dcp_convert_image t impls cpu world c = .ok ⟨cResult r, cError c.error r,
          some (bd.zipWith (fun b o => ⟨b.len, o.bytes⟩) out, out.drop bd.length)⟩ := by
  rcases c with ⟨w, h, _, ss, _, _, ds, _, err⟩
  simp only at e1 e2 e3 e4
  subst e1 e2 e3 e4
  obtain ⟨⟨p1, u1, q1⟩, s1, v1⟩ := h1
  obtain ⟨⟨p2, u2, q2⟩, s2, v2⟩ := h2
  have ptr : ∀ {n : Nat} {arr : List (Option Buf)}, n ≤ arr.length →
      (∀ j, j < n → arr[j]? ≠ some none) →
      ∃ bs, planePtrs arr 0 n = .ok (some bs) ∧ bs.map some = arr.take n := by
    intro n arr hn h
    rcases planePtrs_spec arr n 0 (by omega) with ⟨-, j, -, hj, e⟩ | ⟨bs, h1, h2⟩
    · exact absurd e (h j (by omega))
    · exact ⟨bs, h1, by rwa [List.drop_zero] at h2⟩
  obtain ⟨bs, k1, -⟩ := ptr b1 g1
  obtain ⟨bd, k2, k3⟩ := ptr b2 g2
  have f1 := (pixelFormat_valid sf.pixel_format).1.2 ⟨_, u1⟩
  have f2 := (pixelFormat_valid df.pixel_format).1.2 ⟨_, u2⟩
  have f3 := (colorSpace_valid sf.color_space).1.2 ⟨_, v1⟩
  have f4 := (colorSpace_valid df.color_space).1.2 ⟨_, v2⟩
  have m1 := planes_compatible p1 sf.num_planes
  have m2 := planes_compatible p2 df.num_planes
  rw [decide_eq_true q1, ← u1] at m1
  rw [decide_eq_true q2, ← u2] at m2
  refine ⟨⟨w, h, sf.rust, ss.map fun l => unbounded t l world.src_strides,
    bs.map (inflate t) ++ world.src_planes.take (PixFmt.MAX_NUMBER_OF_PLANES - bs.length),
    df.rust, ds.map fun l => unbounded t l world.dst_strides,
    bd.map (inflate t) ++ world.dst_planes.take (PixFmt.MAX_NUMBER_OF_PLANES - bd.length)⟩,
    bd, _, rfl, rfl, rfl, rfl, k3, rfl, ?_, ?_⟩
  · intro f hf
    unfold dcp_convert_image
    simp only [Option.isNone_some, Bool.or_false, Bool.false_eq_true, if_false, deref, ok_bind,
      f1, f2, f3, f4, m1, m2, Bool.not_true, planes_min q1, planes_min q2, k1, k2]
    rw [hf]
    rfl
  · intro r out hf
    unfold dcp_convert_image
    simp only [Option.isNone_some, Bool.or_false, Bool.false_eq_true, if_false, deref, ok_bind,
      f1, f2, f3, f4, m1, m2, Bool.not_true, planes_min q1, planes_min q2, k1, k2]
    rw [hf]
    rcases r with e | ⟨⟩ <;> rfl

theorem planes_kept {c : CCall} {db : List (Option Buf)} {bd junk : List Buf} {n : Nat}
    {t : Target} {res : CResult} {error : Option ErrorKind} (e : c.dst_buffers = some db)
    (h : bd.map some = db.take n) :
    PlanesKept c ⟨res, error, some (bd.zipWith (fun b o : Buf => (⟨b.len, o.bytes⟩ : Buf))
      (bd.map (inflate t) ++ junk), (bd.map (inflate t) ++ junk).drop bd.length)⟩ := by
  rintro p ⟨⟩
  have h1 := (after_same (l := bd) (junk := junk) (t := t) (Nat.le_refl _)).1
  rw [List.take_length] at h1
  refine ⟨db, e, ?_⟩
  simp only [h1]
  have h2 : bd.length = min n db.length := by
    have := congrArg List.length h
    simpa using this
  rw [h, h2, Nat.min_def]
  split
  · rfl
  · rw [List.take_length, List.take_of_length_le (by omega)]

/-- **C87.** A program written against the header sees the documented numbers. Missing: I422 images
in one plane, which the header allows (`C87_counterexample`).

1. A null pointer, a number that is no enumerator, a colour space, a size or a number of planes
that does not go with the pixel format: the result is `DCP_RESULT_ERR`, the error is
`DCP_ERROR_KIND_INVALID_VALUE`, no plane changes.
2. A conversion that is not in the table: `DCP_RESULT_ERR`, `DCP_ERROR_KIND_INVALID_OPERATION`, no
plane changes.
3. Otherwise, if the call returns: `DCP_RESULT_OK` and the error slot is left alone, or
`DCP_RESULT_ERR` and `DCP_ERROR_KIND_NOT_ENOUGH_DATA`. -/
theorem C87_convert_partial {t : Target} {impls : InstructionSet → Impl} {cpu : Cpu} {world : World}
    {c : CCall} (h1 : HeaderReadable c.src_format c.src_buffers)
    (h2 : HeaderReadable c.dst_format c.dst_buffers)
    (n1 : ¬ OnePlaneI422 c.src_format) (n2 : ¬ OnePlaneI422 c.dst_format) :
    (¬ HeaderValues c → ∃ o, dcp_convert_image t impls cpu world c = .ok o ∧
      o.res.toU32 = DCP_RESULT_ERR ∧ SlotHolds c.error o.error DCP_ERROR_KIND_INVALID_VALUE ∧
      PlanesKept c o) ∧
    (HeaderValues c → ¬ HeaderConversion c → ∃ o, dcp_convert_image t impls cpu world c = .ok o ∧
      o.res.toU32 = DCP_RESULT_ERR ∧ SlotHolds c.error o.error DCP_ERROR_KIND_INVALID_OPERATION ∧
      PlanesKept c o) ∧
    (HeaderValues c → HeaderConversion c →
      ∀ o, dcp_convert_image t impls cpu world c = .ok o →
        (o.res.toU32 = DCP_RESULT_OK ∧ o.error = c.error) ∨
        (o.res.toU32 = DCP_RESULT_ERR ∧
          SlotHolds c.error o.error DCP_ERROR_KIND_NOT_ENOUGH_DATA)) := by
  have r1 := header_readable n1 h1
  have r2 := header_readable n2 h2
  have err : ∀ e : ErrorKind, SlotHolds c.error (cError c.error (.error e)) (errorNumber e) := by
    intro e
    cases hc : c.error <;> rfl
  have good : HeaderValues c → ∃ sf df sb db, c.src_format = some sf ∧ c.dst_format = some df ∧
      c.src_buffers = some sb ∧ c.dst_buffers = some db ∧ Spec.CFormatOk sf ∧ Spec.CFormatOk df ∧
      Spec.Legal sf.rust c.width c.height ∧ Spec.Legal df.rust c.width c.height ∧
      sf.num_planes.toNat ≤ sb.length ∧ df.num_planes.toNat ≤ db.length ∧
      HeaderPlanePointers sf sb ∧ HeaderPlanePointers df db := by
    rintro ⟨sf, df, sb, db, e1, e2, e3, e4, s1, s2, s3, s4, s5, s6⟩
    have k1 := (header_legal (e1 ▸ n1) _ _).1 ⟨s1, s2⟩
    have k2 := (header_legal (e2 ▸ n2) _ _).1 ⟨s4, s5⟩
    exact ⟨sf, df, sb, db, e1, e2, e3, e4, k1.1, k2.1, k1.2, k2.2,
      r1 sf sb e1 k1.1.1 e3, r2 df db e2 k2.1.1 e4, s3, s6⟩
  refine ⟨?_, ?_, ?_⟩
  · intro hv
    by_cases hg : Spec.GoodFormat c.src_format ∧ Spec.GoodFormat c.dst_format ∧
      Spec.GoodPlanes c.src_format c.src_buffers ∧ Spec.GoodPlanes c.dst_format c.dst_buffers
    swap
    · refine ⟨_, C57_convert_invalid r1 r2 hg, rfl, ?_, fun p h => nomatch h⟩
      exact err .invalidValue
    obtain ⟨⟨sf, e1, f1⟩, ⟨df, e2, f2⟩, ⟨sf', sb, e1', e3, g1⟩, ⟨df', db, e2', e4, g2⟩⟩ := hg
    cases Option.some.inj (e1.symm.trans e1')
    cases Option.some.inj (e2.symm.trans e2')
    obtain ⟨call, bd, junk, k1, k2, k3, k4, k5, k6, -, k7⟩ := dcp_convert_raw (t := t)
      (impls := impls) (cpu := cpu) (world := world) e1 e2 e3 e4 f1 f2
      (r1 sf sb e1 f1.1 e3) (r2 df db e2 f2.1 e4) g1 g2
    have hl : ¬ Spec.LegalCall call := by
      rintro ⟨l1, l2⟩
      rw [k1, k2, k3] at l1
      rw [k1, k2, k4] at l2
      have j1 := (header_legal (e1 ▸ n1) _ _).2 ⟨f1, l1⟩
      have j2 := (header_legal (e2 ▸ n2) _ _).2 ⟨f2, l2⟩
      exact hv ⟨sf, df, sb, db, e1, e2, e3, e4, j1.1, j1.2, g1, j2.1, j2.2, g2⟩
    have := k7 _ _ (illegal_outcome t impls cpu none hl)
    rw [k6] at this
    exact ⟨_, this, rfl, err .invalidValue, planes_kept e4 k5⟩
  · intro hv hc
    obtain ⟨sf, df, sb, db, e1, e2, e3, e4, f1, f2, l1, l2, b1, b2, g1, g2⟩ := good hv
    obtain ⟨call, bd, junk, k1, k2, k3, k4, k5, k6, -, k7⟩ := dcp_convert_raw (t := t)
      (impls := impls) (cpu := cpu) (world := world) e1 e2 e3 e4 f1 f2 b1 b2 g1 g2
    obtain ⟨p1, u1, -⟩ := f1.1
    obtain ⟨p2, u2, -⟩ := f2.1
    have := k7 _ _ (unsupported_outcome t impls cpu none
      (by rw [← k1, ← k2] at l1 l2; exact ⟨k3 ▸ l1, k4 ▸ l2⟩) (by
        intro hs
        rw [k3, k4, rust_pf u1, rust_pf u2] at hs
        apply hc
        intro sf' df' e1' e2'
        cases Option.some.inj (e1.symm.trans e1')
        cases Option.some.inj (e2.symm.trans e2')
        rw [u1, u2]
        exact (header_conv p1 p2).2 hs))
    rw [k6] at this
    exact ⟨_, this, rfl, err .invalidOperation, planes_kept e4 k5⟩
  · intro hv hc o ho
    obtain ⟨sf, df, sb, db, e1, e2, e3, e4, f1, f2, l1, l2, b1, b2, g1, g2⟩ := good hv
    obtain ⟨call, bd, junk, k1, k2, k3, k4, k5, k6, k8, k7⟩ := dcp_convert_raw (t := t)
      (impls := impls) (cpu := cpu) (world := world) e1 e2 e3 e4 f1 f2 b1 b2 g1 g2
    obtain ⟨p1, u1, -⟩ := f1.1
    obtain ⟨p2, u2, -⟩ := f2.1
    have hs : Spec.Supported call.src_format.pixel_format call.dst_format.pixel_format := by
      rw [k3, k4, rust_pf u1, rust_pf u2, ← header_conv, ← u1, ← u2]
      exact hc sf df e1 e2
    have hl : Spec.LegalCall call := by rw [← k1, ← k2] at l1 l2; exact ⟨k3 ▸ l1, k4 ▸ l2⟩
    cases hr : convert t impls cpu call with
    | error f => rw [k8 f hr] at ho; cases ho
    | ok q =>
      obtain ⟨r, out⟩ := q
      rw [k7 r out hr] at ho
      cases ho
      rcases supported_cases t impls cpu none hl hs r out hr with rfl | rfl
      · exact .inl ⟨rfl, rfl⟩
      · exact .inr ⟨rfl, err .notEnoughData⟩

/-- Case 1 occurs: an odd width for NV12. -/
example (z : Buf) : ∃ c : CCall, HeaderReadable c.src_format c.src_buffers ∧
    HeaderReadable c.dst_format c.dst_buffers ∧ ¬ OnePlaneI422 c.src_format ∧
    ¬ OnePlaneI422 c.dst_format ∧ c.error ≠ none ∧ ¬ HeaderValues c := by
  refine ⟨⟨3, 2, some ⟨1, 0, 1⟩, none, some [some z], some ⟨8, 1, 2⟩, none,
    some [some z, some z], some .notEnoughData⟩, ?_, ?_, ?_, ?_, nofun, ?_⟩
  · rintro g l ⟨⟩ ⟨⟩ -; exact Nat.le_refl 1
  · rintro g l ⟨⟩ ⟨⟩ -; exact Nat.le_refl 2
  · rintro ⟨f, ⟨⟩, h, -⟩; exact absurd h (by decide : ¬ (1 : UInt32) = 6)
  · rintro ⟨f, ⟨⟩, h, -⟩; exact absurd h (by decide : ¬ (8 : UInt32) = 6)
  · rintro ⟨sf, df, sb, db, ⟨⟩, ⟨⟩, -, -, -, -, -, ⟨pf, e, -, h, -⟩, -⟩
    cases e
    exact absurd h (by decide : ¬ 2 ∣ (3 : UInt32).toNat)

theorem ptr_single {f : CFormat} (z : Buf) (more : List (Option Buf)) (hf : f.num_planes = 1) :
    HeaderPlanePointers f (some z :: more) := by
  intro j hj
  rw [hf] at hj
  have : j = 0 := by simpa using hj
  subst this
  simp

theorem two_by_two (pf : PixelFormat) : (headerMultiples pf).1 ∣ (2 : UInt32).toNat ∧
    (headerMultiples pf).2 ∣ (2 : UInt32).toNat := by
  cases pf <;> decide

/-- Case 2 occurs: I422 to BGRA; the null pointer is no plane. -/
example (z : Buf) : ∃ c : CCall, HeaderReadable c.src_format c.src_buffers ∧
    HeaderReadable c.dst_format c.dst_buffers ∧ ¬ OnePlaneI422 c.src_format ∧
    ¬ OnePlaneI422 c.dst_format ∧ c.error ≠ none ∧ HeaderValues c ∧ ¬ HeaderConversion c := by
  refine ⟨⟨2, 2, some ⟨6, 1, 3⟩, none, some [some z, some z, some z], some ⟨1, 0, 1⟩,
    none, some [some z, none], some .notEnoughData⟩, ?_, ?_, ?_, ?_, nofun, ?_, ?_⟩
  · rintro g l ⟨⟩ ⟨⟩ -; exact Nat.le_refl 3
  · rintro g l ⟨⟩ ⟨⟩ -; exact (by decide : 1 ≤ 2)
  · rintro ⟨f, ⟨⟩, -, h⟩; exact absurd h (by decide : ¬ (3 : UInt32) = 1)
  · rintro ⟨f, ⟨⟩, h, -⟩; exact absurd h (by decide : ¬ (1 : UInt32) = 6)
  · refine ⟨_, _, _, _, rfl, rfl, rfl, rfl, ⟨.i422, rfl, .inr rfl, two_by_two _⟩,
      ⟨.i422, .bt601, rfl, rfl, by decide⟩, ?_,
      ⟨.bgra, rfl, (rfl : (1 : UInt32).toNat = 1), two_by_two _⟩,
      ⟨.bgra, .rgb, rfl, rfl, by decide⟩, ptr_single z _ rfl⟩
    intro j hj
    have hj : j < 3 := hj
    rcases (by omega : j = 0 ∨ j = 1 ∨ j = 2) with rfl | rfl | rfl <;> simp
  · intro h
    exact absurd (h _ _ rfl rfl) (by decide : ¬ ((6 : UInt32), (1 : UInt32)) ∈ headerConversions)

/-- Case 3 occurs: BGRA to NV12 in two planes. -/
example (z : Buf) : ∃ c : CCall, HeaderReadable c.src_format c.src_buffers ∧
    HeaderReadable c.dst_format c.dst_buffers ∧ ¬ OnePlaneI422 c.src_format ∧
    ¬ OnePlaneI422 c.dst_format ∧ c.error ≠ none ∧ HeaderValues c ∧ HeaderConversion c := by
  refine ⟨⟨2, 2, some ⟨1, 0, 1⟩, none, some [some z], some ⟨8, 1, 2⟩, none,
    some [some z, some z], some .invalidValue⟩, ?_, ?_, ?_, ?_, nofun, ?_, ?_⟩
  · rintro g l ⟨⟩ ⟨⟩ -; exact Nat.le_refl 1
  · rintro g l ⟨⟩ ⟨⟩ -; exact Nat.le_refl 2
  · rintro ⟨f, ⟨⟩, h, -⟩; exact absurd h (by decide : ¬ (1 : UInt32) = 6)
  · rintro ⟨f, ⟨⟩, h, -⟩; exact absurd h (by decide : ¬ (8 : UInt32) = 6)
  · refine ⟨_, _, _, _, rfl, rfl, rfl, rfl,
      ⟨.bgra, rfl, (rfl : (1 : UInt32).toNat = 1), two_by_two _⟩,
      ⟨.bgra, .rgb, rfl, rfl, by decide⟩, ptr_single z _ rfl,
      ⟨.nv12, rfl, .inr rfl, two_by_two _⟩, ⟨.nv12, .bt601, rfl, rfl, by decide⟩, ?_⟩
    intro j hj
    have hj : j < 2 := hj
    rcases (by omega : j = 0 ∨ j = 1) with rfl | rfl <;> simp
  · intro sf df e1 e2
    cases e1; cases e2
    exact (by decide : ((1 : UInt32), (8 : UInt32)) ∈ headerConversions)

/-! ## `dcp_get_buffers_size` -/

/-- The C function once the pointers are good. -/
theorem dcp_sizes_raw {t : Target} {w h : UInt32} {f : CFormat} {strides : Option (List Nat)}
    {l : List Nat} {error : Option ErrorKind} (hp : Spec.CPlanesOk f)
    (h1 : ∀ s, strides = some s → f.num_planes.toNat ≤ s.length)
    (h2 : f.num_planes.toNat ≤ l.length) :
    (∀ e, get_buffers_size t w h f.rust (strides.map (·.take f.num_planes.toNat))
        (l.take f.num_planes.toNat) = .error e →
      dcp_get_buffers_size t w h (some f) strides (some l) error = .error e) ∧
    ∀ r out, get_buffers_size t w h f.rust (strides.map (·.take f.num_planes.toNat))
        (l.take f.num_planes.toNat) = .ok (r, out) →
      dcp_get_buffers_size t w h (some f) strides (some l) error =
        .ok ⟨cResult r, cError error r, some (out ++ l.drop f.num_planes.toNat)⟩ := by
  obtain ⟨pf, u, q⟩ := hp
  have e1 := (pixelFormat_valid f.pixel_format).1.2 ⟨_, u⟩
  have k := planes_compatible pf f.num_planes
  rw [decide_eq_true q, ← u] at k
  unfold dcp_get_buffers_size
  simp only [Option.isNone_some, Bool.or_false, Bool.false_eq_true, if_false, deref, ok_bind, e1,
    k, Bool.not_true, rawSlice, if_pos h2]
  constructor
  · intro e hr
    cases strides with
    | none =>
      simp only [pure_bind]
      rw [show get_buffers_size t w h f.rust none _ = _ from hr]
      rfl
    | some s =>
      simp only [if_pos (h1 s rfl)]
      show (do
        let x ← get_buffers_size t w h f.rust (some (s.take f.num_planes.toNat)) _
        _) = _
      rw [show get_buffers_size t w h f.rust (some (s.take f.num_planes.toNat)) _ = _ from hr]
      rfl
  · intro r out hr
    cases strides with
    | none =>
      simp only [pure_bind]
      rw [show get_buffers_size t w h f.rust none _ = _ from hr]
      rcases r with e | ⟨⟩ <;> rfl
    | some s =>
      simp only [if_pos (h1 s rfl)]
      show (do
        let x ← get_buffers_size t w h f.rust (some (s.take f.num_planes.toNat)) _
        _) = _
      rw [show get_buffers_size t w h f.rust (some (s.take f.num_planes.toNat)) _ = _ from hr]
      rcases r with e | ⟨⟩ <;> rfl

/-- **C87.** `dcp_get_buffers_size`: null pointers, a pixel format that is none, a wrong size or
number of planes give `DCP_RESULT_ERR` and `DCP_ERROR_KIND_INVALID_VALUE`, and the caller's array
does not change; otherwise the call, if it returns, answers `DCP_RESULT_OK`, leaves the error slot
alone and writes only as many elements as there are planes. The colour space does not matter. -/
theorem C87_sizes_partial {t : Target} {w h : UInt32} {format : Option CFormat}
    {strides sizes : Option (List Nat)} {error : Option ErrorKind}
    (h1 : HeaderReadable format strides) (h2 : HeaderReadable format sizes)
    (n1 : ¬ OnePlaneI422 format) :
    (¬ ((∃ f, format = some f ∧ HeaderShape f w h) ∧ sizes ≠ none) →
      ∃ o, dcp_get_buffers_size t w h format strides sizes error = .ok o ∧
        o.res.toU32 = DCP_RESULT_ERR ∧ SlotHolds error o.error DCP_ERROR_KIND_INVALID_VALUE ∧
        o.sizes = sizes) ∧
    (∀ f l, format = some f → HeaderShape f w h → sizes = some l →
      ∀ o, dcp_get_buffers_size t w h format strides sizes error = .ok o →
        o.res.toU32 = DCP_RESULT_OK ∧ o.error = error ∧
        ∃ out, o.sizes = some out ∧ out.length = l.length ∧
          out.drop f.num_planes.toNat = l.drop f.num_planes.toNat) := by
  have r1 := header_readable n1 h1
  have r2 := header_readable n1 h2
  have err : SlotHolds error (error.map fun _ => .invalidValue) DCP_ERROR_KIND_INVALID_VALUE := by
    cases error <;> rfl
  constructor
  · intro hbad
    by_cases hg : (∃ f, format = some f ∧ Spec.CPlanesOk f) ∧ sizes ≠ none
    swap
    · exact ⟨_, C57_sizes_invalid hg, rfl, err, rfl⟩
    obtain ⟨⟨f, rfl, hp⟩, hs⟩ := hg
    obtain ⟨l, rfl⟩ := Option.ne_none_iff_exists'.1 hs
    have hsh : ¬ Spec.Shape f.rust w h := fun hsh =>
      hbad ⟨⟨f, rfl, (header_shape n1 w h).2 ⟨hp, hsh⟩⟩, hs⟩
    have := (dcp_sizes_raw (t := t) (w := w) (h := h) (error := error) hp
      (fun s e => r1 f s rfl hp e) (r2 f l rfl hp rfl)).2 _ _
      (gbs_invalid (t := t) (w := w) (h := h) (f := f.rust)
        (strides := strides.map (·.take f.num_planes.toNat)) (sizes := l.take f.num_planes.toNat)
        hsh)
    exact ⟨_, this, rfl, err, congrArg some (List.take_append_drop ..)⟩
  · rintro f l rfl hsh rfl o ho
    obtain ⟨hp, hsh⟩ := (header_shape n1 w h).1 hsh
    have hl := r2 f l rfl hp rfl
    obtain ⟨k1, k2⟩ := dcp_sizes_raw (t := t) (w := w) (h := h) (error := error) hp
      (fun s e => r1 f s rfl hp e) hl
    cases hr : get_buffers_size t w h f.rust (strides.map (·.take f.num_planes.toNat))
        (l.take f.num_planes.toNat) with
    | error e => rw [k1 e hr] at ho; cases ho
    | ok q =>
      obtain ⟨r, out⟩ := q
      rw [k2 r out hr] at ho
      cases ho
      have hf := gbs_frame hsh ⟨?_, ?_⟩ hr
      · obtain ⟨rfl, e1, -⟩ := hf
        have e2 : out.length = f.num_planes.toNat := by
          rw [e1, List.length_take, Nat.min_eq_left hl]
        refine ⟨rfl, rfl, _, rfl, ?_, ?_⟩
        · rw [List.length_append, List.length_drop]; omega
        · rw [List.drop_left' e2]
      · intro s e
        cases strides with
        | none => cases e
        | some s' =>
          cases e
          have := r1 f s' rfl hp rfl
          rw [List.length_take, Nat.min_eq_left this]
          exact Nat.le_refl _
      · rw [List.length_take, Nat.min_eq_left hl]
        exact Nat.le_refl _

/-- Its hypotheses are met: NV12 with a colour space that is none, an array with a further element;
I420 in two planes. -/
example : ∃ f g : CFormat, HeaderShape f 4 2 ∧ ¬ HeaderSpace f ∧ ¬ OnePlaneI422 (some f) ∧
    HeaderReadable (some f) (some [0, 0, 7]) ∧ ¬ HeaderShape g 4 2 ∧
    HeaderReadable (some g) (some [0, 0, 7]) ∧ ¬ OnePlaneI422 (some g) := by
  refine ⟨⟨8, 99, 2⟩, ⟨7, 1, 2⟩, ⟨.nv12, rfl, .inr rfl, by decide, by decide⟩,
    ?_, ?_, ?_, ?_, ?_, ?_⟩
  · rintro ⟨pf, cs, -, e, -⟩
    revert e
    cases cs <;> decide
  · rintro ⟨f, ⟨⟩, h, -⟩; revert h; decide
  · rintro g l ⟨⟩ ⟨⟩ -; decide
  · rintro ⟨pf, e, h, -⟩
    cases e
    exact absurd h (by decide : ¬ (2 : UInt32).toNat = 3)
  · rintro g l ⟨⟩ ⟨⟩ -; decide
  · rintro ⟨f, ⟨⟩, h, -⟩; revert h; decide

/-- **C87.** The header allows I422 images in one plane, but both functions answer that a value is
invalid. -/
theorem C87_counterexample {t : Target} {impls : InstructionSet → Impl} {cpu : Cpu} {world : World} :
    ∃ c : CCall, HeaderReadable c.src_format c.src_buffers ∧
      HeaderReadable c.dst_format c.dst_buffers ∧ HeaderValues c ∧
      (∃ o, dcp_convert_image t impls cpu world c = .ok o ∧ o.res.toU32 = DCP_RESULT_ERR ∧
        o.error.map errorNumber = some DCP_ERROR_KIND_INVALID_VALUE) ∧
      ∃ f, c.src_format = some f ∧ HeaderShape f c.width c.height ∧
        ∃ o, dcp_get_buffers_size t c.width c.height (some f) none (some [0]) c.error = .ok o ∧
          o.res.toU32 = DCP_RESULT_ERR ∧
          o.error.map errorNumber = some DCP_ERROR_KIND_INVALID_VALUE := by
  have z : Buf := ⟨64, fun _ => 0⟩
  have no : ¬ Spec.CPlanesOk ⟨6, 1, 1⟩ := by
    rintro ⟨pf, h1, h2⟩
    cases pf <;> first | (revert h1; decide) | (revert h2; decide)
  have sh : HeaderShape ⟨6, 1, 1⟩ 2 2 := ⟨.i422, rfl, .inl rfl, two_by_two _⟩
  refine ⟨⟨2, 2, some ⟨6, 1, 1⟩, none, some [some z], some ⟨1, 0, 1⟩, none, some [some z],
    some .notEnoughData⟩, ?_, ?_, ?_, ?_, ⟨6, 1, 1⟩, rfl, sh, ?_⟩
  · rintro g l ⟨⟩ ⟨⟩ -; exact Nat.le_refl 1
  · rintro g l ⟨⟩ ⟨⟩ -; exact Nat.le_refl 1
  · exact ⟨_, _, _, _, rfl, rfl, rfl, rfl, sh, ⟨_, _, rfl, rfl, by decide⟩, ptr_single z [] rfl,
      ⟨_, rfl, (rfl : (1 : UInt32).toNat = 1), two_by_two _⟩,
      ⟨_, _, rfl, rfl, by decide⟩, ptr_single z [] rfl⟩
  · refine ⟨_, C57_convert_invalid ?_ ?_ ?_, rfl, rfl⟩
    · rintro g l ⟨⟩ - ⟨⟩; exact Nat.le_refl 1
    · rintro g l ⟨⟩ - ⟨⟩; exact Nat.le_refl 1
    · rintro ⟨⟨f, ⟨⟩, h, -⟩, -⟩; exact no h
  · refine ⟨_, C57_sizes_invalid ?_, rfl, rfl⟩
    rintro ⟨⟨f, ⟨⟩, h⟩, -⟩; exact no h

end Verif
