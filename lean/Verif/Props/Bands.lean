import Verif.Spec.Band
import Verif.Props.Pixels
import Mathlib.Tactic.Ring
/-!
# C72: converting an image in bands of lines

An application may split an image into bands of lines and convert them one by one (or on several
threads), passing sub-slices that begin at the first line of each band. The bytes stored are exactly
those the conversion of the whole image stores, on every processor.
-/

namespace Verif

open Spec (bytesAt strideOf dims painted)

variable {t : Target} {cpu : Cpu} {c : Call} {out out' : List Buf} {y0 : Nat} {n : UInt32}

theorem bytesAt_fromLine {f : ImageFormat} {w h : UInt32} {ss : Option (List Nat)} {y : Nat}
    {bufs : List Buf} (i k : Nat) :
    bytesAt (Spec.fromLine f w h ss y bufs) i k =
      bytesAt bufs i (Spec.lineOffset f w h ss i y + k) := by
  unfold bytesAt Spec.fromLine
  rw [List.getElem?_mapIdx]
  cases bufs[i]? <;> rfl

/-- The length of a packed line does not depend on the height. -/
theorem dims_row {f : ImageFormat} (hs : Spec.Separate f) (w h h' i : Nat) :
    ((dims f.pixel_format f.num_planes.toNat w h).getD i (0, 0)).1 =
      ((dims f.pixel_format f.num_planes.toNat w h').getD i (0, 0)).1 := by
  rcases f with ⟨pf, cs, m⟩
  unfold Spec.Separate at hs
  simp only at hs ⊢
  cases pf <;> simp only [dims] <;>
    first
    | (rcases i with _ | _ | _ | i <;> rfl)
    | (rw [if_neg (fun e => hs ⟨rfl, e⟩), if_neg (fun e => hs ⟨rfl, e⟩)]
       rcases i with _ | _ | i <;> rfl)

theorem planeAt_fromLine {f : ImageFormat} (hs : Spec.Separate f) {w h h' : UInt32}
    {ss : Option (List Nat)} {bufs : List Buf} (i j y y0 : Nat) :
    Spec.planeAt f w h' ss (Spec.fromLine f w h ss y0 bufs) i j y =
      Spec.planeAt f w h ss bufs i j (Spec.lineOf f.pixel_format i y0 + y) := by
  unfold Spec.planeAt Spec.plane
  rw [bytesAt_fromLine, Spec.lineOffset, dims_row hs w.toNat h'.toNat h.toNat i, Nat.mul_add]
  congr 1
  omega

theorem readRgb_fromLine {f : ImageFormat} (hr : Spec.isRgb f.pixel_format = true) {w h : UInt32}
    {ss : Option (List Nat)} {bufs : List Buf} (x y y0 : Nat) :
    let im := Spec.readRgb f w ss bufs
    let im' := Spec.readRgb f w ss (Spec.fromLine f w h ss y0 bufs)
    im'.r x y = im.r x (y0 + y) ∧ im'.g x y = im.g x (y0 + y) ∧ im'.b x y = im.b x (y0 + y) := by
  have e : Spec.lineOffset f w h ss 0 y0 =
      strideOf ss 0 (Spec.bpp f.pixel_format * w.toNat) * y0 := by
    unfold Spec.lineOffset
    rw [rgb_dims hr]
    simp [Spec.lineOf]
  simp only [Spec.readRgb, Spec.rgbImage]
  rw [bytesAt_fromLine, bytesAt_fromLine, bytesAt_fromLine, e, Nat.mul_add]
  refine ⟨?_, ?_, ?_⟩ <;> congr 1 <;> omega

theorem readYuv_fromLine {f : ImageFormat} (hs : Spec.Separate f)
    (hp : Spec.PlanesOk f.pixel_format f.num_planes.toNat) (hr : Spec.isRgb f.pixel_format = false)
    (hn : f.pixel_format ≠ .i422) {w h h' : UInt32} {ss : Option (List Nat)} {bufs : List Buf}
    (x y : Nat) {y0 : Nat} (he : Spec.halfLines f.pixel_format = true → y0 % 2 = 0) :
    let im := Spec.readYuv f w h ss bufs
    let im' := Spec.readYuv f w h' ss (Spec.fromLine f w h ss y0 bufs)
    im'.y x y = im.y x (y0 + y) ∧ im'.cb x y = im.cb x (y0 + y) ∧ im'.cr x y = im.cr x (y0 + y) := by
  have key := fun i j y => planeAt_fromLine (w := w) (h := h) (h' := h') (ss := ss) (bufs := bufs) hs
    i j y y0
  rcases f with ⟨pf, cs, m⟩
  simp only [Spec.readYuv]
  simp only at hr hn he hp key ⊢
  unfold Spec.Separate at hs
  simp only at hs
  cases pf <;> simp only [Spec.isRgb, Bool.true_eq_false, ne_eq, not_true_eq_false] at hr hn
  · simp only [Spec.i444Image, key, Spec.lineOf, Spec.halfLines, Bool.false_eq_true, false_and,
      if_false, and_self]
  · have he := he rfl
    have e : (y0 + y) / 2 = y0 / 2 + y / 2 := by omega
    simp only [Spec.i420Image, key, Spec.lineOf, Spec.halfLines, e]
    simp
  · have he := he rfl
    have e : (y0 + y) / 2 = y0 / 2 + y / 2 := by omega
    have hm : ¬ m = 1 := fun e => hs ⟨rfl, by rw [e]; rfl⟩
    simp only [if_neg hm, Spec.nv12Image, key, Spec.lineOf, Spec.halfLines, e]
    simp

/-- The planes to be stored for a band are the lines of the planes for the whole image. -/
theorem resultPlanes_band (S : Sem) (hv : Spec.Valid t c) (hb : c.IsBand y0 n) {i : Nat}
    {g g' : Spec.Plane}
    (hg : (S.resultPlanes c.width c.height c.src_format c.src_strides c.src_buffers
      c.dst_format)[i]? = some g)
    (hg' : (S.resultPlanes c.width n c.src_format c.src_strides
      (Spec.fromLine c.src_format c.width c.height c.src_strides y0 c.src_buffers)
      c.dst_format)[i]? = some g') (j y : Nat) :
    g' j y = g j (Spec.lineOf c.dst_format.pixel_format i y0 + y) := by
  have hsup := hv.supported
  have hne : c.src_format.pixel_format ≠ .i422 ∧ c.dst_format.pixel_format ≠ .i422 := by
    revert hsup
    cases c.src_format.pixel_format <;> cases c.dst_format.pixel_format <;> decide
  have hl : ∀ k, Spec.isRgb c.dst_format.pixel_format = true →
      Spec.lineOf c.dst_format.pixel_format k y0 = y0 := by
    intro k
    cases c.dst_format.pixel_format <;> simp [Spec.isRgb, Spec.lineOf, Spec.halfLines]
  unfold Sem.resultPlanes at hg hg'
  cases hsr : Spec.isRgb c.src_format.pixel_format with
  | true =>
    simp only [hsr, if_true] at hg hg'
    have key := fun x y => readRgb_fromLine (w := c.width) (h := c.height) (ss := c.src_strides)
      (bufs := c.src_buffers) hsr x y y0
    simp only at key
    cases hdr : Spec.isRgb c.dst_format.pixel_format with
    | true =>
      simp only [hdr, if_true] at hg hg'
      rcases i with _ | i
      · simp only [List.getElem?_cons_zero, Option.some.injEq] at hg hg'
        subst hg hg'
        simp only [Spec.rgbRow, (key _ _).1, (key _ _).2.1, (key _ _).2.2, hl 0 hdr]
      · simp at hg
    | false =>
      simp only [hdr, Bool.false_eq_true, if_false] at hg hg'
      have hde := hb.dst_even
      have hds := hb.dst_separate
      unfold Spec.Separate at hds
      unfold Sem.encodedPlanes at hg hg'
      generalize Spec.readRgb c.src_format c.width c.src_strides c.src_buffers = im at *
      generalize Spec.readRgb c.src_format c.width c.src_strides (Spec.fromLine c.src_format c.width
        c.height c.src_strides y0 c.src_buffers) = im' at *
      have hlu : ∀ s x y, Spec.lumaPlane s im' x y = Spec.lumaPlane s im x (y0 + y) := by
        intro s x y
        simp only [Spec.lumaPlane, (key _ _).1, (key _ _).2.1, (key _ _).2.2]
      have h444 : ∀ s x y,
          S.cb444 c.src_format.pixel_format c.width.toNat s im' x y =
            S.cb444 c.src_format.pixel_format c.width.toNat s im x (y0 + y) ∧
          S.cr444 c.src_format.pixel_format c.width.toNat s im' x y =
            S.cr444 c.src_format.pixel_format c.width.toNat s im x (y0 + y) := by
        intro s x y
        simp only [Sem.cb444, Sem.cr444, (key _ _).1, (key _ _).2.1, (key _ _).2.2, and_self]
      have h420 : y0 % 2 = 0 → ∀ s x y,
          S.cb420 c.src_format.pixel_format c.width.toNat s im' x y =
            S.cb420 c.src_format.pixel_format c.width.toNat s im x (y0 / 2 + y) ∧
          S.cr420 c.src_format.pixel_format c.width.toNat s im' x y =
            S.cr420 c.src_format.pixel_format c.width.toNat s im x (y0 / 2 + y) := by
        intro h2 s x y
        have e : 2 * (y0 / 2 + y) = y0 + 2 * y := by omega
        have e' : y0 + 2 * y + 1 = y0 + (2 * y + 1) := by omega
        simp only [Sem.cb420, Sem.cr420, Spec.sum4, (key _ _).1, (key _ _).2.1, (key _ _).2.2, e, e',
          and_self]
      rcases hdf : c.dst_format with ⟨pf, cs, m⟩
      rw [hdf] at hg hg' hdr hne hde hds
      simp only at hg hg' hdr hne hde hds ⊢
      cases pf <;> simp only [Spec.isRgb, Bool.true_eq_false, ne_eq, not_true_eq_false,
        and_false] at hdr hne
      · rcases i with _ | _ | _ | i <;> simp only [List.getElem?_cons_zero, List.getElem?_cons_succ,
          Option.some.injEq, List.getElem?_nil, reduceCtorEq] at hg hg' <;> subst hg hg' <;>
          simp [Spec.lineOf, Spec.halfLines, hlu, h444]
      · have h2 := h420 (hde rfl).1
        rcases i with _ | _ | _ | i <;> simp only [List.getElem?_cons_zero, List.getElem?_cons_succ,
          Option.some.injEq, List.getElem?_nil, reduceCtorEq] at hg hg' <;> subst hg hg' <;>
          simp [Spec.lineOf, Spec.halfLines, hlu, h2]
      · have h2 := h420 (hde rfl).1
        have hm : ¬ m = 1 := fun e => hds ⟨rfl, by rw [e]; rfl⟩
        simp only [if_neg hm] at hg hg'
        rcases i with _ | _ | i <;> simp only [List.getElem?_cons_zero, List.getElem?_cons_succ,
          Option.some.injEq, List.getElem?_nil, reduceCtorEq] at hg hg' <;> subst hg hg' <;>
          simp [Spec.lineOf, Spec.halfLines, hlu, Spec.interleave, h2]
  | false =>
    have hdr := yuv_src_rgb_dst hsup hsr
    simp only [hsr, Bool.false_eq_true, if_false] at hg hg'
    have key := fun x y => readYuv_fromLine (w := c.width) (h := c.height) (h' := n)
      (ss := c.src_strides) (bufs := c.src_buffers) hb.src_separate hv.src_legal.planes hsr hne.1 x y
      (y0 := y0) (fun e => (hb.src_even e).1)
    simp only at key
    rcases i with _ | i
    · simp only [List.getElem?_cons_zero, Option.some.injEq] at hg hg'
      subst hg hg'
      simp only [Spec.rgbRow, Sem.dec, (key _ _).1, (key _ _).2.1, (key _ _).2.2, hl 0 hdr]
    · simp at hg

/-- Lines of plane `i` in a band and in the whole image. -/
theorem dims_band {f : ImageFormat} (hs : Spec.Separate f) {w h m y0 i : Nat} (hi : y0 + m ≤ h)
    (he : Spec.halfLines f.pixel_format = true → y0 % 2 = 0 ∧ m % 2 = 0) {rc : Nat × Nat}
    (hd : (dims f.pixel_format f.num_planes.toNat w m)[i]? = some rc) :
    ∃ l, (dims f.pixel_format f.num_planes.toNat w h)[i]? = some (rc.1, l) ∧
      Spec.lineOf f.pixel_format i y0 + rc.2 ≤ l := by
  rcases f with ⟨pf, cs, q⟩
  unfold Spec.Separate at hs
  simp only at hs hd he ⊢
  have hnv : pf = .nv12 → q.toNat ≠ 1 := fun e e' => hs ⟨e, e'⟩
  cases pf <;> simp only [dims, Spec.halfLines, Bool.false_eq_true, false_implies, true_implies,
      ne_eq, reduceCtorEq] at hd he hnv ⊢ <;>
    (try rw [if_neg hnv] at hd) <;> (try rw [if_neg hnv]) <;>
    rcases i with _ | _ | _ | i <;>
    simp only [List.getElem?_cons_zero, List.getElem?_cons_succ, List.getElem?_nil,
      Option.some.injEq, reduceCtorEq] at hd <;>
    subst hd <;> simp [Spec.lineOf, Spec.halfLines] <;> omega

theorem lineOffset_eq {f : ImageFormat} {w h : UInt32} {ss : Option (List Nat)} {i y row l : Nat}
    (hd : (dims f.pixel_format f.num_planes.toNat w.toNat h.toNat)[i]? = some (row, l)) :
    Spec.lineOffset f w h ss i y = strideOf ss i row * Spec.lineOf f.pixel_format i y := by
  rw [Spec.lineOffset, List.getD_eq_getElem?_getD, hd]
  rfl

/-- Slices that begin at a line of the image hold a band, if the buffers hold whole lines. -/
theorem fits_fromLine {f : ImageFormat} {w h : UInt32} {ss : Option (List Nat)} {bufs : List Buf}
    (hs : Spec.Separate f) (hf : Spec.Fits f w h ss bufs) (hw : Spec.WholeLines f w h ss bufs)
    (hn : n ≠ 0) (hi : y0 + n.toNat ≤ h.toNat)
    (he : Spec.halfLines f.pixel_format = true → y0 % 2 = 0 ∧ n.toNat % 2 = 0) :
    Spec.Fits f w n ss (Spec.fromLine f w h ss y0 bufs) := by
  have hn' : 0 < n.toNat := by
    rcases Nat.eq_zero_or_pos n.toNat with e | e
    · exact absurd (UInt32.toNat_inj.1 (by rw [e]; rfl)) hn
    · exact e
  refine ⟨hf.strides_len, by simpa [Spec.fromLine] using hf.bufs_len, ?_, ?_⟩
  · intro i b rc hb hd
    obtain ⟨l, hd', hl⟩ := dims_band hs hi he hd
    unfold Spec.fromLine at hb
    rw [List.getElem?_mapIdx] at hb
    cases hb0 : bufs[i]? with
    | none => rw [hb0] at hb; cases hb
    | some b0 =>
      rw [hb0] at hb
      simp only [Option.map_some, Option.some.injEq] at hb
      subst hb
      have h1 := hf.plane i b0 _ hb0 hd'
      have h2 := hw i b0 _ hb0 hd'
      simp only at h1 h2
      have hrc : 0 < rc.2 := by
        rcases f with ⟨pf, cs, q⟩
        unfold Spec.Separate at hs
        simp only at hs hd he
        have hnv : pf = .nv12 → q.toNat ≠ 1 := fun e e' => hs ⟨e, e'⟩
        cases pf <;> simp only [dims, Spec.halfLines, Bool.false_eq_true, false_implies,
            true_implies, ne_eq, reduceCtorEq] at hd he hnv <;>
          (try rw [if_neg hnv] at hd) <;>
          rcases i with _ | _ | _ | i <;>
          simp only [List.getElem?_cons_zero, List.getElem?_cons_succ, List.getElem?_nil,
            Option.some.injEq, reduceCtorEq] at hd <;>
          subst hd <;> simp only <;> omega
      have h3 : strideOf ss i rc.1 * (Spec.lineOf f.pixel_format i y0 + rc.2) ≤ b0.len :=
        Nat.le_trans (Nat.mul_le_mul_left _ hl) h2
      rw [lineOffset_eq hd']
      simp only [Spec.dropBytes]
      rw [Nat.mul_add] at h3
      obtain ⟨r, hr⟩ : ∃ r, rc.2 = r + 1 := ⟨rc.2 - 1, by omega⟩
      rw [hr, Nat.mul_add, Nat.mul_one] at h3
      refine ⟨h1.row_le, ?_, ?_⟩
      · rw [hr, Nat.add_sub_cancel]
        have := h1.row_le
        omega
      · omega
  · intro b _ h1 h2
    exact absurd ⟨h1, h2⟩ hs

/-- Slices of real slices are real. -/
theorem real_fromLine {f : ImageFormat} {w h : UInt32} {ss : Option (List Nat)} {bufs : List Buf}
    (hr : Spec.Real t bufs) : Spec.Real t (Spec.fromLine f w h ss y0 bufs) := by
  intro b hb
  unfold Spec.fromLine at hb
  rw [List.mem_mapIdx] at hb
  obtain ⟨i, hi, rfl⟩ := hb
  have := hr _ (List.getElem_mem hi)
  simp only [Spec.dropBytes]
  omega

/-- C72: a band of a valid call is a valid call, if the buffers hold whole lines. -/
theorem C72_band_valid (hv : Spec.Valid t c) (hb : c.IsBand y0 n)
    (hs : Spec.WholeLines c.src_format c.width c.height c.src_strides c.src_buffers)
    (hd : Spec.WholeLines c.dst_format c.width c.height c.dst_strides c.dst_buffers) :
    Spec.Valid t (c.band y0 n) := by
  have hsz : ∀ {f : ImageFormat}, Spec.Legal f c.width c.height →
      (Spec.halfLines f.pixel_format = true → y0 % 2 = 0 ∧ n.toNat % 2 = 0) →
      Spec.Legal f c.width n := by
    intro f hl he
    refine ⟨hl.cs, ?_, hl.planes⟩
    have := hl.size
    revert this he
    cases f.pixel_format <;> simp [Spec.SizeOk, Spec.halfLines] <;> omega
  exact ⟨hv.bits, hsz hv.src_legal hb.src_even, hsz hv.dst_legal hb.dst_even, hv.supported,
    hv.width_ne, hb.nonempty,
    fits_fromLine hb.src_separate hv.src_fits hs hb.nonempty hb.inside hb.src_even,
    fits_fromLine hb.dst_separate hv.dst_fits hd hb.nonempty hb.inside hb.dst_even,
    real_fromLine hv.src_real, real_fromLine hv.dst_real⟩

/-- C72: a band has the room the vector kernels need, if the whole image has it. -/
theorem C72_band_room {set : InstructionSet} (hm : Spec.VectorRoom set c) (hb : c.IsBand y0 n) :
    Spec.VectorRoom set (c.band y0 n) := by
  intro h1 h2 b hb1
  change c.src_format.pixel_format = .bgr at h1
  change (Spec.fromLine c.src_format c.width c.height c.src_strides y0 c.src_buffers)[0]? = some b
    at hb1
  unfold Spec.fromLine at hb1
  rw [List.getElem?_mapIdx] at hb1
  cases hb0 : c.src_buffers[0]? with
  | none => rw [hb0] at hb1; cases hb1
  | some b0 =>
    rw [hb0] at hb1
    simp only [Option.map_some, Option.some.injEq] at hb1
    subst hb1
    have h3 := hm h1 h2 b0 hb0
    have hl : Spec.lineOffset c.src_format c.width c.height c.src_strides 0 y0 =
        strideOf c.src_strides 0 (3 * c.width.toNat) * y0 := by
      unfold Spec.lineOffset
      rw [h1]
      simp [dims, Spec.bpp, Spec.lineOf]
    have hn : 0 < n.toNat := by
      rcases Nat.eq_zero_or_pos n.toNat with e | e
      · exact absurd (UInt32.toNat_inj.1 (by rw [e]; rfl)) hb.nonempty
      · exact e
    have hin := hb.inside
    have h4 : strideOf c.src_strides 0 (3 * c.width.toNat) * (y0 + (n.toNat - 1)) ≤
        strideOf c.src_strides 0 (3 * c.width.toNat) * (c.height.toNat - 1) :=
      Nat.mul_le_mul_left _ (by omega)
    rw [Nat.mul_add] at h4
    show Spec.GroupRoom set c.width.toNat
      (strideOf c.src_strides 0 (3 * c.width.toNat) * (n.toNat - 1)) (b0.len - _)
    rw [hl]
    cases set <;> simp only [Spec.GroupRoom] at h3 ⊢ <;> intro h5 <;> have := h3 h5 <;> omega

/-- C72: every byte a band stores in its slices is the byte that the conversion of the whole image
stores there. -/
theorem C72_bands (hv : Spec.Valid t c) (hb : c.IsBand y0 n) (hv' : Spec.Valid t (c.band y0 n))
    (ho : Stores t crate cpu c out) (ho' : Stores t crate cpu (c.band y0 n) out') {i k : Nat}
    (hk : (c.band y0 n).InImage i k) :
    bytesAt out' i k =
      bytesAt out i (Spec.lineOffset c.dst_format c.width c.height c.dst_strides i y0 + k) := by
  rw [(Runs.crate hv (ho.room hv)).out_eq ho, (Runs.crate hv' (ho'.room hv')).out_eq ho']
  obtain ⟨row, rows, hd, y, hy, j, hj, rfl⟩ := hk
  change (dims c.dst_format.pixel_format c.dst_format.num_planes.toNat c.width.toNat n.toNat)[i]? =
    some (row, rows) at hd
  obtain ⟨l, hd', hl⟩ := dims_band hb.dst_separate hb.inside hb.dst_even hd
  simp only at hd' hl
  generalize hS : semOf cpu.set = S
  have hp : i < c.dst_format.num_planes.toNat ∧
      i < (S.resultPlanes c.width c.height c.src_format c.src_strides c.src_buffers
        c.dst_format).length ∧
      i < (S.resultPlanes c.width n c.src_format c.src_strides
        (Spec.fromLine c.src_format c.width c.height c.src_strides y0 c.src_buffers)
        c.dst_format).length := by
    have hsup := hv.supported
    have hpl := hv.dst_legal.planes
    have hi := (List.getElem?_eq_some_iff.1 hd').1
    unfold Sem.resultPlanes Sem.encodedPlanes
    rcases hdf : c.dst_format with ⟨pf, cs, q⟩
    have hds := hb.dst_separate
    unfold Spec.Separate at hds
    rw [hdf] at hsup hpl hi hds
    simp only at hsup hpl hi hds ⊢
    have hnv : pf = .nv12 → q.toNat ≠ 1 := fun e e' => hds ⟨e, e'⟩
    have hnv' : pf = .nv12 → q ≠ 1 := fun e e' => hnv e (by rw [e']; rfl)
    revert hsup
    cases c.src_format.pixel_format <;> cases pf <;> intro hsup <;>
      first
      | exact absurd hsup (by decide)
      | (simp only [ne_eq, true_implies] at hnv hnv'
         simp only [Spec.PlanesOk] at hpl
         simp only [dims, if_neg hnv, List.length_cons, List.length_nil] at hi
         simp [Spec.isRgb, hnv']
         omega)
      | (simp only [Spec.PlanesOk] at hpl
         simp only [dims, List.length_cons, List.length_nil] at hi
         simp [Spec.isRgb]
         omega)
  obtain ⟨hi, hg, hg'⟩ := hp
  have hb0 : i < c.dst_buffers.length := by have := hv.dst_fits.bufs_len; omega
  have e0 : c.dst_buffers[i]? = some c.dst_buffers[i] := List.getElem?_eq_getElem hb0
  have e1 : (Spec.fromLine c.dst_format c.width c.height c.dst_strides y0 c.dst_buffers)[i]? =
      some (Spec.dropBytes (Spec.lineOffset c.dst_format c.width c.height c.dst_strides i y0)
        c.dst_buffers[i]) := by
    unfold Spec.fromLine
    rw [List.getElem?_mapIdx, e0]
    rfl
  have hr := (hv.dst_fits.plane i _ _ e0 hd').row_le
  have hA := painted_hit (strides := c.dst_strides) e1 hd (List.getElem?_eq_getElem hg') hr hy hj
  have hB := painted_hit (strides := c.dst_strides) e0 hd' (List.getElem?_eq_getElem hg) hr
    (y := Spec.lineOf c.dst_format.pixel_format i y0 + y) (by omega) hj
  have hC := resultPlanes_band S hv hb (List.getElem?_eq_getElem hg) (List.getElem?_eq_getElem hg')
    j y
  have e : Spec.lineOffset c.dst_format c.width c.height c.dst_strides i y0 +
      (strideOf c.dst_strides i row * y + j) =
      strideOf c.dst_strides i row * (Spec.lineOf c.dst_format.pixel_format i y0 + y) + j := by
    rw [lineOffset_eq hd', Nat.mul_add]
    omega
  simp only at hA hB
  change bytesAt (S.out (c.band y0 n)) i (strideOf c.dst_strides i row * y + j) =
    bytesAt (S.out c) i (Spec.lineOffset c.dst_format c.width c.height c.dst_strides i y0 +
      (strideOf c.dst_strides i row * y + j))
  rw [e]
  unfold Sem.out
  rw [hB, ← hC]
  exact hA

/-- C72: a call splits into the lines before `y0` and the lines from `y0` on; both succeed, and
together they store exactly the image that the whole call stores. -/
theorem C72_split (hv : Spec.Valid t c) (hm : Spec.VectorRoom cpu.set c)
    (hs : Spec.WholeLines c.src_format c.width c.height c.src_strides c.src_buffers)
    (hd : Spec.WholeLines c.dst_format c.width c.height c.dst_strides c.dst_buffers)
    {a b : UInt32} (hab : a.toNat + b.toNat = c.height.toNat) (h1 : c.IsBand 0 a)
    (h2 : c.IsBand a.toNat b) :
    ∃ out top bottom, Stores t crate cpu c out ∧ Stores t crate cpu (c.band 0 a) top ∧
      Stores t crate cpu (c.band a.toNat b) bottom ∧ ∀ i k, c.InImage i k →
        let o := Spec.lineOffset c.dst_format c.width c.height c.dst_strides i a.toNat
        if k < o then (c.band 0 a).InImage i k ∧ bytesAt out i k = bytesAt top i k
        else (c.band a.toNat b).InImage i (k - o) ∧
          bytesAt out i k = bytesAt bottom i (k - o) := by
  have v1 := C72_band_valid hv h1 hs hd
  have v2 := C72_band_valid hv h2 hs hd
  obtain ⟨out, ho⟩ := valid_stores hv hm
  obtain ⟨top, ht⟩ := valid_stores v1 (C72_band_room hm h1)
  obtain ⟨bottom, hbo⟩ := valid_stores v2 (C72_band_room hm h2)
  refine ⟨out, top, bottom, ho, ht, hbo, ?_⟩
  rintro i k ⟨row, rows, hdr, y, hy, j, hj, rfl⟩
  have hin : ∃ r1 r2,
      (dims c.dst_format.pixel_format c.dst_format.num_planes.toNat c.width.toNat a.toNat)[i]? =
        some (row, r1) ∧
      (dims c.dst_format.pixel_format c.dst_format.num_planes.toNat c.width.toNat b.toNat)[i]? =
        some (row, r2) ∧ Spec.lineOf c.dst_format.pixel_format i a.toNat = r1 ∧
        r1 + r2 = rows := by
    have he := h2.dst_even
    have hds := h2.dst_separate
    unfold Spec.Separate at hds
    rcases hdf : c.dst_format with ⟨pf, cs, q⟩
    rw [hdf] at hdr hds he
    simp only at hdr hds he ⊢
    have hnv : pf = .nv12 → q.toNat ≠ 1 := fun e e' => hds ⟨e, e'⟩
    cases pf <;> simp only [dims, Spec.halfLines, Bool.false_eq_true, false_implies, true_implies,
        ne_eq, reduceCtorEq] at hdr he hnv ⊢ <;>
      (try rw [if_neg hnv] at hdr) <;> (try rw [if_neg hnv, if_neg hnv]) <;>
      rcases i with _ | _ | _ | i <;>
      simp only [List.getElem?_cons_zero, List.getElem?_cons_succ, List.getElem?_nil,
        Option.some.injEq, reduceCtorEq, Prod.mk.injEq] at hdr <;>
      obtain ⟨rfl, rfl⟩ := hdr <;> simp [Spec.lineOf, Spec.halfLines] <;> omega
  obtain ⟨r1, r2, d1, d2, e1, e2⟩ := hin
  have eo := lineOffset_eq (ss := c.dst_strides) (y := a.toNat) hdr
  rw [e1] at eo
  have hlen : i < c.dst_buffers.length := by
    have h3 := hv.dst_fits.bufs_len
    have h4 := (List.getElem?_eq_some_iff.1 hdr).1
    have h5 := hv.dst_legal.planes
    revert h4 h5
    cases c.dst_format.pixel_format <;> simp only [dims, Spec.PlanesOk] <;> (try split) <;>
      simp only [List.length_cons, List.length_nil] <;> omega
  have hrow : row ≤ strideOf c.dst_strides i row :=
    (hv.dst_fits.plane i _ _ (List.getElem?_eq_getElem hlen) hdr).row_le
  rw [eo]
  by_cases hyr : y < r1
  · have hk : strideOf c.dst_strides i row * y + j < strideOf c.dst_strides i row * r1 := by
      have : strideOf c.dst_strides i row * (y + 1) ≤ strideOf c.dst_strides i row * r1 :=
        Nat.mul_le_mul_left _ hyr
      rw [Nat.mul_add] at this
      omega
    have hI : (c.band 0 a).InImage i (strideOf c.dst_strides i row * y + j) :=
      ⟨row, r1, d1, y, hyr, j, hj, rfl⟩
    have := C72_bands hv h1 v1 ho ht hI
    rw [lineOffset_eq hdr] at this
    have e0 : Spec.lineOf c.dst_format.pixel_format i 0 = 0 := by
      unfold Spec.lineOf; split <;> rfl
    rw [e0, Nat.mul_zero, Nat.zero_add] at this
    simp only [hk, if_true]
    exact ⟨hI, this.symm⟩
  · have hk : strideOf c.dst_strides i row * y + j =
        strideOf c.dst_strides i row * r1 + (strideOf c.dst_strides i row * (y - r1) + j) := by
      obtain ⟨z, rfl⟩ : ∃ z, y = r1 + z := ⟨y - r1, by omega⟩
      rw [Nat.add_sub_cancel_left]
      ring
    have hI : (c.band a.toNat b).InImage i (strideOf c.dst_strides i row * (y - r1) + j) :=
      ⟨row, r2, d2, y - r1, by omega, j, hj, rfl⟩
    have := C72_bands hv h2 v2 ho hbo hI
    rw [eo] at this
    rw [hk]
    simp only [Nat.not_lt.2 (Nat.le_add_right _ _), if_false, Nat.add_sub_cancel_left]
    exact ⟨hI, this.symm⟩

/-- A 4x4 Bgra image with padded lines, encoded as Nv12 in two padded planes. -/
def exBands : Call where
  width := 4
  height := 4
  src_format := ⟨.bgra, .rgb, 1⟩
  src_strides := some [20]
  src_buffers := [noise 80 1]
  dst_format := ⟨.nv12, .bt709, 2⟩
  dst_strides := some [0, 6]
  dst_buffers := [noise 16 2, noise 12 3]

theorem exBands_valid : Spec.Valid .x64 exBands := valid_of_check (by decide +kernel)

theorem exBands_band : exBands.IsBand 0 2 ∧ exBands.IsBand 2 2 :=
  ⟨⟨by decide, by decide, by decide, by decide, by decide, by decide⟩,
    ⟨by decide, by decide, by decide, by decide, by decide, by decide⟩⟩

theorem exBands_whole :
    Spec.WholeLines exBands.src_format exBands.width exBands.height exBands.src_strides
      exBands.src_buffers ∧
    Spec.WholeLines exBands.dst_format exBands.width exBands.height exBands.dst_strides
      exBands.dst_buffers := by
  constructor <;> intro i b rc h1 h2 <;> rcases i with _ | _ | i <;>
    simp [exBands, dims, Spec.bpp] at h1 h2 <;> subst h1 h2 <;> decide

/-- The first pixel of the lower band is the pixel (0, 2), its chroma is line 1 of the second plane,
and the bytes are the ones the whole conversion stores there. -/
example : ∃ out bottom, Stores .x64 crate avx2Cpu exBands out ∧
    Stores .x64 crate avx2Cpu (exBands.band 2 2) bottom ∧
    bytesAt bottom 0 0 = bytesAt out 0 8 ∧ bytesAt bottom 1 3 = bytesAt out 1 9 := by
  obtain ⟨hs, hd⟩ := exBands_whole
  have hb := exBands_band.2
  have hm : Spec.VectorRoom avx2Cpu.set exBands := .of_ne (by decide)
  have hv' := C72_band_valid exBands_valid hb hs hd
  obtain ⟨out, ho⟩ := valid_stores exBands_valid hm
  obtain ⟨bottom, ho'⟩ := valid_stores hv' (C72_band_room hm hb)
  exact ⟨out, bottom, ho, ho',
    C72_bands exBands_valid hb hv' ho ho' ⟨4, 2, rfl, 0, by decide, 0, by decide, rfl⟩,
    C72_bands exBands_valid hb hv' ho ho' ⟨4, 1, rfl, 0, by decide, 3, by decide, rfl⟩⟩

example := C72_split (cpu := sse2Cpu) exBands_valid (.of_ne (by decide)) exBands_whole.1
  exBands_whole.2 (a := 2) (b := 2) rfl exBands_band.1 exBands_band.2

end Verif
