import Verif.Lemmas.Overflow
/-! # The exact outcome of `convert_image` -/

namespace Verif

section
variable {bufs : List Buf} {P : Nat → Nat → Nat × Nat → Prop} {r0 r1 r2 : Nat × Nat}

theorem planes_one (hn : 1 ≤ bufs.length) :
    (∀ (i : Nat) (b : Buf) (rc : Nat × Nat), bufs[i]? = some b → [r0][i]? = some rc → P i b.len rc) ↔
      P 0 (bufAt bufs 0).len r0 := by
  constructor
  · exact fun h => h 0 _ r0 (buf_at (by omega)) rfl
  · intro h i b rc hb hr
    match i, hr with
    | 0, hr =>
      rw [buf_at (by omega)] at hb
      cases hb; cases hr; exact h

theorem planes_two (hn : 2 ≤ bufs.length) :
    (∀ (i : Nat) (b : Buf) (rc : Nat × Nat), bufs[i]? = some b → [r0, r1][i]? = some rc →
      P i b.len rc) ↔ P 0 (bufAt bufs 0).len r0 ∧ P 1 (bufAt bufs 1).len r1 := by
  constructor
  · exact fun h => ⟨h 0 _ r0 (buf_at (by omega)) rfl, h 1 _ r1 (buf_at (by omega)) rfl⟩
  · intro h i b rc hb hr
    match i, hr with
    | 0, hr =>
      rw [buf_at (by omega)] at hb
      cases hb; cases hr; exact h.1
    | 1, hr =>
      rw [buf_at (by omega)] at hb
      cases hb; cases hr; exact h.2

theorem planes_three (hn : 3 ≤ bufs.length) :
    (∀ (i : Nat) (b : Buf) (rc : Nat × Nat), bufs[i]? = some b → [r0, r1, r2][i]? = some rc →
      P i b.len rc) ↔ P 0 (bufAt bufs 0).len r0 ∧ P 1 (bufAt bufs 1).len r1 ∧
        P 2 (bufAt bufs 2).len r2 := by
  constructor
  · exact fun h => ⟨h 0 _ r0 (buf_at (by omega)) rfl, h 1 _ r1 (buf_at (by omega)) rfl,
      h 2 _ r2 (buf_at (by omega)) rfl⟩
  · intro h i b rc hb hr
    match i, hr with
    | 0, hr =>
      rw [buf_at (by omega)] at hb
      cases hb; cases hr; exact h.1
    | 1, hr =>
      rw [buf_at (by omega)] at hb
      cases hb; cases hr; exact h.2.1
    | 2, hr =>
      rw [buf_at (by omega)] at hb
      cases hb; cases hr; exact h.2.2

end

variable {f : ImageFormat} {w h : UInt32} {strides : Option (List Nat)} {bufs : List Buf}

theorem split_acc {S w h len : Nat} (h2 : 2 ≤ h) :
    (S * h ≤ len ∧ Acc (S * h) S w h ∧ Acc (len - S * h) S w (h / 2)) ↔
      w ≤ S ∧ S * (h + 1) + w * (h / 2 - 1) ≤ len := by
  unfold Acc
  have e1 : S * (h + 1) = S * h + S := by rw [Nat.mul_add, Nat.mul_one]
  have key : S + w * (h - 1) ≤ S * h ↔ w ≤ S := by
    obtain ⟨m, rfl⟩ : ∃ m, h = m + 1 := ⟨h - 1, by omega⟩
    rw [Nat.mul_add, Nat.mul_one, Nat.add_sub_cancel, Nat.add_comm, Nat.add_le_add_iff_right]
    exact Nat.mul_le_mul_right_iff (by omega)
  rw [key, e1]
  generalize S * h = n
  generalize w * (h / 2 - 1) = m
  omega

theorem accepts_iff (px : Bool) (hl : Spec.Legal f w h) (hh : h ≠ 0)
    (h422 : f.pixel_format ≠ .i422) (hpx : px = true → Spec.isRgb f.pixel_format = true) :
    Spec.AcceptsImage px f w h strides bufs ↔ Present f strides bufs ∧
      AccImage px f.pixel_format f.num_planes.toNat w.toNat h.toNat strides bufs := by
  by_cases hp : Present f strides bufs
  case neg => exact ⟨fun h => absurd ⟨h.strides_len, h.bufs_len⟩ hp, fun h => absurd h.1 hp⟩
  have hb := hp.bufs_len
  have hg := hp.strides_len
  have hpl := hl.planes
  have hsz := hl.size
  have h1 := u32_pos hh
  simp only [hp, true_and]
  rcases f with ⟨pf, cs, n⟩
  simp only at hb hpl hsz h422 hpx
  have rgb : ∀ bpp, n.toNat = 1 → pf ≠ .nv12 →
      Spec.dims pf n.toNat w.toNat h.toNat = [(bpp * w.toNat, h.toNat)] →
      (Spec.AcceptsImage px ⟨pf, cs, n⟩ w h strides bufs ↔
        Acc (bufAt bufs 0).len (Spec.strideOf strides 0 (bpp * w.toNat))
          (if px then w.toNat else bpp * w.toNat) h.toNat) := by
    intro bpp hn hpf hd
    constructor
    · intro ha
      have := ha.plane (fun h => hpf h.1)
      rw [hd] at this
      exact (planes_one (P := fun i len rc => Spec.strideOf strides i rc.1 +
        (if px then w.toNat else rc.1) * (rc.2 - 1) ≤ len) (by omega)).1 this
    · intro ha
      refine ⟨hg, hb, fun _ => ?_, fun h => absurd h hpf⟩
      rw [hd]
      exact (planes_one (P := fun i len rc => Spec.strideOf strides i rc.1 +
        (if px then w.toNat else rc.1) * (rc.2 - 1) ≤ len) (by omega)).2 ha
  cases pf
  case i422 => exact absurd rfl h422
  case argb => exact rgb 4 hpl (by simp) rfl
  case bgra => exact rgb 4 hpl (by simp) rfl
  case rgba => exact rgb 4 hpl (by simp) rfl
  case bgr => exact rgb 3 hpl (by simp) rfl
  case rgb => exact rgb 3 hpl (by simp) rfl
  all_goals
    obtain rfl : px = false := by
      cases px
      · rfl
      · cases hpx rfl
  case i444 =>
    have hn : n.toNat = 3 := hpl
    have iff := planes_three (bufs := bufs) (r0 := (w.toNat, h.toNat)) (r1 := (w.toNat, h.toNat))
      (r2 := (w.toNat, h.toNat)) (P := fun i len rc => Spec.strideOf strides i rc.1 +
        rc.1 * (rc.2 - 1) ≤ len) (by omega)
    exact ⟨fun ha => iff.1 (ha.plane (by simp)), fun ha => ⟨hg, hb, fun _ => iff.2 ha, by simp⟩⟩
  case i420 =>
    have hn : n.toNat = 3 := hpl
    have iff := planes_three (bufs := bufs) (r0 := (w.toNat, h.toNat))
      (r1 := (w.toNat / 2, h.toNat / 2)) (r2 := (w.toNat / 2, h.toNat / 2))
      (P := fun i len rc => Spec.strideOf strides i rc.1 + rc.1 * (rc.2 - 1) ≤ len) (by omega)
    exact ⟨fun ha => iff.1 (ha.plane (by simp)), fun ha => ⟨hg, hb, fun _ => iff.2 ha, by simp⟩⟩
  case nv12 =>
    rcases hpl with hn | hn
    · simp only [AccImage, hn, if_true]
      rw [split_acc (by have := hsz.2; omega)]
      constructor
      · exact fun ha => ha.single rfl hn _ (buf_at (by omega))
      · refine fun ha => ⟨hg, hb, fun h => absurd ⟨rfl, hn⟩ h, fun _ _ b hb0 => ?_⟩
        rw [buf_at (by omega)] at hb0
        cases hb0
        exact ha
    · simp only [AccImage, hn, Nat.reduceEqDiff, if_false]
      have iff := planes_two (bufs := bufs) (r0 := (w.toNat, h.toNat)) (r1 := (w.toNat, h.toNat / 2))
        (P := fun i len rc => Spec.strideOf strides i rc.1 + rc.1 * (rc.2 - 1) ≤ len) (by omega)
      constructor
      · intro ha
        have := ha.plane (by simp [hn])
        simp only [hn] at this
        exact iff.1 this
      · refine fun ha => ⟨hg, hb, fun _ => ?_, fun _ h => absurd h (by simp [hn])⟩
        simp only [hn]
        exact iff.2 ha

theorem split_touch {S w h len : Nat} (h2 : 2 ≤ h) (he : h % 2 = 0) (hs : S * h ≤ len) (hw : w ≤ S) :
    (Ext (S * h) S w h ∧ Ext (len - S * h) S w (h / 2)) ↔ S * (h + h / 2 - 1) + w ≤ len := by
  unfold Ext
  have e1 : S * (h + h / 2 - 1) = S * h + S * (h / 2 - 1) := by
    rw [← Nat.mul_add]; congr 1; omega
  have e2 : S * h = S * (h - 1) + S := by
    obtain ⟨m, rfl⟩ : ∃ m, h = m + 1 := ⟨h - 1, by omega⟩
    rw [Nat.mul_add, Nat.mul_one]; rfl
  rw [e1]
  generalize S * (h / 2 - 1) = m
  omega

theorem touch_iff {e : Nat} (hl : Spec.Legal f w h) (hh : h ≠ 0) (h422 : f.pixel_format ≠ .i422)
    (hp : Present f strides bufs) {px : Bool}
    (ha : AccImage px f.pixel_format f.num_planes.toNat w.toNat h.toNat strides bufs) :
    Touch e f.pixel_format f.num_planes.toNat w.toNat h.toNat strides bufs ↔
      Spec.LinesInside f w h strides bufs fun row =>
        if Spec.isRgb f.pixel_format then e else row := by
  have hb := hp.bufs_len
  have hpl := hl.planes
  have hsz := hl.size
  have h1 := u32_pos hh
  rcases f with ⟨pf, cs, n⟩
  simp only at hb hpl hsz h422 ha
  unfold Spec.LinesInside
  have rgb : ∀ bpp, n.toNat = 1 →
      ((∀ (i : Nat) (b : Buf) (rc : Nat × Nat), bufs[i]? = some b →
        [(bpp * w.toNat, h.toNat)][i]? = some rc →
        Spec.strideOf strides i rc.1 * (rc.2 - 1) + e ≤ b.len) ↔
      Ext (bufAt bufs 0).len (Spec.strideOf strides 0 (bpp * w.toNat)) e h.toNat) := fun bpp hn =>
    planes_one (P := fun i len rc => Spec.strideOf strides i rc.1 * (rc.2 - 1) + e ≤ len) (by omega)
  cases pf
  case i422 => exact absurd rfl h422
  case argb => exact (rgb 4 hpl).symm
  case bgra => exact (rgb 4 hpl).symm
  case rgba => exact (rgb 4 hpl).symm
  case bgr => exact (rgb 3 hpl).symm
  case rgb => exact (rgb 3 hpl).symm
  case i444 =>
    have hn : n.toNat = 3 := hpl
    exact (planes_three (bufs := bufs) (r0 := (w.toNat, h.toNat)) (r1 := (w.toNat, h.toNat))
      (r2 := (w.toNat, h.toNat)) (P := fun i len rc => Spec.strideOf strides i rc.1 *
        (rc.2 - 1) + rc.1 ≤ len) (by omega)).symm
  case i420 =>
    have hn : n.toNat = 3 := hpl
    exact (planes_three (bufs := bufs) (r0 := (w.toNat, h.toNat))
      (r1 := (w.toNat / 2, h.toNat / 2)) (r2 := (w.toNat / 2, h.toNat / 2))
      (P := fun i len rc => Spec.strideOf strides i rc.1 * (rc.2 - 1) + rc.1 ≤ len) (by omega)).symm
  case nv12 =>
    rcases hpl with hn | hn
    · simp only [AccImage, hn, if_true] at ha
      have ha' := (split_acc (by have := hsz.2; omega)).1 ha
      simp only [Touch, hn, if_true]
      rw [split_touch (by have := hsz.2; omega) hsz.2 ha.1 ha'.1]
      exact (planes_one (bufs := bufs) (r0 := (w.toNat, h.toNat + h.toNat / 2))
        (P := fun i len rc => Spec.strideOf strides i rc.1 * (rc.2 - 1) + rc.1 ≤ len)
        (by omega)).symm
    · simp only [Touch, hn, Nat.reduceEqDiff, if_false]
      exact (planes_two (bufs := bufs) (r0 := (w.toNat, h.toNat)) (r1 := (w.toNat, h.toNat / 2))
        (P := fun i len rc => Spec.strideOf strides i rc.1 * (rc.2 - 1) + rc.1 ≤ len)
        (by omega)).symm

section
variable {t : Target} {cpu : Cpu} {c : Call}

theorem small_of_sizes {t : Target} {f : ImageFormat} {w h : UInt32} {strides : Option (List Nat)}
    {bufs : List Buf} (hb : 1 ≤ t.bits) (hz : Spec.SizesFit t f w h strides) (hr : Spec.Real t bufs) :
    Small t f w h strides bufs := by
  refine ⟨?_, fun b hm => Nat.le_trans (hr b hm) (imax_le_umax t hb), hz.split⟩
  have := hz.row
  revert this
  have := Nat.two_pow_pos t.bits
  cases f.pixel_format <;> intro h <;> first | exact h rfl | (simp only [Spec.bpp]; omega)

theorem px_rgb {s d : PixelFormat} (h : (Spec.isRgb s && Spec.isRgb d) = true) :
    Spec.isRgb s = true ∧ Spec.isRgb d = true := by simpa using h

theorem sup_ne_i422 {s d : PixelFormat} (h : Spec.Supported s d) : s ≠ .i422 ∧ d ≠ .i422 := by
  revert h; cases s <;> cases d <;> decide

theorem accepts_call (hl : Spec.Legal c.src_format c.width c.height)
    (hl' : Spec.Legal c.dst_format c.width c.height)
    (hs : Spec.Supported c.src_format.pixel_format c.dst_format.pixel_format) (hh : c.height ≠ 0) :
    Spec.Accepts c ↔ (Present c.src_format c.src_strides c.src_buffers ∧
        Present c.dst_format c.dst_strides c.dst_buffers ∧
        AccImage (pxPair c.src_format.pixel_format c.dst_format.pixel_format)
          c.src_format.pixel_format c.src_format.num_planes.toNat c.width.toNat c.height.toNat
          c.src_strides c.src_buffers ∧
        AccImage (pxPair c.src_format.pixel_format c.dst_format.pixel_format)
          c.dst_format.pixel_format c.dst_format.num_planes.toNat c.width.toNat c.height.toNat
          c.dst_strides c.dst_buffers) := by
  have h422 := sup_ne_i422 hs
  have h1 := accepts_iff (strides := c.src_strides) (bufs := c.src_buffers)
    (pxPair c.src_format.pixel_format c.dst_format.pixel_format) hl hh h422.1 (fun e => (px_rgb e).1)
  have h2 := accepts_iff (strides := c.dst_strides) (bufs := c.dst_buffers)
    (pxPair c.src_format.pixel_format c.dst_format.pixel_format) hl' hh h422.2
    (fun e => (px_rgb e).2)
  constructor
  · rintro ⟨ha, hb⟩
    exact ⟨(h1.1 ha).1, (h2.1 hb).1, (h1.1 ha).2, (h2.1 hb).2⟩
  · rintro ⟨ha, hb, hc, hd⟩
    exact ⟨h1.2 ⟨ha, hc⟩, h2.2 ⟨hb, hd⟩⟩

theorem acc_stride {px : Bool} {pf : PixelFormat} {n w h : Nat} {strides : Option (List Nat)}
    {bufs : List Buf} (hpf : Spec.isRgb pf = true) (ha : AccImage px pf n w h strides bufs) :
    Spec.strideOf strides 0 (Spec.bpp pf * w) ≤ (bufAt bufs 0).len := by
  have : Acc (bufAt bufs 0).len (Spec.strideOf strides 0 (Spec.bpp pf * w))
      (if px then w else Spec.bpp pf * w) h := by
    cases pf <;> first | exact ha | cases hpf
  unfold Acc at this
  omega

/-- The luma part of an accepted single-plane Nv12 image has a representable size. -/
theorem accepts_split {px : Bool} {f : ImageFormat} {w h : UInt32} {strides : Option (List Nat)}
    {bufs : List Buf} (hb : 1 ≤ t.bits) (hr : Spec.Real t bufs)
    (ha : Spec.AcceptsImage px f w h strides bufs) : Spec.SplitFits t f w h strides := by
  intro hpf hn
  have h1 := ha.bufs_len
  have h2 := (ha.single hpf hn _ (buf_at (i := 0) (by omega))).2
  have h3 := hr _ (buf_mem (bufs := bufs) (i := 0) (by omega))
  have h4 := imax_lt t hb
  rw [Nat.mul_add] at h2
  omega

/-- An accepted call is a call of its kernel. -/
theorem accepted_kernel (h32 : 32 ≤ t.bits)
    (hz : Spec.SizesFit t c.src_format c.width c.height c.src_strides)
    (hz' : Spec.SizesFit t c.dst_format c.width c.height c.dst_strides)
    (hl : Spec.Legal c.src_format c.width c.height)
    (hl' : Spec.Legal c.dst_format c.width c.height)
    (hs : Spec.Supported c.src_format.pixel_format c.dst_format.pixel_format)
    (hw : c.width ≠ 0) (hh : c.height ≠ 0)
    (hr : Spec.Real t c.src_buffers) (hr' : Spec.Real t c.dst_buffers) (ha : Spec.Accepts c) :
    ∃ r : Routine, r.key = ((c.src_format.pixel_format, c.src_format.color_space),
        (c.dst_format.pixel_format, c.dst_format.color_space)) ∧ r ∈ registered ∧
      match (kcall t (crate cpu.set) c.width.toNat c.height.toNat c.src_format.num_planes.toNat
          c.src_strides c.src_buffers c.dst_format.num_planes.toNat c.dst_strides c.dst_buffers
          r).run with
      | .error e => convert t crate cpu c = .error e
      | .ok _ => ∃ out, convert t crate cpu c = .ok (.ok (), out) := by
  obtain ⟨tb, hT, e⟩ := convert_table t crate cpu
  obtain ⟨hp, hp', ha1, ha2⟩ := (accepts_call hl hl' hs hh).1 ha
  have hb : 1 ≤ t.bits := by omega
  have hm := small_of_sizes hb hz hr
  have hm' := small_of_sizes hb hz' hr'
  obtain ⟨r, hkey, hreg, ec⟩ := convert_checked (impls := crate) hT hl hl' hs hw hh hp hp' hm hm'
  rw [if_pos ⟨ha1, ha2⟩] at ec
  refine ⟨r, hkey, hreg, ?_⟩
  rw [e, convert_image, ec, K.bind_def, K.bind]
  rcases hk : kcall t (crate cpu.set) c.width.toNat c.height.toNat c.src_format.num_planes.toNat
    c.src_strides c.src_buffers c.dst_format.num_planes.toNat c.dst_strides c.dst_buffers r with
    ⟨ek | ⟨⟨⟩, ws⟩⟩
  · rfl
  · exact ⟨_, rfl⟩

/-- The lines of an image in a single plane. -/
theorem lines_one {e : Nat} {f : ImageFormat} {w h : UInt32} {strides : Option (List Nat)}
    {bufs : List Buf} (hl : Spec.Legal f w h) (hpf : Spec.isRgb f.pixel_format = true)
    (hp : Present f strides bufs) :
    Spec.LinesInside f w h strides bufs (fun _ => e) ↔
      Ext (bufAt bufs 0).len (Spec.strideOf strides 0 (Spec.bpp f.pixel_format * w.toNat)) e
        h.toNat := by
  have hb := hp.bufs_len
  have hpl := hl.planes
  rcases f with ⟨pf, cs, n⟩
  simp only at hb hpl hpf
  have rgb : ∀ bpp, n.toNat = 1 →
      ((∀ (i : Nat) (b : Buf) (rc : Nat × Nat), bufs[i]? = some b →
        [(bpp * w.toNat, h.toNat)][i]? = some rc →
        Spec.strideOf strides i rc.1 * (rc.2 - 1) + e ≤ b.len) ↔
      Ext (bufAt bufs 0).len (Spec.strideOf strides 0 (bpp * w.toNat)) e h.toNat) := fun bpp hn =>
    planes_one (P := fun i len rc => Spec.strideOf strides i rc.1 * (rc.2 - 1) + e ≤ len) (by omega)
  unfold Spec.LinesInside
  cases pf
  case argb => exact rgb 4 hpl
  case bgra => exact rgb 4 hpl
  case rgba => exact rgb 4 hpl
  case bgr => exact rgb 3 hpl
  case rgb => exact rgb 3 hpl
  all_goals cases hpf

theorem parts_rgb {set : InstructionSet} {s d : PixelFormat} {w : Nat} {p : Nat × Nat}
    (hp : p ∈ Spec.parts set s d w) : (s = .rgb ∧ d = .bgra) ∨ (s = .bgra ∧ d = .rgb) := by
  cases s <;> cases d <;> first | exact .inl ⟨rfl, rfl⟩ | exact .inr ⟨rfl, rfl⟩ | cases hp

theorem parts_le {set : InstructionSet} {s d : PixelFormat} {w : Nat} {p : Nat × Nat}
    (hp : p ∈ Spec.parts set s d w) : p.2 ≤ w := by
  have : p = (0, w) ∨ p = (0, 16 * (w / 16)) ∨ p = (16 * (w / 16), w % 16) ∨
      p = (0, 32 * (w / 32)) ∨ p = (32 * (w / 32), w % 32) := by
    rcases parts_rgb hp with ⟨rfl, rfl⟩ | ⟨rfl, rfl⟩ <;> cases set <;>
      simp only [Spec.parts, List.mem_cons, List.not_mem_nil, or_false] at hp <;> tauto
  rcases this with rfl | rfl | rfl | rfl | rfl <;> simp only <;> omega

theorem fit_iff {set : InstructionSet} : Spec.PartsFit set c ↔
    X86.Fit (Spec.parts set c.src_format.pixel_format c.dst_format.pixel_format c.width.toNat)
      (Spec.bpp c.src_format.pixel_format) (Spec.bpp c.dst_format.pixel_format)
      (Spec.strideOf c.src_strides 0 (Spec.bpp c.src_format.pixel_format * c.width.toNat))
      (Spec.strideOf c.dst_strides 0 (Spec.bpp c.dst_format.pixel_format * c.width.toNat)) :=
  Iff.rfl

theorem stuck_iff {set : InstructionSet} (hl : Spec.Legal c.src_format c.width c.height)
    (hl' : Spec.Legal c.dst_format c.width c.height)
    (hp : Present c.src_format c.src_strides c.src_buffers)
    (hp' : Present c.dst_format c.dst_strides c.dst_buffers) : Spec.PartOverflow set c ↔
    X86.Stuck (Spec.parts set c.src_format.pixel_format c.dst_format.pixel_format c.width.toNat)
      (Spec.bpp c.src_format.pixel_format) (Spec.bpp c.dst_format.pixel_format)
      (Spec.strideOf c.src_strides 0 (Spec.bpp c.src_format.pixel_format * c.width.toNat))
      (Spec.strideOf c.dst_strides 0 (Spec.bpp c.dst_format.pixel_format * c.width.toNat))
      (bufAt c.src_buffers 0).len (bufAt c.dst_buffers 0).len c.height.toNat := by
  refine exists_congr fun p => and_congr_right fun hm => and_congr_right fun _ =>
    imp_congr_right fun _ => ?_
  have hpf := parts_rgb hm
  exact and_congr
    (lines_one hl (by rcases hpf with ⟨h, -⟩ | ⟨h, -⟩ <;> rw [h] <;> rfl) hp)
    (lines_one hl' (by rcases hpf with ⟨-, h⟩ | ⟨-, h⟩ <;> rw [h] <;> rfl) hp')

theorem lastLine_out (hb : 1 ≤ t.bits) {set : InstructionSet}
    (hl : Spec.Legal c.src_format c.width c.height)
    (hl' : Spec.Legal c.dst_format c.width c.height)
    (hr : Spec.Real t c.src_buffers) (hr' : Spec.Real t c.dst_buffers)
    (hp : Present c.src_format c.src_strides c.src_buffers)
    (hp' : Present c.dst_format c.dst_strides c.dst_buffers)
    (ho : Spec.LastLineOverflow t set c) : ¬ Spec.InBounds set c := by
  obtain ⟨-, hs, hd, -, -, ho⟩ := ho
  intro hin
  have h1 := hin.src
  have h2 := hin.dst
  have hi := imax_lt t hb
  have n1 := hl.planes
  have n2 := hl'.planes
  have b1 := hp.bufs_len
  have b2 := hp'.bufs_len
  rw [hs] at n1
  rw [hd] at n2
  have n1 : c.src_format.num_planes.toNat = 1 := n1
  have n2 : c.dst_format.num_planes.toNat = 1 := n2
  have m1 := hr _ (buf_mem (bufs := c.src_buffers) (i := 0) (by omega))
  have m2 := hr' _ (buf_mem (bufs := c.dst_buffers) (i := 0) (by omega))
  have g1 := h1 0 _ (4 * c.width.toNat, c.height.toNat) (buf_at (by omega)) (by rw [hs]; rfl)
  have g2 := h2 0 _ (3 * c.width.toNat, c.height.toNat) (buf_at (by omega)) (by rw [hd]; rfl)
  simp only at g1 g2
  omega

/-- Lines that begin beyond `usize` lie outside the buffers. -/
theorem offset_out (hb : 1 ≤ t.bits) {set : InstructionSet}
    (hl : Spec.Legal c.src_format c.width c.height)
    (hl' : Spec.Legal c.dst_format c.width c.height)
    (hr : Spec.Real t c.src_buffers) (hr' : Spec.Real t c.dst_buffers)
    (hp : Present c.src_format c.src_strides c.src_buffers)
    (hp' : Present c.dst_format c.dst_strides c.dst_buffers)
    (ho : Spec.OffsetOverflow t set c) : ¬ Spec.InBounds set c := by
  intro hin
  have h1 := hin.src
  have h2 := hin.dst
  have hi := imax_lt t hb
  rcases ho with ho | ho
  · exact lastLine_out hb hl hl' hr hr' hp hp' ho hin
  obtain ⟨hs, hd, -, -, h4, ho⟩ := ho
  have n1 := planes_le hl.planes
  have n2 := planes_le hl'.planes
  have b1 := hp.bufs_len
  have b2 := hp'.bufs_len
  have m1 := hr _ (buf_mem (bufs := c.src_buffers) (i := 0) (by omega))
  have m2 := hr' _ (buf_mem (bufs := c.dst_buffers) (i := 0) (by omega))
  have d1 : (Spec.dims c.src_format.pixel_format c.src_format.num_planes.toNat c.width.toNat
      c.height.toNat)[0]? = some (Spec.bpp c.src_format.pixel_format * c.width.toNat,
        c.height.toNat) := by
    revert hs
    cases c.src_format.pixel_format <;> intro hs <;> first | rfl | cases hs
  have g1 := h1 0 _ _ (buf_at (by omega)) d1
  obtain ⟨k, d2, hk⟩ : ∃ k, (Spec.dims c.dst_format.pixel_format c.dst_format.num_planes.toNat
      c.width.toNat c.height.toNat)[0]? = some (c.width.toNat, k) ∧ c.height.toNat ≤ k := by
    rcases hd with hd | hd <;> rw [hd] <;> simp only [Spec.dims]
    · split
      · exact ⟨_, rfl, by omega⟩
      · exact ⟨_, rfl, by omega⟩
    · exact ⟨_, rfl, by omega⟩
  have g2 := h2 0 _ _ (buf_at (by omega)) d2
  simp only at g1 g2
  have q1 : Spec.strideOf c.src_strides 0 (Spec.bpp c.src_format.pixel_format * c.width.toNat) * 3 ≤
      Spec.strideOf c.src_strides 0 (Spec.bpp c.src_format.pixel_format * c.width.toNat) *
        (c.height.toNat - 1) := Nat.mul_le_mul_left _ (by omega)
  have q2 : Spec.strideOf c.dst_strides 0 c.width.toNat * 3 ≤
      Spec.strideOf c.dst_strides 0 c.width.toNat * (k - 1) := Nat.mul_le_mul_left _ (by omega)
  omega

theorem surplus_iff {set : InstructionSet} (hl : Spec.Legal c.src_format c.width c.height)
    (hp : Present c.src_format c.src_strides c.src_buffers) : Spec.SurplusInside t set c ↔
    (c.src_format.pixel_format = .rgb → c.dst_format.pixel_format = .bgra →
      X86.Peek t (Spec.strideOf c.src_strides 0 (3 * c.width.toNat)) (bufAt c.src_buffers 0).len
        c.width.toNat (Spec.scalarPart set c.width.toNat) c.height.toNat) := by
  have hb := hp.bufs_len
  have hpl := hl.planes
  unfold Spec.SurplusInside X86.Peek
  refine imp_congr_right fun hr => imp_congr_right fun _ => imp_congr_right fun _ =>
    imp_congr_right fun _ => imp_congr_right fun _ => imp_congr_right fun _ => ?_
  rw [hr] at hpl
  have hpl : c.src_format.num_planes.toNat = 1 := hpl
  have hg := buf_at (bufs := c.src_buffers) (i := 0) (by omega)
  constructor
  · exact fun h => h _ hg
  · intro h b hb
    rw [hg] at hb
    cases hb
    exact h

/-- An accepted call: it completes, leaving `InBounds`, `SurplusInside` and `PartsFit`; it leaves a
buffer, refuting one of the first two; or it overflows. -/
theorem accepted_outcome (h32 : 32 ≤ t.bits)
    (hz : Spec.SizesFit t c.src_format c.width c.height c.src_strides)
    (hz' : Spec.SizesFit t c.dst_format c.width c.height c.dst_strides)
    (hl : Spec.Legal c.src_format c.width c.height)
    (hl' : Spec.Legal c.dst_format c.width c.height)
    (hs : Spec.Supported c.src_format.pixel_format c.dst_format.pixel_format)
    (hw : c.width ≠ 0) (hh : c.height ≠ 0)
    (hr : Spec.Real t c.src_buffers) (hr' : Spec.Real t c.dst_buffers)
    (ha : Spec.Accepts c) :
    ((Spec.InBounds cpu.set c ∧ Spec.SurplusInside t cpu.set c) ∧
      (t.checked = true → Spec.PartsFit cpu.set c) ∧
      ∃ out, convert t crate cpu c = .ok (.ok (), out)) ∨
    (¬ (Spec.InBounds cpu.set c ∧ Spec.SurplusInside t cpu.set c) ∧
      (convert t crate cpu c = .error .oobRead ∨ convert t crate cpu c = .error .oobWrite)) ∨
    (convert t crate cpu c = .error .overflow ∧ t.checked = true ∧
      (Spec.PartOverflow cpu.set c ∨ Spec.OffsetOverflow t cpu.set c)) := by
  obtain ⟨r, hkey, hreg, ec⟩ := accepted_kernel (cpu := cpu) h32 hz hz' hl hl' hs hw hh hr hr' ha
  obtain ⟨hp, hp', ha1, ha2⟩ := (accepts_call hl hl' hs hh).1 ha
  have h422 := sup_ne_i422 hs
  have hin : Spec.InBounds cpu.set c ↔
      Touch (Spec.readEnd cpu.set c.src_format.pixel_format c.dst_format.pixel_format c.width.toNat)
        c.src_format.pixel_format c.src_format.num_planes.toNat c.width.toNat c.height.toNat
        c.src_strides c.src_buffers ∧
      Touch (Spec.bpp c.dst_format.pixel_format * c.width.toNat) c.dst_format.pixel_format
        c.dst_format.num_planes.toNat c.width.toNat c.height.toNat c.dst_strides c.dst_buffers := by
    rw [touch_iff hl hh h422.1 hp ha1, touch_iff hl' hh h422.2 hp' ha2]
    have hd : Spec.LinesInside c.dst_format c.width c.height c.dst_strides c.dst_buffers
        (fun row => if Spec.isRgb c.dst_format.pixel_format then
          Spec.bpp c.dst_format.pixel_format * c.width.toNat else row) ↔
      Spec.LinesInside c.dst_format c.width c.height c.dst_strides c.dst_buffers fun row => row := by
      unfold Spec.LinesInside
      cases hpf : c.dst_format.pixel_format <;>
        simp only [Spec.isRgb, Bool.false_eq_true, if_false, if_true] <;>
        (constructor <;> intro hyp i b rc hb0 hrc <;> have := hyp i b rc hb0 hrc <;>
          match i, hrc with
          | 0, hrc => cases hrc; exact this)
    rw [hd]
    exact ⟨fun h => ⟨h.src, h.dst⟩, fun h => ⟨h.1, h.2⟩⟩
  have hin' := and_congr hin (surplus_iff (t := t) (set := cpu.set) hl hp)
  have wp := kcall_wp (S := Spec.InBounds cpu.set c ∧ Spec.SurplusInside t cpu.set c)
    (X := t.checked = true ∧ (Spec.PartOverflow cpu.set c ∨ Spec.OffsetOverflow t cpu.set c)) (ss := c.src_strides)
    (sb := c.src_buffers) (ds := c.dst_strides) (db := c.dst_buffers)
    (by omega) (crate_safe t (byte_fits h32) cpu.set) hkey hreg hl hl' hw hh hr hr' ha1 ha2
    (fun hc h => ⟨hc, .inl ((stuck_iff hl hl' hp hp').2 h)⟩)
    (fun h1 h2 h3 h4 => ⟨h4.1, .inr (.inl ⟨h1, h2, h3, h4⟩)⟩)
    (fun h1 h2 h3 => ⟨h3.1, .inr (.inr ⟨h1, h2, h3⟩)⟩) hin'.1
  rcases hk : (kcall t (crate cpu.set) c.width.toNat c.height.toNat c.src_format.num_planes.toNat
    c.src_strides c.src_buffers c.dst_format.num_planes.toNat c.dst_strides c.dst_buffers r).run with
    ek | ⟨⟨⟩, ws⟩
  · rw [hk] at ec
    rcases wp.fault hk with ⟨h1, h2⟩ | ⟨rfl, h2⟩
    · refine .inr (.inl ⟨h1, ?_⟩)
      rcases h2 with rfl | rfl
      · exact .inl ec
      · exact .inr ec
    · exact .inr (.inr ⟨ec, h2⟩)
  · rw [hk] at ec
    obtain ⟨h1, h2⟩ := wp.post hk
    exact .inl ⟨hin'.2 h1, h2, ec⟩

/-- With overflow checks it does overflow under the conditions named there. -/
theorem accepted_overflow (h32 : 32 ≤ t.bits)
    (hz : Spec.SizesFit t c.src_format c.width c.height c.src_strides)
    (hz' : Spec.SizesFit t c.dst_format c.width c.height c.dst_strides)
    (hl : Spec.Legal c.src_format c.width c.height)
    (hl' : Spec.Legal c.dst_format c.width c.height)
    (hs : Spec.Supported c.src_format.pixel_format c.dst_format.pixel_format)
    (hw : c.width ≠ 0) (hh : c.height ≠ 0)
    (hr : Spec.Real t c.src_buffers) (hr' : Spec.Real t c.dst_buffers)
    (hc : t.checked = true) (ha : Spec.Accepts c)
    (ho : Spec.PartOverflow cpu.set c ∨ Spec.OffsetOverflow t cpu.set c) :
    convert t crate cpu c = .error .overflow := by
  obtain ⟨r, hkey, hreg, ec⟩ := accepted_kernel (cpu := cpu) h32 hz hz' hl hl' hs hw hh hr hr' ha
  obtain ⟨hp, hp', ha1, ha2⟩ := (accepts_call hl hl' hs hh).1 ha
  have wp := kcall_over (ss := c.src_strides) (sb := c.src_buffers) (ds := c.dst_strides)
    (db := c.dst_buffers) (by omega) (crate_safe t (byte_fits h32) cpu.set) hkey hw hh hc hr hr' ha1 ha2
    (ho.imp (stuck_iff hl hl' hp hp').1 (Or.imp (fun h => ⟨h.1, h.2.1, h.2.2.1, h.2.2.2⟩)
      fun h => ⟨h.1, h.2.1, h.2.2⟩))
  rcases hk : (kcall t (crate cpu.set) c.width.toNat c.height.toNat c.src_format.num_planes.toNat
    c.src_strides c.src_buffers c.dst_format.num_planes.toNat c.dst_strides c.dst_buffers r).run with
    ek | ⟨⟨⟩, ws⟩
  · rw [hk] at ec
    rcases wp.fault hk with ⟨h1, -⟩ | ⟨rfl, -⟩
    · exact absurd trivial h1
    · exact ec
  · exact (wp.post hk).elim

theorem rgb_one (hp : Spec.PlanesOk f.pixel_format f.num_planes.toNat)
    (hr : Spec.isRgb f.pixel_format = true) : f.num_planes.toNat = 1 := by
  revert hr hp
  cases f.pixel_format <;> simp [Spec.isRgb, Spec.PlanesOk]

theorem dims_rgb {pf : PixelFormat} {n w h : Nat} (hpf : Spec.isRgb pf = true) :
    (Spec.dims pf n w h)[0]? = some (Spec.bpp pf * w, h) := by
  revert hpf
  cases pf <;> intro hs <;> first | rfl | cases hs

/-- An image whose lines lie in its buffers has representable sizes. -/
theorem sizes_inside {f : ImageFormat} {w h : UInt32} {strides : Option (List Nat)} {bufs : List Buf}
    {g : Nat → Nat} (h32 : 32 ≤ t.bits) (hl : Spec.Legal f w h) (hh : h ≠ 0)
    (hp : Present f strides bufs) (hr : Spec.Real t bufs)
    (hg : Spec.isRgb f.pixel_format = true →
      Spec.bpp f.pixel_format * w.toNat ≤ g (Spec.bpp f.pixel_format * w.toNat) + 1)
    (hin : Spec.LinesInside f w h strides bufs g) : Spec.SizesFit t f w h strides := by
  have hb : 1 ≤ t.bits := by omega
  have h1 := imax_lt t hb
  have h2 := byte_fits h32
  have h3 := planes_le hl.planes
  have h4 := hp.bufs_len
  have h5 := u32_pos hh
  refine ⟨fun hpf => ?_, fun hpf hn => ?_⟩
  · have := hin 0 _ _ (buf_at (by omega)) (dims_rgb hpf)
    have := hg hpf
    have := hr _ (buf_mem (bufs := bufs) (i := 0) (by omega))
    simp only at *
    omega
  · have hs := hl.size
    rw [hpf] at hs
    have he : h.toNat % 2 = 0 := hs.2
    have := hin 0 _ (w.toNat, h.toNat + h.toNat / 2) (buf_at (by omega)) (by rw [hpf, hn]; rfl)
    have := hr _ (buf_mem (bufs := bufs) (i := 0) (by omega))
    have : Spec.strideOf strides 0 w.toNat * h.toNat ≤
        Spec.strideOf strides 0 w.toNat * (h.toNat + h.toNat / 2 - 1) :=
      Nat.mul_le_mul_left _ (by omega)
    simp only at *
    omega

theorem sizes_call {set : InstructionSet} (h32 : 32 ≤ t.bits)
    (hl : Spec.Legal c.src_format c.width c.height)
    (hl' : Spec.Legal c.dst_format c.width c.height) (hh : c.height ≠ 0)
    (hp : Present c.src_format c.src_strides c.src_buffers)
    (hp' : Present c.dst_format c.dst_strides c.dst_buffers)
    (hr : Spec.Real t c.src_buffers) (hr' : Spec.Real t c.dst_buffers)
    (hin : Spec.InBounds set c) : Spec.SizesFit t c.src_format c.width c.height c.src_strides ∧
      Spec.SizesFit t c.dst_format c.width c.height c.dst_strides :=
  ⟨sizes_inside h32 hl hh hp hr (fun e => by rw [if_pos e]; exact readEnd_ge ..) hin.src,
    sizes_inside h32 hl' hh hp' hr' (fun _ => Nat.le_succ _) hin.dst⟩

theorem stride_mono {strides : Option (List Nat)} {i a b : Nat} (h : a ≤ b) :
    Spec.strideOf strides i a ≤ Spec.strideOf strides i b := by
  unfold Spec.strideOf
  split
  · exact h
  · split <;> omega

/-- Buffers that pass the test pass it with wrapped sizes. -/
theorem wrapped_of_accepts {px : Bool} {f : ImageFormat} {w h : UInt32} {strides : Option (List Nat)}
    {bufs : List Buf} (hb : 1 ≤ t.bits) (hl : Spec.Legal f w h) (hh : h ≠ 0)
    (hr : Spec.Real t bufs) (ha : Spec.AcceptsImage px f w h strides bufs) :
    Spec.WrappedImage t px f w h strides bufs := by
  have hsp := accepts_split hb hr ha
  have h5 := u32_pos hh
  unfold Spec.WrappedImage
  split
  · rename_i hn
    intro b hb0
    have h1 := ha.single hn.1 hn.2 b hb0
    rw [Nat.mod_eq_of_lt (hsp hn.1 hn.2)]
    have hs := hl.size
    rw [hn.1] at hs
    have he : h.toNat % 2 = 0 := hs.2
    exact (split_acc (by omega)).2 h1
  · rename_i hn
    split
    · rename_i hpf
      intro b hb0
      have h1 := ha.plane hn 0 b _ hb0 (dims_rgb hpf)
      have h2 := Nat.mod_le (Spec.bpp f.pixel_format * w.toNat) (2 ^ t.bits)
      refine Nat.le_trans (Nat.add_le_add (stride_mono h2) (Nat.mul_le_mul_right _ ?_)) h1
      cases px
      · exact h2
      · exact Nat.le_refl _
    · exact ha

theorem wrap_iff {px : Bool} {f : ImageFormat} {w h : UInt32} {strides : Option (List Nat)}
    {bufs : List Buf} (hl : Spec.Legal f w h) (hh : h ≠ 0) (hf : f.pixel_format ≠ .i422)
    (hp : Present f strides bufs) (hpx : px = true → Spec.isRgb f.pixel_format = true) :
    WrapImage t px f w.toNat h.toNat strides bufs ↔ Spec.WrappedImage t px f w h strides bufs := by
  have hpl := planes_le hl.planes
  have hb := hp.bufs_len
  have hg := buf_at (bufs := bufs) (i := 0) (by omega)
  have one : ∀ {P : Buf → Prop}, P (bufAt bufs 0) ↔ ∀ b, bufs[0]? = some b → P b := by
    intro P
    constructor
    · intro h b hb
      rw [hg] at hb
      cases hb
      exact h
    · exact fun h => h _ hg
  unfold WrapImage Spec.WrappedImage
  split
  · exact one (P := fun b => Wrap.SplitAcc t b.len (Spec.strideOf strides 0 w.toNat) w.toNat h.toNat)
  · split
    · exact one (P := fun b => Acc b.len
        (Spec.strideOf strides 0 (Spec.bpp f.pixel_format * w.toNat % 2 ^ t.bits))
        (if px then w.toNat else Spec.bpp f.pixel_format * w.toNat % 2 ^ t.bits) h.toNat)
    · rw [accepts_iff px hl hh hf hpx]
      exact ⟨fun h => ⟨hp, h⟩, fun h => h.2⟩

open Classical in
/-- A call one of whose sizes exceeds `usize`. -/
theorem sizes_outcome (h32 : 32 ≤ t.bits)
    (hl : Spec.Legal c.src_format c.width c.height)
    (hl' : Spec.Legal c.dst_format c.width c.height)
    (hs : Spec.Supported c.src_format.pixel_format c.dst_format.pixel_format)
    (hw : c.width ≠ 0) (hh : c.height ≠ 0)
    (hr : Spec.Real t c.src_buffers) (hr' : Spec.Real t c.dst_buffers)
    (hp : Present c.src_format c.src_strides c.src_buffers)
    (hp' : Present c.dst_format c.dst_strides c.dst_buffers)
    (ho : ¬ (Spec.SizesFit t c.src_format c.width c.height c.src_strides ∧
      Spec.SizesFit t c.dst_format c.width c.height c.dst_strides)) :
    if t.checked = true then convert t crate cpu c = .error .overflow
    else if Spec.WrapAccepts t c then
      convert t crate cpu c = .error .oobRead ∨ convert t crate cpu c = .error .oobWrite
    else ∃ out, convert t crate cpu c = .ok (.error .notEnoughData, out) := by
  obtain ⟨tb, hT, e⟩ := convert_table t crate cpu
  obtain ⟨r, hkey, hreg, ec⟩ := convert_supported (t := t) (impls := crate) (ss := c.src_strides)
    (sb := c.src_buffers) (ds := c.dst_strides) (dl := dstSlices c.dst_buffers) hT hl hl' hs
  have wp := exec_over h32 (crate_safe t (byte_fits h32) cpu.set) r hkey hreg hl hl' hw hh hp hp' hr
    hr' ho
  rw [wrap_iff (px := pxPair c.src_format.pixel_format c.dst_format.pixel_format) hl hh
      (sup_ne_i422 hs).1 hp (fun e => (px_rgb e).1),
    wrap_iff (px := pxPair c.src_format.pixel_format c.dst_format.pixel_format) hl' hh
      (sup_ne_i422 hs).2 hp' (fun e => (px_rgb e).2)] at wp
  change K.Wp (_ ∨ ¬ Spec.WrapAccepts t c) _ _ (fun b => b = false ∧ _ ∧ ¬ Spec.WrapAccepts t c) at wp
  rw [e, convert_image, ec, K.bind_def, K.bind]
  unfold K.Wp at wp
  split at wp
  · rename_i b ws hrun
    obtain ⟨rfl, hc, hw⟩ := wp
    rw [hrun, if_neg (by simp [hc]), if_neg hw]
    exact ⟨_, rfl⟩
  · rename_i ek hrun
    rw [hrun]
    rcases wp with ⟨h1, h2⟩ | ⟨rfl, hc⟩
    · rw [not_or, not_not] at h1
      rw [if_neg h1.1, if_pos h1.2]
      rcases h2 with rfl | rfl
      · exact .inl rfl
      · exact .inr rfl
    · rw [if_pos hc]

end

/-! ## Deciding the conditions on concrete calls -/

theorem planes_check {bufs : List Buf} {ds : List (Nat × Nat)} {P : Nat → Nat → Nat × Nat → Prop} :
    (∀ (i : Nat) (b : Buf) (rc : Nat × Nat), bufs[i]? = some b → ds[i]? = some rc → P i b.len rc) ↔
      ∀ i, i < ds.length → match bufs[i]?, ds[i]? with
        | some b, some rc => P i b.len rc
        | _, _ => True := by
  constructor
  · intro h i _
    split
    · rename_i h1 h2; exact h i _ _ h1 h2
    · trivial
  · intro h i b rc hb hr
    have := h i (List.getElem?_eq_some_iff.1 hr).1
    rw [hb, hr] at this
    exact this

def planesDecidable {bufs : List Buf} {ds : List (Nat × Nat)} (P : Nat → Nat → Nat × Nat → Prop)
    [∀ i n rc, Decidable (P i n rc)] : Decidable (∀ (i : Nat) (b : Buf) (rc : Nat × Nat),
      bufs[i]? = some b → ds[i]? = some rc → P i b.len rc) :=
  @decidable_of_iff _ _ planes_check.symm (@Nat.decidableBallLT _ _ fun i hi => by
    split <;> infer_instance)

instance {f : ImageFormat} {w h : UInt32} {strides : Option (List Nat)} {bufs : List Buf}
    {e : Nat → Nat} : Decidable (Spec.LinesInside f w h strides bufs e) := by
  unfold Spec.LinesInside
  exact planesDecidable fun i n rc => Spec.strideOf strides i rc.1 * (rc.2 - 1) + e rc.1 ≤ n

instance (set : InstructionSet) (c : Call) : Decidable (Spec.InBounds set c) :=
  decidable_of_iff (_ ∧ _) ⟨fun h => ⟨h.1, h.2⟩, fun h => ⟨h.src, h.dst⟩⟩

theorem some_forall {α : Type} {o : Option α} {P : α → Prop} :
    (∀ a, o = some a → P a) ↔ match o with
      | some a => P a
      | none => True := by
  cases o <;> simp

instance {α : Type} {o : Option α} {P : α → Prop} [∀ a, Decidable (P a)] :
    Decidable (∀ a, o = some a → P a) :=
  @decidable_of_iff _ _ some_forall.symm (by split <;> infer_instance)

instance {px : Bool} {f : ImageFormat} {w h : UInt32} {strides : Option (List Nat)}
    {bufs : List Buf} : Decidable (Spec.AcceptsImage px f w h strides bufs) :=
  haveI : Decidable (∀ (i : Nat) (b : Buf) (rc : Nat × Nat), bufs[i]? = some b →
    (Spec.dims f.pixel_format f.num_planes.toNat w.toNat h.toNat)[i]? = some rc →
    Spec.strideOf strides i rc.1 + (if px then w.toNat else rc.1) * (rc.2 - 1) ≤ b.len) :=
    planesDecidable fun i n rc =>
      Spec.strideOf strides i rc.1 + (if px then w.toNat else rc.1) * (rc.2 - 1) ≤ n
  decidable_of_iff ((∀ l, strides = some l → f.num_planes.toNat ≤ l.length) ∧
    f.num_planes.toNat ≤ bufs.length ∧
    (¬ (f.pixel_format = .nv12 ∧ f.num_planes.toNat = 1) → ∀ (i : Nat) (b : Buf) (rc : Nat × Nat),
      bufs[i]? = some b →
      (Spec.dims f.pixel_format f.num_planes.toNat w.toNat h.toNat)[i]? = some rc →
      Spec.strideOf strides i rc.1 + (if px then w.toNat else rc.1) * (rc.2 - 1) ≤ b.len) ∧
    (f.pixel_format = .nv12 → f.num_planes.toNat = 1 → ∀ b, bufs[0]? = some b →
      w.toNat ≤ Spec.strideOf strides 0 w.toNat ∧
      Spec.strideOf strides 0 w.toNat * (h.toNat + 1) + w.toNat * (h.toNat / 2 - 1) ≤ b.len))
    ⟨fun h => ⟨h.1, h.2.1, h.2.2.1, h.2.2.2⟩,
      fun h => ⟨h.strides_len, h.bufs_len, h.plane, h.single⟩⟩

instance (c : Call) : Decidable (Spec.Accepts c) :=
  decidable_of_iff (_ ∧ _) ⟨fun h => ⟨h.1, h.2⟩, fun h => ⟨h.src, h.dst⟩⟩

instance {t : Target} {f : ImageFormat} {w h : UInt32} {strides : Option (List Nat)} :
    Decidable (Spec.SplitFits t f w h strides) := by unfold Spec.SplitFits; infer_instance

instance {t : Target} {f : ImageFormat} {w h : UInt32} {strides : Option (List Nat)} :
    Decidable (Spec.SizesFit t f w h strides) :=
  decidable_of_iff ((Spec.isRgb f.pixel_format = true →
      Spec.bpp f.pixel_format * w.toNat < 2 ^ t.bits) ∧ Spec.SplitFits t f w h strides)
    ⟨fun h => ⟨h.1, h.2⟩, fun h => ⟨h.1, h.2⟩⟩

instance {c : Call} : Decidable (Spec.WideStrides c) := by unfold Spec.WideStrides; infer_instance

instance {t : Target} {f : ImageFormat} {w h : UInt32} {strides : Option (List Nat)}
    {px : Bool} {bufs : List Buf} : Decidable (Spec.WrappedImage t px f w h strides bufs) := by
  unfold Spec.WrappedImage; infer_instance

instance {t : Target} {c : Call} : Decidable (Spec.WrapAccepts t c) := by
  unfold Spec.WrapAccepts; infer_instance

instance {t : Target} {set : InstructionSet} {c : Call} : Decidable (Spec.SurplusInside t set c) := by
  unfold Spec.SurplusInside; infer_instance

instance {t : Target} {c : Call} : Decidable (Spec.Asked t c) :=
  decidable_of_iff (Spec.Legal c.src_format c.width c.height ∧ Spec.Legal c.dst_format c.width c.height ∧
    Spec.Supported c.src_format.pixel_format c.dst_format.pixel_format ∧ c.width ≠ 0 ∧
    c.height ≠ 0 ∧ (∀ b, b ∈ c.src_buffers → b.len ≤ t.imax) ∧
    (∀ b, b ∈ c.dst_buffers → b.len ≤ t.imax))
    ⟨fun ⟨a, b, c, d, e, f, g⟩ => ⟨a, b, c, d, e, f, g⟩,
     fun ⟨a, b, c, d, e, f, g⟩ => ⟨a, b, c, d, e, f, g⟩⟩

instance {f : ImageFormat} {strides : Option (List Nat)} {bufs : List Buf} :
    Decidable (Spec.Supplied f strides bufs) := by unfold Spec.Supplied; infer_instance

instance {t : Target} {c : Call} : Decidable (Spec.Checked t c) :=
  decidable_of_iff (Spec.Asked t c ∧ Spec.SizesFit t c.src_format c.width c.height c.src_strides ∧
    Spec.SizesFit t c.dst_format c.width c.height c.dst_strides)
    ⟨fun ⟨a, b, c⟩ => ⟨a, b, c⟩, fun ⟨a, b, c⟩ => ⟨a, b, c⟩⟩

instance {set : InstructionSet} {c : Call} : Decidable (Spec.PartsFit set c) := by
  unfold Spec.PartsFit Spec.PixelsFit; infer_instance

instance {set : InstructionSet} {c : Call} : Decidable (Spec.PartOverflow set c) := by
  unfold Spec.PartOverflow Spec.PixelsFit Spec.PixelsInside; infer_instance

instance {set : InstructionSet} {pf : PixelFormat} {w : Nat} :
    Decidable (Spec.Vectorised set pf w) :=
  decidable_of_iff (∃ n, n ∈ (Spec.groupWidth set pf).toList ∧ n ≤ w) (by
    simp only [Spec.Vectorised, Option.mem_toList])

instance {t : Target} {set : InstructionSet} {c : Call} : Decidable (Spec.OffsetOverflow t set c) := by
  unfold Spec.OffsetOverflow Spec.LastLineOverflow Spec.FourthLineOverflow; infer_instance

end Verif
