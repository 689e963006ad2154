import Verif.Lemmas.Dispatch
import Verif.Lemmas.X86RgbK
/-! # The argument checks, as equations -/

namespace Verif

/-- What the bounds check of the wrappers accepts. -/
def Acc (len stride row rows : Nat) : Prop := stride + row * (rows - 1) ≤ len

instance (a b c d : Nat) : Decidable (Acc a b c d) := inferInstanceAs (Decidable (_ ≤ _))

theorem oob_eq {t : Target} {len stride row rows : Nat} (hl : len ≤ t.umax) :
    out_of_bounds t len stride (rows - 1) row = !decide (Acc len stride row rows) := by
  rw [← Bool.not_eq_eq_eq_not, Bool.eq_iff_iff]
  rw [decide_eq_true_eq]
  simp only [out_of_bounds, Acc, Bool.not_eq_true', Bool.or_eq_false_iff, decide_eq_false_iff_not,
    Bool.and_eq_false_iff, bne_eq_false_iff_eq, gt_iff_lt, not_lt]
  generalize rows - 1 = n
  constructor
  · rintro ⟨h1, h2⟩
    rcases h2 with h2 | ⟨_, h2⟩
    · subst h2; simpa using h1
    · omega
  · intro h
    have h3 : row * n ≤ len := by omega
    refine ⟨by omega, ?_⟩
    rcases Nat.eq_zero_or_pos n with h0 | h0
    · exact .inl h0
    · right
      refine ⟨?_, by omega⟩
      rw [Nat.le_div_iff_mul_le h0]
      omega

theorem idx_ok {α : Type} {l : List α} {i : Nat} {x : α} (h : l[i]? = some x) :
    idx l i = .ok x := by
  rw [idx, h]

theorem u32_pos {a : UInt32} (h : a ≠ 0) : 1 ≤ a.toNat := by
  rcases Nat.eq_zero_or_pos a.toNat with e | e
  · exact absurd (UInt32.toNat_inj.1 e) h
  · exact e

namespace Wrap

theorem not_empty {w h : UInt32} (hw : w ≠ 0) (hh : h ≠ 0) : ¬(w = 0 ∨ h = 0) := by
  rintro (e | e)
  · exact hw e
  · exact hh e

section
variable {t : Target} {w h : UInt32} {ss : List Nat} {sb : List Buf} {ds : List Nat} {db : List Dst}

theorem rgb_rgb_empty {k : RgbRgbKernel} {sd dd : Nat} (he : w = 0 ∨ h = 0) :
    rgb_rgb t sd dd k w h ss sb ds db = pure true := by
  rw [rgb_rgb, if_pos he]

theorem rgb_rgb_short {k : RgbRgbKernel} {sd dd : Nat} (hw : w ≠ 0) (hh : h ≠ 0)
    (hs : ss.length = 0 ∨ sb.length = 0 ∨ ds.length = 0 ∨ db.length = 0) :
    rgb_rgb t sd dd k w h ss sb ds db = pure false := by
  rw [rgb_rgb, if_neg (not_empty hw hh), if_pos hs]

theorem length_pos_of {α : Type} {l : List α} {i : Nat} {x : α} (h : l[i]? = some x) :
    i < l.length := by
  exact (List.getElem?_eq_some_iff.1 h).1

theorem rgb_rgb_run {k : RgbRgbKernel} {sd dd : Nat} (hw : w ≠ 0) (hh : h ≠ 0)
    {s0 d0 : Nat} {src : Buf} {dst : Dst} (h1 : ss[0]? = some s0) (h2 : sb[0]? = some src)
    (h3 : ds[0]? = some d0) (h4 : db[0]? = some dst)
    {R R' : Nat} (hm : t.mul sd w.toNat = .ok R) (hm' : t.mul dd w.toNat = .ok R')
    (hl : src.len ≤ t.umax) (hl' : dst.len ≤ t.umax) :
    rgb_rgb t sd dd k w h ss sb ds db =
      if Acc src.len (compute_stride s0 R) w.toNat h.toNat ∧
         Acc dst.len (compute_stride d0 R') w.toNat h.toNat
      then k w.toNat h.toNat (compute_stride s0 R) src
        (compute_stride d0 R') dst >>= fun _ => pure true
      else pure false := by
  have l1 := length_pos_of h1
  have l2 := length_pos_of h2
  have l3 := length_pos_of h3
  have l4 := length_pos_of h4
  have hp := u32_pos hh
  rw [rgb_rgb, if_neg (not_empty hw hh), if_neg (by omega)]
  simp only [idx_ok h1, idx_ok h2, idx_ok h3, idx_ok h4, hm, hm', X86.sub_ok hp,
    K.liftM_eq, K.lift_ok, pure_bind, oob_eq hl, oob_eq hl']
  by_cases a : Acc src.len (compute_stride s0 R) w.toNat h.toNat <;>
  by_cases b : Acc dst.len (compute_stride d0 R') w.toNat h.toNat <;>
  simp [a, b]

theorem rgb_rgb_eq {k : RgbRgbKernel} {sd dd : Nat} (hw : w ≠ 0) (hh : h ≠ 0)
    {s0 d0 : Nat} {src : Buf} {dst : Dst} (h1 : ss[0]? = some s0) (h2 : sb[0]? = some src)
    (h3 : ds[0]? = some d0) (h4 : db[0]? = some dst)
    (hm : sd * w.toNat < 2 ^ t.bits) (hm' : dd * w.toNat < 2 ^ t.bits)
    (hl : src.len ≤ t.umax) (hl' : dst.len ≤ t.umax) :
    rgb_rgb t sd dd k w h ss sb ds db =
      if Acc src.len (compute_stride s0 (sd * w.toNat)) w.toNat h.toNat ∧
         Acc dst.len (compute_stride d0 (dd * w.toNat)) w.toNat h.toNat
      then k w.toNat h.toNat (compute_stride s0 (sd * w.toNat)) src
        (compute_stride d0 (dd * w.toNat)) dst >>= fun _ => pure true
      else pure false :=
  rgb_rgb_run hw hh h1 h2 h3 h4 (X86.mul_ok hm) (X86.mul_ok hm') hl hl'

theorem rgb_i444_empty {k : RgbPlanarKernel} {dp : Nat} (he : w = 0 ∨ h = 0) :
    rgb_i444 t dp k w h ss sb ds db = pure true := by
  rw [rgb_i444, if_pos he]

theorem rgb_i444_short {k : RgbPlanarKernel} {dp : Nat} (hw : w ≠ 0) (hh : h ≠ 0)
    (hs : ss.length = 0 ∨ sb.length = 0 ∨ ds.length < 3 ∨ db.length < 3) :
    rgb_i444 t dp k w h ss sb ds db = pure false := by
  rw [rgb_i444, if_neg (not_empty hw hh), if_pos hs]

theorem rgb_i444_run {k : RgbPlanarKernel} {dp : Nat} (hw : w ≠ 0) (hh : h ≠ 0)
    {s0 d0 d1 d2 : Nat} {src : Buf} {yp up vp : Dst} (h1 : ss[0]? = some s0)
    (h2 : sb[0]? = some src)
    (h3 : ds[0]? = some d0) (h4 : ds[1]? = some d1) (h5 : ds[2]? = some d2)
    (h6 : db[0]? = some yp) (h7 : db[1]? = some up) (h8 : db[2]? = some vp)
    {R : Nat} (hm : t.mul dp w.toNat = .ok R) (hl : src.len ≤ t.umax) (hly : yp.len ≤ t.umax)
    (hlu : up.len ≤ t.umax) (hlv : vp.len ≤ t.umax) :
    rgb_i444 t dp k w h ss sb ds db =
      if Acc src.len (compute_stride s0 R) R h.toNat ∧
         Acc yp.len (compute_stride d0 w.toNat) w.toNat h.toNat ∧
         Acc up.len (compute_stride d1 w.toNat) w.toNat h.toNat ∧
         Acc vp.len (compute_stride d2 w.toNat) w.toNat h.toNat
      then k w.toNat h.toNat (compute_stride s0 R) src
        (compute_stride d0 w.toNat) (compute_stride d1 w.toNat) (compute_stride d2 w.toNat)
        yp up vp >>= fun _ => pure true
      else pure false := by
  have l1 := length_pos_of h1
  have l2 := length_pos_of h2
  have l3 := length_pos_of h5
  have l4 := length_pos_of h8
  have hp := u32_pos hh
  rw [rgb_i444, if_neg (not_empty hw hh), if_neg (by omega)]
  simp only [idx_ok h1, idx_ok h2, idx_ok h3, idx_ok h4, idx_ok h5, idx_ok h6, idx_ok h7,
    idx_ok h8, hm, X86.sub_ok hp,
    K.liftM_eq, K.lift_ok, pure_bind, oob_eq hl, oob_eq hly, oob_eq hlu, oob_eq hlv]
  by_cases a : Acc src.len (compute_stride s0 R) R h.toNat <;>
  by_cases b : Acc yp.len (compute_stride d0 w.toNat) w.toNat h.toNat <;>
  by_cases c : Acc up.len (compute_stride d1 w.toNat) w.toNat h.toNat <;>
  by_cases d : Acc vp.len (compute_stride d2 w.toNat) w.toNat h.toNat <;>
  simp [a, b, c, d]

theorem rgb_i444_eq {k : RgbPlanarKernel} {dp : Nat} (hw : w ≠ 0) (hh : h ≠ 0)
    {s0 d0 d1 d2 : Nat} {src : Buf} {yp up vp : Dst} (h1 : ss[0]? = some s0)
    (h2 : sb[0]? = some src)
    (h3 : ds[0]? = some d0) (h4 : ds[1]? = some d1) (h5 : ds[2]? = some d2)
    (h6 : db[0]? = some yp) (h7 : db[1]? = some up) (h8 : db[2]? = some vp)
    (hm : dp * w.toNat < 2 ^ t.bits) (hl : src.len ≤ t.umax) (hly : yp.len ≤ t.umax)
    (hlu : up.len ≤ t.umax) (hlv : vp.len ≤ t.umax) :
    rgb_i444 t dp k w h ss sb ds db =
      if Acc src.len (compute_stride s0 (dp * w.toNat)) (dp * w.toNat) h.toNat ∧
         Acc yp.len (compute_stride d0 w.toNat) w.toNat h.toNat ∧
         Acc up.len (compute_stride d1 w.toNat) w.toNat h.toNat ∧
         Acc vp.len (compute_stride d2 w.toNat) w.toNat h.toNat
      then k w.toNat h.toNat (compute_stride s0 (dp * w.toNat)) src
        (compute_stride d0 w.toNat) (compute_stride d1 w.toNat) (compute_stride d2 w.toNat)
        yp up vp >>= fun _ => pure true
      else pure false :=
  rgb_i444_run hw hh h1 h2 h3 h4 h5 h6 h7 h8 (X86.mul_ok hm) hl hly hlu hlv

theorem rgb_i420_empty {k : RgbPlanarKernel} {dp : Nat} (he : w = 0 ∨ h = 0) :
    rgb_i420 t dp k w h ss sb ds db = pure true := by
  rw [rgb_i420, if_pos he]

theorem rgb_i420_short {k : RgbPlanarKernel} {dp : Nat} (hw : w ≠ 0) (hh : h ≠ 0)
    (hs : ss.length = 0 ∨ sb.length = 0 ∨ ds.length < 3 ∨ db.length < 3) :
    rgb_i420 t dp k w h ss sb ds db = pure false := by
  rw [rgb_i420, if_neg (not_empty hw hh), if_pos hs]

theorem rgb_i420_run {k : RgbPlanarKernel} {dp : Nat} (hw : w ≠ 0) (hh : h ≠ 0)
    (hev : h.toNat % 2 = 0)
    {s0 d0 d1 d2 : Nat} {src : Buf} {yp up vp : Dst} (h1 : ss[0]? = some s0)
    (h2 : sb[0]? = some src)
    (h3 : ds[0]? = some d0) (h4 : ds[1]? = some d1) (h5 : ds[2]? = some d2)
    (h6 : db[0]? = some yp) (h7 : db[1]? = some up) (h8 : db[2]? = some vp)
    {R : Nat} (hm : t.mul dp w.toNat = .ok R) (hl : src.len ≤ t.umax) (hly : yp.len ≤ t.umax)
    (hlu : up.len ≤ t.umax) (hlv : vp.len ≤ t.umax) :
    rgb_i420 t dp k w h ss sb ds db =
      if Acc src.len (compute_stride s0 R) R h.toNat ∧
         Acc yp.len (compute_stride d0 w.toNat) w.toNat h.toNat ∧
         Acc up.len (compute_stride d1 (w.toNat / 2)) (w.toNat / 2) (h.toNat / 2) ∧
         Acc vp.len (compute_stride d2 (w.toNat / 2)) (w.toNat / 2) (h.toNat / 2)
      then k w.toNat h.toNat (compute_stride s0 R) src
        (compute_stride d0 w.toNat) (compute_stride d1 (w.toNat / 2))
        (compute_stride d2 (w.toNat / 2)) yp up vp >>= fun _ => pure true
      else pure false := by
  have l1 := length_pos_of h1
  have l2 := length_pos_of h2
  have l3 := length_pos_of h5
  have l4 := length_pos_of h8
  have hp := u32_pos hh
  have hp2 : 1 ≤ h.toNat / 2 := by omega
  rw [rgb_i420, if_neg (not_empty hw hh), if_neg (by omega)]
  simp only [idx_ok h1, idx_ok h2, idx_ok h3, idx_ok h4, idx_ok h5, idx_ok h6, idx_ok h7,
    idx_ok h8, hm, X86.sub_ok hp, X86.sub_ok hp2,
    K.liftM_eq, K.lift_ok, pure_bind, oob_eq hl, oob_eq hly, oob_eq hlu, oob_eq hlv]
  by_cases a : Acc src.len (compute_stride s0 R) R h.toNat <;>
  by_cases b : Acc yp.len (compute_stride d0 w.toNat) w.toNat h.toNat <;>
  by_cases c : Acc up.len (compute_stride d1 (w.toNat / 2)) (w.toNat / 2) (h.toNat / 2) <;>
  by_cases d : Acc vp.len (compute_stride d2 (w.toNat / 2)) (w.toNat / 2) (h.toNat / 2) <;>
  simp [a, b, c, d]

theorem rgb_i420_eq {k : RgbPlanarKernel} {dp : Nat} (hw : w ≠ 0) (hh : h ≠ 0)
    (hev : h.toNat % 2 = 0)
    {s0 d0 d1 d2 : Nat} {src : Buf} {yp up vp : Dst} (h1 : ss[0]? = some s0)
    (h2 : sb[0]? = some src)
    (h3 : ds[0]? = some d0) (h4 : ds[1]? = some d1) (h5 : ds[2]? = some d2)
    (h6 : db[0]? = some yp) (h7 : db[1]? = some up) (h8 : db[2]? = some vp)
    (hm : dp * w.toNat < 2 ^ t.bits) (hl : src.len ≤ t.umax) (hly : yp.len ≤ t.umax)
    (hlu : up.len ≤ t.umax) (hlv : vp.len ≤ t.umax) :
    rgb_i420 t dp k w h ss sb ds db =
      if Acc src.len (compute_stride s0 (dp * w.toNat)) (dp * w.toNat) h.toNat ∧
         Acc yp.len (compute_stride d0 w.toNat) w.toNat h.toNat ∧
         Acc up.len (compute_stride d1 (w.toNat / 2)) (w.toNat / 2) (h.toNat / 2) ∧
         Acc vp.len (compute_stride d2 (w.toNat / 2)) (w.toNat / 2) (h.toNat / 2)
      then k w.toNat h.toNat (compute_stride s0 (dp * w.toNat)) src
        (compute_stride d0 w.toNat) (compute_stride d1 (w.toNat / 2))
        (compute_stride d2 (w.toNat / 2)) yp up vp >>= fun _ => pure true
      else pure false :=
  rgb_i420_run hw hh hev h1 h2 h3 h4 h5 h6 h7 h8 (X86.mul_ok hm) hl hly hlu hlv

theorem i444_rgb_empty {k : PlanarRgbKernel} {dp : Nat} (he : w = 0 ∨ h = 0) :
    i444_rgb t dp k w h ss sb ds db = pure true := by
  rw [i444_rgb, if_pos he]

theorem i444_rgb_short {k : PlanarRgbKernel} {dp : Nat} (hw : w ≠ 0) (hh : h ≠ 0)
    (hs : ss.length < 3 ∨ sb.length < 3 ∨ ds.length = 0 ∨ db.length = 0) :
    i444_rgb t dp k w h ss sb ds db = pure false := by
  rw [i444_rgb, if_neg (not_empty hw hh), if_pos hs]

theorem i444_rgb_run {k : PlanarRgbKernel} {dp : Nat} (hw : w ≠ 0) (hh : h ≠ 0)
    {s0 s1 s2 d0 : Nat} {yb ub vb : Buf} {dst : Dst}
    (h1 : ss[0]? = some s0) (h2 : ss[1]? = some s1) (h3 : ss[2]? = some s2)
    (h4 : sb[0]? = some yb) (h5 : sb[1]? = some ub) (h6 : sb[2]? = some vb)
    (h7 : ds[0]? = some d0) (h8 : db[0]? = some dst)
    {R : Nat} (hm : t.mul dp w.toNat = .ok R) (hly : yb.len ≤ t.umax) (hlu : ub.len ≤ t.umax)
    (hlv : vb.len ≤ t.umax) (hl : dst.len ≤ t.umax) :
    i444_rgb t dp k w h ss sb ds db =
      if Acc yb.len (compute_stride s0 w.toNat) w.toNat h.toNat ∧
         Acc ub.len (compute_stride s1 w.toNat) w.toNat h.toNat ∧
         Acc vb.len (compute_stride s2 w.toNat) w.toNat h.toNat ∧
         Acc dst.len (compute_stride d0 R) R h.toNat
      then k w.toNat h.toNat (compute_stride s0 w.toNat) (compute_stride s1 w.toNat)
        (compute_stride s2 w.toNat) yb ub vb (compute_stride d0 R) dst
        >>= fun _ => pure true
      else pure false := by
  have l1 := length_pos_of h3
  have l2 := length_pos_of h6
  have l3 := length_pos_of h7
  have l4 := length_pos_of h8
  have hp := u32_pos hh
  rw [i444_rgb, if_neg (not_empty hw hh), if_neg (by omega)]
  simp only [idx_ok h1, idx_ok h2, idx_ok h3, idx_ok h4, idx_ok h5, idx_ok h6, idx_ok h7,
    idx_ok h8, hm, X86.sub_ok hp,
    K.liftM_eq, K.lift_ok, pure_bind, oob_eq hl, oob_eq hly, oob_eq hlu, oob_eq hlv]
  by_cases a : Acc dst.len (compute_stride d0 R) R h.toNat <;>
  by_cases b : Acc yb.len (compute_stride s0 w.toNat) w.toNat h.toNat <;>
  by_cases c : Acc ub.len (compute_stride s1 w.toNat) w.toNat h.toNat <;>
  by_cases d : Acc vb.len (compute_stride s2 w.toNat) w.toNat h.toNat <;>
  simp [a, b, c, d]

theorem i444_rgb_eq {k : PlanarRgbKernel} {dp : Nat} (hw : w ≠ 0) (hh : h ≠ 0)
    {s0 s1 s2 d0 : Nat} {yb ub vb : Buf} {dst : Dst}
    (h1 : ss[0]? = some s0) (h2 : ss[1]? = some s1) (h3 : ss[2]? = some s2)
    (h4 : sb[0]? = some yb) (h5 : sb[1]? = some ub) (h6 : sb[2]? = some vb)
    (h7 : ds[0]? = some d0) (h8 : db[0]? = some dst)
    (hm : dp * w.toNat < 2 ^ t.bits) (hly : yb.len ≤ t.umax) (hlu : ub.len ≤ t.umax)
    (hlv : vb.len ≤ t.umax) (hl : dst.len ≤ t.umax) :
    i444_rgb t dp k w h ss sb ds db =
      if Acc yb.len (compute_stride s0 w.toNat) w.toNat h.toNat ∧
         Acc ub.len (compute_stride s1 w.toNat) w.toNat h.toNat ∧
         Acc vb.len (compute_stride s2 w.toNat) w.toNat h.toNat ∧
         Acc dst.len (compute_stride d0 (dp * w.toNat)) (dp * w.toNat) h.toNat
      then k w.toNat h.toNat (compute_stride s0 w.toNat) (compute_stride s1 w.toNat)
        (compute_stride s2 w.toNat) yb ub vb (compute_stride d0 (dp * w.toNat)) dst
        >>= fun _ => pure true
      else pure false :=
  i444_rgb_run hw hh h1 h2 h3 h4 h5 h6 h7 h8 (X86.mul_ok hm) hly hlu hlv hl

theorem i420_rgb_empty {k : PlanarRgbKernel} {dp : Nat} (he : w = 0 ∨ h = 0) :
    i420_rgb t dp k w h ss sb ds db = pure true := by
  rw [i420_rgb, if_pos he]

theorem i420_rgb_short {k : PlanarRgbKernel} {dp : Nat} (hw : w ≠ 0) (hh : h ≠ 0)
    (hs : ss.length < 3 ∨ sb.length < 3 ∨ ds.length = 0 ∨ db.length = 0) :
    i420_rgb t dp k w h ss sb ds db = pure false := by
  rw [i420_rgb, if_neg (not_empty hw hh), if_pos hs]

theorem i420_rgb_run {k : PlanarRgbKernel} {dp : Nat} (hw : w ≠ 0) (hh : h ≠ 0)
    (hev : h.toNat % 2 = 0)
    {s0 s1 s2 d0 : Nat} {yb ub vb : Buf} {dst : Dst}
    (h1 : ss[0]? = some s0) (h2 : ss[1]? = some s1) (h3 : ss[2]? = some s2)
    (h4 : sb[0]? = some yb) (h5 : sb[1]? = some ub) (h6 : sb[2]? = some vb)
    (h7 : ds[0]? = some d0) (h8 : db[0]? = some dst)
    {R : Nat} (hm : t.mul dp w.toNat = .ok R) (hly : yb.len ≤ t.umax) (hlu : ub.len ≤ t.umax)
    (hlv : vb.len ≤ t.umax) (hl : dst.len ≤ t.umax) :
    i420_rgb t dp k w h ss sb ds db =
      if Acc yb.len (compute_stride s0 w.toNat) w.toNat h.toNat ∧
         Acc ub.len (compute_stride s1 (w.toNat / 2)) (w.toNat / 2) (h.toNat / 2) ∧
         Acc vb.len (compute_stride s2 (w.toNat / 2)) (w.toNat / 2) (h.toNat / 2) ∧
         Acc dst.len (compute_stride d0 R) R h.toNat
      then k w.toNat h.toNat (compute_stride s0 w.toNat) (compute_stride s1 (w.toNat / 2))
        (compute_stride s2 (w.toNat / 2)) yb ub vb (compute_stride d0 R) dst
        >>= fun _ => pure true
      else pure false := by
  have l1 := length_pos_of h3
  have l2 := length_pos_of h6
  have l3 := length_pos_of h7
  have l4 := length_pos_of h8
  have hp := u32_pos hh
  have hp2 : 1 ≤ h.toNat / 2 := by omega
  rw [i420_rgb, if_neg (not_empty hw hh), if_neg (by omega)]
  simp only [idx_ok h1, idx_ok h2, idx_ok h3, idx_ok h4, idx_ok h5, idx_ok h6, idx_ok h7,
    idx_ok h8, hm, X86.sub_ok hp, X86.sub_ok hp2,
    K.liftM_eq, K.lift_ok, pure_bind, oob_eq hl, oob_eq hly, oob_eq hlu, oob_eq hlv]
  by_cases a : Acc dst.len (compute_stride d0 R) R h.toNat <;>
  by_cases b : Acc yb.len (compute_stride s0 w.toNat) w.toNat h.toNat <;>
  by_cases c : Acc ub.len (compute_stride s1 (w.toNat / 2)) (w.toNat / 2) (h.toNat / 2) <;>
  by_cases d : Acc vb.len (compute_stride s2 (w.toNat / 2)) (w.toNat / 2) (h.toNat / 2) <;>
  simp [a, b, c, d]

theorem i420_rgb_eq {k : PlanarRgbKernel} {dp : Nat} (hw : w ≠ 0) (hh : h ≠ 0)
    (hev : h.toNat % 2 = 0)
    {s0 s1 s2 d0 : Nat} {yb ub vb : Buf} {dst : Dst}
    (h1 : ss[0]? = some s0) (h2 : ss[1]? = some s1) (h3 : ss[2]? = some s2)
    (h4 : sb[0]? = some yb) (h5 : sb[1]? = some ub) (h6 : sb[2]? = some vb)
    (h7 : ds[0]? = some d0) (h8 : db[0]? = some dst)
    (hm : dp * w.toNat < 2 ^ t.bits) (hly : yb.len ≤ t.umax) (hlu : ub.len ≤ t.umax)
    (hlv : vb.len ≤ t.umax) (hl : dst.len ≤ t.umax) :
    i420_rgb t dp k w h ss sb ds db =
      if Acc yb.len (compute_stride s0 w.toNat) w.toNat h.toNat ∧
         Acc ub.len (compute_stride s1 (w.toNat / 2)) (w.toNat / 2) (h.toNat / 2) ∧
         Acc vb.len (compute_stride s2 (w.toNat / 2)) (w.toNat / 2) (h.toNat / 2) ∧
         Acc dst.len (compute_stride d0 (dp * w.toNat)) (dp * w.toNat) h.toNat
      then k w.toNat h.toNat (compute_stride s0 w.toNat) (compute_stride s1 (w.toNat / 2))
        (compute_stride s2 (w.toNat / 2)) yb ub vb (compute_stride d0 (dp * w.toNat)) dst
        >>= fun _ => pure true
      else pure false :=
  i420_rgb_run hw hh hev h1 h2 h3 h4 h5 h6 h7 h8 (X86.mul_ok hm) hly hlu hlv hl

theorem nv12_rgb_empty {k : Nv12RgbKernel} {dp lsp : Nat} (he : w = 0 ∨ h = 0) :
    nv12_rgb t dp k w h lsp ss sb ds db = pure true := by
  rw [nv12_rgb, if_pos he]

theorem nv12_rgb_short {k : Nv12RgbKernel} {dp lsp : Nat} (hw : w ≠ 0) (hh : h ≠ 0)
    (hs : lsp ≥ ss.length ∨ lsp ≥ sb.length ∨ ds.length = 0 ∨ db.length = 0) :
    nv12_rgb t dp k w h lsp ss sb ds db = pure false := by
  rw [nv12_rgb, if_neg (not_empty hw hh), if_pos hs]

/-- Two planes. -/
theorem nv12_rgb_run2 {k : Nv12RgbKernel} {dp : Nat} (hw : w ≠ 0) (hh : h ≠ 0)
    (hev : h.toNat % 2 = 0)
    {s0 s1 d0 : Nat} {yb uvb : Buf} {dst : Dst}
    (h1 : ss[0]? = some s0) (h2 : ss[1]? = some s1)
    (h4 : sb[0]? = some yb) (h5 : sb[1]? = some uvb)
    (h7 : ds[0]? = some d0) (h8 : db[0]? = some dst)
    {R : Nat} (hm : t.mul dp w.toNat = .ok R) (hly : yb.len ≤ t.umax) (hlu : uvb.len ≤ t.umax)
    (hl : dst.len ≤ t.umax) :
    nv12_rgb t dp k w h 1 ss sb ds db =
      if Acc yb.len (compute_stride s0 w.toNat) w.toNat h.toNat ∧
         Acc uvb.len (compute_stride s1 w.toNat) w.toNat (h.toNat / 2) ∧
         Acc dst.len (compute_stride d0 R) R h.toNat
      then k w.toNat h.toNat (compute_stride s0 w.toNat) (compute_stride s1 w.toNat)
        yb uvb (compute_stride d0 R) dst >>= fun _ => pure true
      else pure false := by
  have l1 := length_pos_of h2
  have l2 := length_pos_of h5
  have l3 := length_pos_of h7
  have l4 := length_pos_of h8
  have hp := u32_pos hh
  have hp2 : 1 ≤ h.toNat / 2 := by omega
  rw [nv12_rgb, if_neg (not_empty hw hh), if_neg (by omega)]
  simp only [idx_ok h1, idx_ok h2, idx_ok h4, idx_ok h5, idx_ok h7,
    idx_ok h8, hm, X86.sub_ok hp, X86.sub_ok hp2, Nat.one_ne_zero, if_false,
    K.liftM_eq, K.lift_ok, pure_bind, oob_eq hl, oob_eq hly, oob_eq hlu]
  by_cases a : Acc dst.len (compute_stride d0 R) R h.toNat <;>
  by_cases b : Acc yb.len (compute_stride s0 w.toNat) w.toNat h.toNat <;>
  by_cases c : Acc uvb.len (compute_stride s1 w.toNat) w.toNat (h.toNat / 2) <;>
  simp [a, b, c]

theorem nv12_rgb_eq2 {k : Nv12RgbKernel} {dp : Nat} (hw : w ≠ 0) (hh : h ≠ 0)
    (hev : h.toNat % 2 = 0)
    {s0 s1 d0 : Nat} {yb uvb : Buf} {dst : Dst}
    (h1 : ss[0]? = some s0) (h2 : ss[1]? = some s1)
    (h4 : sb[0]? = some yb) (h5 : sb[1]? = some uvb)
    (h7 : ds[0]? = some d0) (h8 : db[0]? = some dst)
    (hm : dp * w.toNat < 2 ^ t.bits) (hly : yb.len ≤ t.umax) (hlu : uvb.len ≤ t.umax)
    (hl : dst.len ≤ t.umax) :
    nv12_rgb t dp k w h 1 ss sb ds db =
      if Acc yb.len (compute_stride s0 w.toNat) w.toNat h.toNat ∧
         Acc uvb.len (compute_stride s1 w.toNat) w.toNat (h.toNat / 2) ∧
         Acc dst.len (compute_stride d0 (dp * w.toNat)) (dp * w.toNat) h.toNat
      then k w.toNat h.toNat (compute_stride s0 w.toNat) (compute_stride s1 w.toNat)
        yb uvb (compute_stride d0 (dp * w.toNat)) dst >>= fun _ => pure true
      else pure false :=
  nv12_rgb_run2 hw hh hev h1 h2 h4 h5 h7 h8 (X86.mul_ok hm) hly hlu hl

/-- One plane: the chroma lines follow the luma lines. -/
theorem nv12_rgb_run1 {k : Nv12RgbKernel} {dp : Nat} (hw : w ≠ 0) (hh : h ≠ 0)
    (hev : h.toNat % 2 = 0)
    {s0 d0 : Nat} {b : Buf} {dst : Dst}
    (h1 : ss[0]? = some s0) (h4 : sb[0]? = some b)
    (h7 : ds[0]? = some d0) (h8 : db[0]? = some dst)
    {R : Nat} (hm : t.mul dp w.toNat = .ok R) {N : Nat}
    (hn : t.mul (compute_stride s0 w.toNat) h.toNat = .ok N) (hN : N ≤ t.umax)
    (hlb : b.len ≤ t.umax) (hl : dst.len ≤ t.umax) :
    nv12_rgb t dp k w h 0 ss sb ds db =
      if N ≤ b.len ∧
         Acc N (compute_stride s0 w.toNat) w.toNat h.toNat ∧
         Acc (b.len - N) (compute_stride s0 w.toNat) w.toNat
           (h.toNat / 2) ∧
         Acc dst.len (compute_stride d0 R) R h.toNat
      then k w.toNat h.toNat (compute_stride s0 w.toNat) (compute_stride s0 w.toNat)
        ⟨N, b.bytes⟩
        ⟨b.len - N,
          fun i => b.bytes (N + i)⟩
        (compute_stride d0 R) dst >>= fun _ => pure true
      else pure false := by
  have l1 := length_pos_of h1
  have l2 := length_pos_of h4
  have l3 := length_pos_of h7
  have l4 := length_pos_of h8
  have hp := u32_pos hh
  have hp2 : 1 ≤ h.toNat / 2 := by omega
  rw [nv12_rgb, if_neg (not_empty hw hh), if_neg (by omega)]
  simp only [idx_ok h1, idx_ok h4, idx_ok h7,
    idx_ok h8, hm, X86.sub_ok hp, X86.sub_ok hp2, hn, if_true,
    K.liftM_eq, K.lift_ok, pure_bind, oob_eq hl]
  by_cases hlen : b.len < N
  · rw [if_pos hlen, if_neg (by omega)]
  · rw [if_neg hlen, Buf.upto, Buf.from, if_pos (by omega), if_pos (by omega)]
    simp only [K.lift_ok, pure_bind, oob_eq hN,
      oob_eq (show b.len - N ≤ t.umax by omega)]
    by_cases a : Acc dst.len (compute_stride d0 R) R h.toNat <;>
    by_cases b' : Acc N (compute_stride s0 w.toNat) w.toNat h.toNat <;>
    by_cases c : Acc (b.len - N) (compute_stride s0 w.toNat) w.toNat (h.toNat / 2) <;>
    simp [a, b', c, Nat.le_of_not_lt hlen]

theorem nv12_rgb_eq1 {k : Nv12RgbKernel} {dp : Nat} (hw : w ≠ 0) (hh : h ≠ 0)
    (hev : h.toNat % 2 = 0)
    {s0 d0 : Nat} {b : Buf} {dst : Dst}
    (h1 : ss[0]? = some s0) (h4 : sb[0]? = some b)
    (h7 : ds[0]? = some d0) (h8 : db[0]? = some dst)
    (hm : dp * w.toNat < 2 ^ t.bits) (hn : compute_stride s0 w.toNat * h.toNat < 2 ^ t.bits)
    (hlb : b.len ≤ t.umax) (hl : dst.len ≤ t.umax) :
    nv12_rgb t dp k w h 0 ss sb ds db =
      if compute_stride s0 w.toNat * h.toNat ≤ b.len ∧
         Acc (compute_stride s0 w.toNat * h.toNat) (compute_stride s0 w.toNat) w.toNat h.toNat ∧
         Acc (b.len - compute_stride s0 w.toNat * h.toNat) (compute_stride s0 w.toNat) w.toNat
           (h.toNat / 2) ∧
         Acc dst.len (compute_stride d0 (dp * w.toNat)) (dp * w.toNat) h.toNat
      then k w.toNat h.toNat (compute_stride s0 w.toNat) (compute_stride s0 w.toNat)
        ⟨compute_stride s0 w.toNat * h.toNat, b.bytes⟩
        ⟨b.len - compute_stride s0 w.toNat * h.toNat,
          fun i => b.bytes (compute_stride s0 w.toNat * h.toNat + i)⟩
        (compute_stride d0 (dp * w.toNat)) dst >>= fun _ => pure true
      else pure false :=
  nv12_rgb_run1 hw hh hev h1 h4 h7 h8 (X86.mul_ok hm) (X86.mul_ok hn) (by unfold Target.umax; omega) hlb hl

theorem rgb_nv12_empty {k : RgbNv12Kernel} {dp lsp : Nat} (he : w = 0 ∨ h = 0) :
    rgb_nv12 t dp k w h ss sb lsp ds db = pure true := by
  rw [rgb_nv12, if_pos he]

theorem rgb_nv12_short {k : RgbNv12Kernel} {dp ldp : Nat} (hw : w ≠ 0) (hh : h ≠ 0)
    (hs : ss.length = 0 ∨ sb.length = 0 ∨ ldp ≥ ds.length ∨ ldp ≥ db.length) :
    rgb_nv12 t dp k w h ss sb ldp ds db = pure false := by
  rw [rgb_nv12, if_neg (not_empty hw hh), if_pos hs]

/-- Two planes. -/
theorem rgb_nv12_run2 {k : RgbNv12Kernel} {dp : Nat} (hw : w ≠ 0) (hh : h ≠ 0)
    (hev : h.toNat % 2 = 0)
    {s0 d0 d1 : Nat} {src : Buf} {yp uvp : Dst}
    (h1 : ss[0]? = some s0) (h2 : sb[0]? = some src)
    (h4 : ds[0]? = some d0) (h5 : ds[1]? = some d1)
    (h7 : db[0]? = some yp) (h8 : db[1]? = some uvp)
    {R : Nat} (hm : t.mul dp w.toNat = .ok R) (hl : src.len ≤ t.umax) (hly : yp.len ≤ t.umax)
    (hlu : uvp.len ≤ t.umax) :
    rgb_nv12 t dp k w h ss sb 1 ds db =
      if Acc src.len (compute_stride s0 R) R h.toNat ∧
         Acc yp.len (compute_stride d0 w.toNat) w.toNat h.toNat ∧
         Acc uvp.len (compute_stride d1 w.toNat) w.toNat (h.toNat / 2)
      then k w.toNat h.toNat (compute_stride s0 R) src
        (compute_stride d0 w.toNat) (compute_stride d1 w.toNat) yp uvp >>= fun _ => pure true
      else pure false := by
  have l1 := length_pos_of h1
  have l2 := length_pos_of h2
  have l3 := length_pos_of h5
  have l4 := length_pos_of h8
  have hp := u32_pos hh
  have hp2 : 1 ≤ h.toNat / 2 := by omega
  rw [rgb_nv12, if_neg (not_empty hw hh), if_neg (by omega)]
  simp only [idx_ok h1, idx_ok h2, idx_ok h4, idx_ok h5, idx_ok h7,
    idx_ok h8, hm, X86.sub_ok hp, X86.sub_ok hp2, Nat.one_ne_zero, if_false,
    K.liftM_eq, K.lift_ok, pure_bind, oob_eq hl, oob_eq hly, oob_eq hlu]
  by_cases a : Acc src.len (compute_stride s0 R) R h.toNat <;>
  by_cases b : Acc yp.len (compute_stride d0 w.toNat) w.toNat h.toNat <;>
  by_cases c : Acc uvp.len (compute_stride d1 w.toNat) w.toNat (h.toNat / 2) <;>
  simp [a, b, c]

theorem rgb_nv12_eq2 {k : RgbNv12Kernel} {dp : Nat} (hw : w ≠ 0) (hh : h ≠ 0)
    (hev : h.toNat % 2 = 0)
    {s0 d0 d1 : Nat} {src : Buf} {yp uvp : Dst}
    (h1 : ss[0]? = some s0) (h2 : sb[0]? = some src)
    (h4 : ds[0]? = some d0) (h5 : ds[1]? = some d1)
    (h7 : db[0]? = some yp) (h8 : db[1]? = some uvp)
    (hm : dp * w.toNat < 2 ^ t.bits) (hl : src.len ≤ t.umax) (hly : yp.len ≤ t.umax)
    (hlu : uvp.len ≤ t.umax) :
    rgb_nv12 t dp k w h ss sb 1 ds db =
      if Acc src.len (compute_stride s0 (dp * w.toNat)) (dp * w.toNat) h.toNat ∧
         Acc yp.len (compute_stride d0 w.toNat) w.toNat h.toNat ∧
         Acc uvp.len (compute_stride d1 w.toNat) w.toNat (h.toNat / 2)
      then k w.toNat h.toNat (compute_stride s0 (dp * w.toNat)) src
        (compute_stride d0 w.toNat) (compute_stride d1 w.toNat) yp uvp >>= fun _ => pure true
      else pure false :=
  rgb_nv12_run2 hw hh hev h1 h2 h4 h5 h7 h8 (X86.mul_ok hm) hl hly hlu

/-- One plane. -/
theorem rgb_nv12_run1 {k : RgbNv12Kernel} {dp : Nat} (hw : w ≠ 0) (hh : h ≠ 0)
    (hev : h.toNat % 2 = 0)
    {s0 d0 : Nat} {src : Buf} {d : Dst}
    (h1 : ss[0]? = some s0) (h2 : sb[0]? = some src)
    (h4 : ds[0]? = some d0) (h7 : db[0]? = some d)
    {R : Nat} (hm : t.mul dp w.toNat = .ok R) {N : Nat}
    (hn : t.mul (compute_stride d0 w.toNat) h.toNat = .ok N) (hN : N ≤ t.umax)
    (hl : src.len ≤ t.umax) (hld : d.len ≤ t.umax) :
    rgb_nv12 t dp k w h ss sb 0 ds db =
      if N ≤ d.len ∧
         Acc src.len (compute_stride s0 R) R h.toNat ∧
         Acc N (compute_stride d0 w.toNat) w.toNat h.toNat ∧
         Acc (d.len - N) (compute_stride d0 w.toNat) w.toNat
           (h.toNat / 2)
      then k w.toNat h.toNat (compute_stride s0 R) src
        (compute_stride d0 w.toNat) (compute_stride d0 w.toNat)
        ⟨d.plane, d.off, N⟩
        ⟨d.plane, d.off + N,
          d.len - N⟩ >>= fun _ => pure true
      else pure false := by
  have l1 := length_pos_of h1
  have l2 := length_pos_of h2
  have l3 := length_pos_of h4
  have l4 := length_pos_of h7
  have hp := u32_pos hh
  have hp2 : 1 ≤ h.toNat / 2 := by omega
  rw [rgb_nv12, if_neg (not_empty hw hh), if_neg (by omega)]
  simp only [idx_ok h1, idx_ok h2, idx_ok h4, idx_ok h7,
    hm, X86.sub_ok hp, X86.sub_ok hp2, hn, if_true,
    K.liftM_eq, K.lift_ok, pure_bind, oob_eq hl]
  by_cases hlen : d.len < N
  · rw [if_pos hlen, if_neg (by omega)]
  · rw [if_neg hlen, Dst.upto, Dst.from, if_pos (by omega), if_pos (by omega)]
    simp only [K.lift_ok, pure_bind, oob_eq hN,
      oob_eq (show d.len - N ≤ t.umax by omega)]
    by_cases a : Acc src.len (compute_stride s0 R) R h.toNat <;>
    by_cases b' : Acc N (compute_stride d0 w.toNat) w.toNat h.toNat <;>
    by_cases c : Acc (d.len - N) (compute_stride d0 w.toNat) w.toNat (h.toNat / 2) <;>
    simp [a, b', c, Nat.le_of_not_lt hlen]

theorem rgb_nv12_eq1 {k : RgbNv12Kernel} {dp : Nat} (hw : w ≠ 0) (hh : h ≠ 0)
    (hev : h.toNat % 2 = 0)
    {s0 d0 : Nat} {src : Buf} {d : Dst}
    (h1 : ss[0]? = some s0) (h2 : sb[0]? = some src)
    (h4 : ds[0]? = some d0) (h7 : db[0]? = some d)
    (hm : dp * w.toNat < 2 ^ t.bits) (hn : compute_stride d0 w.toNat * h.toNat < 2 ^ t.bits)
    (hl : src.len ≤ t.umax) (hld : d.len ≤ t.umax) :
    rgb_nv12 t dp k w h ss sb 0 ds db =
      if compute_stride d0 w.toNat * h.toNat ≤ d.len ∧
         Acc src.len (compute_stride s0 (dp * w.toNat)) (dp * w.toNat) h.toNat ∧
         Acc (compute_stride d0 w.toNat * h.toNat) (compute_stride d0 w.toNat) w.toNat h.toNat ∧
         Acc (d.len - compute_stride d0 w.toNat * h.toNat) (compute_stride d0 w.toNat) w.toNat
           (h.toNat / 2)
      then k w.toNat h.toNat (compute_stride s0 (dp * w.toNat)) src
        (compute_stride d0 w.toNat) (compute_stride d0 w.toNat)
        ⟨d.plane, d.off, compute_stride d0 w.toNat * h.toNat⟩
        ⟨d.plane, d.off + compute_stride d0 w.toNat * h.toNat,
          d.len - compute_stride d0 w.toNat * h.toNat⟩ >>= fun _ => pure true
      else pure false :=
  rgb_nv12_run1 hw hh hev h1 h2 h4 h7 (X86.mul_ok hm) (X86.mul_ok hn) (by unfold Target.umax; omega) hl hld

end

end Wrap

end Verif
