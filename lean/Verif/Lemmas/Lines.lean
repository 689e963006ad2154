import Verif.Lemmas.X86RgbK
/-! # Kernels that walk over the lines of a packed image in groups of pixels

`groups_emits` handles one line, `lines_emits` the kernels that compute the offsets of each line from
its number, and `running_emits` those that carry the offsets from line to line. -/

namespace Verif

theorem groups_emits {d : Dst} {so e a b m : Nat} {F : Nat → UInt8} {g : Nat → Nat → K Unit}
    (hb : 0 < b)
    (hg : ∀ i, i < m → Emits (g (so + a * i) (e + b * i)) ()
      (Row d (e + b * i) b (fun j => F (b * i + j)))) :
    Emits (iterK m (fun ((s, r) : Nat × Nat) => do
      g s r
      return (s + a, r + b)) (so, e)) (so + a * m, e + b * m) (Row d e (b * m) F) := by
  have := Emits.iterK (n := m) (f := fun ((s, r) : Nat × Nat) => do
      g s r
      return (s + a, r + b)) (s := fun i => (so + a * i, e + b * i))
      (G := fun i => Row d (e + b * i) b (fun j => F (b * i + j)))
      (fun i hi => by
        have e1 : so + a * (i + 1) = so + a * i + a := by rw [Nat.mul_add]; omega
        have e2 : e + b * (i + 1) = e + b * i + b := by rw [Nat.mul_add]; omega
        simp only [e1, e2]
        exact (hg i hi).then_pure)
  simp only [Nat.mul_zero, Nat.add_zero] at this
  exact this.congr fun p => (Row.chunks hb p).symm

theorem lines_emits {d : Dst} {ss ds a b m h row : Nat} {F : Nat → Nat → UInt8}
    {g : Nat → Nat → K Unit} (hb : 0 < b) (hrow : row = b * m)
    (hg : ∀ y, y < h → ∀ i, i < m → Emits (g (ss * y + a * i) (ds * y + b * i)) ()
      (Row d (ds * y + b * i) b (fun j => F (b * i + j) y))) :
    Emits (forK h fun y => do
      let _ ← iterK m (fun ((s, r) : Nat × Nat) => do
        g s r
        return (s + a, r + b)) (ss * y, ds * y)
      return ()) () (Rect d ds row h F) := by
  subst hrow
  refine (Emits.forK (G := fun y => Row d (ds * y) (b * m) (fun j => F j y)) fun y hy => ?_).congr
    fun p => (rect_rows p).symm
  exact (Emits.bind (groups_emits (F := fun j => F j y) hb (hg y hy)) (Emits.pure ())).congr
    (by simp)

theorem running_emits {t : Target} {d : Dst} {ss ds a b m h row len : Nat} {F : Nat → Nat → UInt8}
    {g : Nat → Nat → K Unit} (hb : 0 < b) (hrow : row = b * m)
    (hsb : a * m ≤ ss) (hdb : b * m ≤ ds)
    (hsl : len + ss < 2 ^ t.bits) (hdl : d.len + ds < 2 ^ t.bits)
    (hs : ∀ y, y < h → ss * y + a * m ≤ len)
    (hd : ∀ y, y < h → ds * y + b * m ≤ d.len)
    (hg : ∀ y, y < h → ∀ i, i < m → Emits (g (ss * y + a * i) (ds * y + b * i)) ()
      (Row d (ds * y + b * i) b (fun j => F (b * i + j) y))) :
    Emits (do
      let _ ← iterK h (fun ((s, r) : Nat × Nat) => do
        let (s, r) ← iterK m (fun ((s, r) : Nat × Nat) => do
          g s r
          return (s + a, r + b)) (s, r)
        let s ← (t.add s (ss - a * m) : R Nat)
        let r ← (t.add r (ds - b * m) : R Nat)
        return (s, r)) (0, 0)
      return ()) () (Rect d ds row h F) := by
  subst hrow
  have := Emits.iterK (n := h) (f := fun ((s, r) : Nat × Nat) => do
        let (s, r) ← iterK m (fun ((s, r) : Nat × Nat) => do
          g s r
          return (s + a, r + b)) (s, r)
        let s ← (t.add s (ss - a * m) : R Nat)
        let r ← (t.add r (ds - b * m) : R Nat)
        return (s, r)) (s := fun y => (ss * y, ds * y))
      (G := fun y => Row d (ds * y) (b * m) (fun j => F j y))
      (fun y hy => by
        have h1 := hs y hy
        have h2 := hd y hy
        refine (Emits.bind (groups_emits (F := fun j => F j y) hb (hg y hy)) (Emits.congr ?_
          (H := fun _ => False) fun p => Iff.rfl)).congr (by simp)
        simp only
        rw [X86.add_ok (t := t) (a := ss * y + a * m) (b := ss - a * m) (by omega),
          X86.add_ok (t := t) (a := ds * y + b * m) (b := ds - b * m) (by omega)]
        simp only [K.liftM_eq, K.lift_ok, pure_bind]
        rw [show ss * y + a * m + (ss - a * m) = ss * (y + 1) by rw [Nat.mul_add]; omega,
          show ds * y + b * m + (ds - b * m) = ds * (y + 1) by rw [Nat.mul_add]; omega]
        exact Emits.pure _)
  simp only [Nat.mul_zero] at this
  refine (Emits.bind this (Emits.pure ())).congr fun p => ?_
  rw [rect_rows]
  simp

end Verif
