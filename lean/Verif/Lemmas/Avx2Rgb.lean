import Verif.Lemmas.Avx2Dec
import Verif.Lemmas.Lines
import Verif.Lemmas.SimdImpl
/-! # AVX2 RGB to RGB kernels -/

namespace Verif.Avx2

open Spec (byte val PlaneFits)
open Verif.Simd

theorem or3_1 (x : UInt8) : x ||| 0 ||| 0 = x := by rw [X86.u8_or_0, X86.u8_or_0]
theorem or3_2 (x : UInt8) : 0 ||| x ||| 0 = x := by rw [X86.u8_0_or, X86.u8_or_0]
theorem or3_3 (x : UInt8) : 0 ||| 0 ||| x = x := by rw [X86.u8_0_or, X86.u8_0_or]

/-- The 32 bytes loaded from an offset. -/
def reg (b : Buf) (o : Nat) : Reg := fun j => if j < 32 then b.bytes (o + j) else 0

theorem load32 {b : Buf} {o : Nat} (h : o + 32 ≤ b.len) : load b o 32 = pure (reg b o) := load_eq h

theorem bgr_reg0 (b : Buf) (o : Nat) {j : Nat} (hj : j < 32) :
    bgr_to_rgb_reg0 (reg b o) (reg b (o + 32)) j = X86.rev3 b o 3 j := by
  unfold bgr_to_rgb_reg0
  interval_cases j <;> first | exact or3_1 _ | exact or3_2 _ | exact or3_3 _

theorem bgr_reg1 (b : Buf) (o : Nat) {j : Nat} (hj : j < 32) :
    bgr_to_rgb_reg1 (reg b o) (reg b (o + 32)) (reg b (o + 64)) j = X86.rev3 b o 3 (32 + j) := by
  unfold bgr_to_rgb_reg1
  interval_cases j <;> first | exact or3_1 _ | exact or3_2 _ | exact or3_3 _

theorem bgr_reg2 (b : Buf) (o : Nat) {j : Nat} (hj : j < 32) :
    bgr_to_rgb_reg2 (reg b (o + 32)) (reg b (o + 64)) j = X86.rev3 b o 3 (64 + j) := by
  unfold bgr_to_rgb_reg2
  interval_cases j <;> first | exact or3_1 _ | exact or3_2 _ | exact or3_3 _

theorem bgr_to_rgb_32_emits {src : Buf} {so : Nat} {dst : Dst} {d : Nat}
    (hs : so + 96 ≤ src.len) (hd : d + 96 ≤ dst.len) :
    Emits (bgr_to_rgb_32 src so dst d) () (Row dst d 96 (X86.rev3 src so 3)) := by
  unfold bgr_to_rgb_32
  rw [load32 (by omega), pure_bind, load32 (by omega), pure_bind, load32 (by omega), pure_bind]
  refine ((store_row (by omega) fun j hj => bgr_reg0 src so hj).seq
    ((store_row (by omega) fun j hj => bgr_reg1 src so hj).seq
    (store_row (by omega) fun j hj => bgr_reg2 src so hj))).congr fun p => ?_
  rw [show (96 : Nat) = 32 + (32 + 32) from rfl, Row.split, Row.split]
  simp only [← Nat.add_assoc]

theorem bgr_to_rgb_avx2_emits {w h ss ds : Nat} {src : Buf} {d : Dst} (hw : w % 32 = 0)
    (hs : ∀ y, y < h → ss * y + 3 * w ≤ src.len)
    (hd : ∀ y, y < h → ds * y + 3 * w ≤ d.len) :
    Emits (bgr_to_rgb_avx2 exactMul w h ss src ds d) () (X86.GRgb .bgr .rgb src ss w h ds d) := by
  obtain ⟨m, hm⟩ : ∃ m, w = 32 * m := ⟨w / 32, by omega⟩
  unfold bgr_to_rgb_avx2
  simp only [exactMul, K.liftM_eq, K.lift_ok, pure_bind]
  rw [show (w + (LANE_COUNT - 1)) / LANE_COUNT = m by unfold LANE_COUNT; omega]
  unfold X86.GRgb
  refine lines_emits (a := 96) (b := 96) (m := m) (g := fun so e => bgr_to_rgb_32 src so d e)
    (by omega) (show 3 * w = 96 * m by omega) fun y hy i hi => ?_
  have h1 := hs y hy
  have h2 := hd y hy
  refine (bgr_to_rgb_32_emits (src := src) (so := ss * y + 96 * i) (dst := d)
    (d := ds * y + 96 * i) (by omega) (by omega)).congr fun p => Row.congr (fun j hj => ?_) p
  rw [← X86.rev3_bgr]
  unfold X86.rev3
  congr 1
  omega

/-! ## BGRA to RGB -/

theorem bgra4_0 (b : Buf) (o : Nat) {j : Nat} (hj : j < 32) :
    or_si (bgra_to_rgb_8 (reg b o)) (permute4x64_epi64 (bgra_to_rgb_8 (reg b (o + 32)))
      (mm_shuffle 0 3 3 3)) j = X86.rev3 b o 4 j := by
  interval_cases j <;> first | exact X86.u8_or_0 _ | exact X86.u8_0_or _

theorem bgra4_1 (b : Buf) (o : Nat) {j : Nat} (hj : j < 32) :
    or_si (permute4x64_epi64 (bgra_to_rgb_8 (reg b (o + 32))) (mm_shuffle 3 3 2 1))
      (permute4x64_epi64 (bgra_to_rgb_8 (reg b (o + 64))) (mm_shuffle 1 0 3 3)) j =
      X86.rev3 b o 4 (32 + j) := by
  interval_cases j <;> first | exact X86.u8_or_0 _ | exact X86.u8_0_or _

theorem bgra4_2 (b : Buf) (o : Nat) {j : Nat} (hj : j < 32) :
    or_si (permute4x64_epi64 (bgra_to_rgb_8 (reg b (o + 64))) (mm_shuffle 3 3 3 2))
      (permute4x64_epi64 (bgra_to_rgb_8 (reg b (o + 96))) (mm_shuffle 2 1 0 3)) j =
      X86.rev3 b o 4 (64 + j) := by
  interval_cases j <;> first | exact X86.u8_or_0 _ | exact X86.u8_0_or _

theorem bgra1 (b : Buf) (o : Nat) {j : Nat} (hj : j < 24) :
    permutevar8x32_epi32 (shuffle_epi8 (reg b o) shf_mask_no_comb) pk_mask j =
      X86.rev3 b o 4 j := by
  interval_cases j <;> rfl

theorem rev3_shift (src : Buf) (so k j : Nat) :
    X86.rev3 src (so + 4 * k) 4 j = X86.rev3 src so 4 (3 * k + j) := by
  unfold X86.rev3
  congr 1
  omega

theorem bgra_to_rgb_4x_emits {src : Buf} {dst : Dst} {x so d : Nat}
    (hs : so + 128 ≤ src.len) (hd : d + 96 ≤ dst.len) :
    Emits (bgra_to_rgb_4x src dst ⟨x, so, d⟩) ⟨x + 32, so + 128, d + 96⟩
      (Row dst d 96 (X86.rev3 src so 4)) := by
  unfold bgra_to_rgb_4x
  simp only
  rw [load32 (by omega), pure_bind, load32 (by omega), pure_bind, load32 (by omega), pure_bind,
    load32 (by omega), pure_bind]
  refine ((store_row (by omega) fun j hj => bgra4_0 src so hj).seq
    ((store_row (by omega) fun j hj => bgra4_1 src so hj).seq
    (store_row (by omega) fun j hj => bgra4_2 src so hj).then_pure)).congr fun p => ?_
  rw [show (96 : Nat) = 32 + (32 + 32) from rfl, Row.split, Row.split]
  simp only [← Nat.add_assoc]

theorem bgra_to_rgb_1x_emits {src : Buf} {dst : Dst} {x so d : Nat}
    (hs : so + 32 ≤ src.len) (hd : d + 24 ≤ dst.len) :
    Emits (bgra_to_rgb_1x src dst ⟨x, so, d⟩) ⟨x + 8, so + 32, d + 24⟩
      (Row dst d 24 (X86.rev3 src so 4)) := by
  unfold bgra_to_rgb_1x
  simp only
  rw [load32 (by omega), pure_bind]
  refine ((store_row (by omega) fun j hj => bgra1 src so (j := j) (by omega)).seq
    (store_row (by omega) fun j hj => bgra1 src so (j := 16 + j) (by omega)).then_pure).congr
    fun p => ?_
  rw [show (24 : Nat) = 16 + 8 from rfl, Row.split]

theorem bgra_to_rgb_px_emits {src : Buf} {dst : Dst} {so d y : Nat}
    (hs : so + 4 * y + 3 ≤ src.len) (hd : d + 3 * y + 3 ≤ dst.len) :
    Emits (bgra_to_rgb_px src dst so d y) ()
      (Row dst (d + 3 * y) 3 (fun j => X86.rev3 src so 4 (3 * y + j))) := by
  unfold bgra_to_rgb_px
  rw [rd_eq (by omega), pure_bind, rd_eq (by omega), rd_eq (by omega)]
  simp only [pure_bind]
  refine ((Emits.wr (by omega)).seq ((Emits.wr (by omega)).seq (Emits.wr (by omega)))).congr
    fun p => ?_
  rw [← Bytes_row (n := 3) (bs := [src.bytes (4 * y + 2 + so), src.bytes (4 * y + 1 + so),
    src.bytes (4 * y + so)]) rfl, Bytes_three]
  · rw [show 3 * y + d = d + 3 * y by omega, show 3 * y + 1 + d = d + 3 * y + 1 by omega,
      show 3 * y + 2 + d = d + 3 * y + 2 by omega]
  · intro k hk
    simp only [X86.rev3]
    interval_cases k <;> simp <;> congr 1 <;> omega

/-- The vector part of one line. -/
theorem bgra_line_emits {src : Buf} {dst : Dst} {so d w : Nat} (hw : w < 2 ^ 32)
    (hs : so + 4 * w ≤ src.len) (hd : d + 3 * w ≤ dst.len) :
    Emits (do
      let s ← whileK w (fun s => s.x < lower_multiple_of_pot w LANE_COUNT)
        (bgra_to_rgb_4x src dst) ⟨0, so, d⟩
      let _ ← whileK w (fun s => s.x < lower_multiple_of_pot w 8) (bgra_to_rgb_1x src dst) s
      pure ()) () (Row dst d (3 * (8 * (w / 8))) (X86.rev3 src so 4)) := by
  rw [show lower_multiple_of_pot w LANE_COUNT = 32 * (w / 32) from
    lower_multiple (k := 5) hw (by omega), show lower_multiple_of_pot w 8 = 8 * (w / 8) from
    lower_multiple (k := 3) hw (by omega)]
  have h1 := Emits.whileK (fuel := w) (n := w / 32)
    (cond := fun s : X86.Cur => s.x < 32 * (w / 32)) (f := bgra_to_rgb_4x src dst)
    (s := fun m => ⟨32 * m, so + 4 * (32 * m), d + 3 * (32 * m)⟩)
    (G := fun m => Row dst (d + 96 * m) 96 (fun j => X86.rev3 src so 4 (96 * m + j))) (by omega)
    (by intro i hi; simp; omega) (by simp) (fun i hi => by
      have := bgra_to_rgb_4x_emits (src := src) (dst := dst) (x := 32 * i)
        (so := so + 4 * (32 * i)) (d := d + 3 * (32 * i)) (by omega) (by omega)
      rw [show (⟨32 * (i + 1), so + 4 * (32 * (i + 1)), d + 3 * (32 * (i + 1))⟩ : X86.Cur) =
        ⟨32 * i + 32, so + 4 * (32 * i) + 128, d + 3 * (32 * i) + 96⟩ by congr 1]
      refine this.congr fun p => ?_
      rw [show d + 3 * (32 * i) = d + 96 * i by omega]
      refine Row.congr (fun j _ => ?_) p
      rw [rev3_shift]
      congr 1
      omega)
  have h2 := Emits.whileK (fuel := w) (n := (w - 32 * (w / 32)) / 8)
    (cond := fun s : X86.Cur => s.x < 8 * (w / 8)) (f := bgra_to_rgb_1x src dst)
    (s := fun i => ⟨32 * (w / 32) + 8 * i, so + 4 * (32 * (w / 32) + 8 * i),
      d + 3 * (32 * (w / 32) + 8 * i)⟩)
    (G := fun m => Row dst (d + 96 * (w / 32) + 24 * m) 24
      (fun j => X86.rev3 src so 4 (96 * (w / 32) + (24 * m + j)))) (by omega)
    (by intro i hi; simp; omega) (by simp; omega) (fun i hi => by
      have := bgra_to_rgb_1x_emits (src := src) (dst := dst) (x := 32 * (w / 32) + 8 * i)
        (so := so + 4 * (32 * (w / 32) + 8 * i)) (d := d + 3 * (32 * (w / 32) + 8 * i))
        (by omega) (by omega)
      rw [show (⟨32 * (w / 32) + 8 * (i + 1), so + 4 * (32 * (w / 32) + 8 * (i + 1)),
          d + 3 * (32 * (w / 32) + 8 * (i + 1))⟩ : X86.Cur) =
        ⟨32 * (w / 32) + 8 * i + 8, so + 4 * (32 * (w / 32) + 8 * i) + 32,
          d + 3 * (32 * (w / 32) + 8 * i) + 24⟩ by congr 1]
      refine this.congr fun p => ?_
      rw [show d + 3 * (32 * (w / 32) + 8 * i) = d + 96 * (w / 32) + 24 * i by omega]
      refine Row.congr (fun j _ => ?_) p
      rw [rev3_shift]
      congr 1
      omega)
  simp only [Nat.mul_zero, Nat.add_zero] at h1 h2
  refine (h1.bind (h2.bind (Emits.pure ()))).congr fun p => ?_
  rw [show 3 * (8 * (w / 8)) = 96 * (w / 32) + 24 * ((w - 32 * (w / 32)) / 8) by omega, Row.split,
    Row.chunks (by omega), Row.chunks (by omega)]
  simp only [or_false]

/-- The remainder of all lines. -/
theorem bgra_tail_emits {t : Target} {w h v ss ds : Nat} {src : Buf} {d : Dst} (hv : v ≤ w)
    (hsb : 4 * w ≤ ss) (hdb : 3 * w ≤ ds)
    (hsl : src.len + ss < 2 ^ t.bits) (hdl : d.len + ds < 2 ^ t.bits)
    (hs : ∀ y, y < h → ss * y + 4 * w ≤ src.len)
    (hd : ∀ y, y < h → ds * y + 3 * w ≤ d.len) :
    Emits (do
      let _ ← iterK h (fun ((so, e) : Nat × Nat) => do
        forFrom v (w - v) (bgra_to_rgb_px src d so e)
        let so ← (t.add so (← (t.add (4 * w) (ss - 4 * w) : R Nat)) : R Nat)
        let e ← (t.add e (← (t.add (3 * w) (ds - 3 * w) : R Nat)) : R Nat)
        return (so, e)) (0, 0)
      return ()) () fun p => ∃ y, y < h ∧
        Row d (ds * y + 3 * v) (3 * (w - v)) (fun j => X86.rev3 src (ss * y) 4 (3 * v + j)) p := by
  have := Emits.iterK (n := h) (f := fun ((so, e) : Nat × Nat) => do
        forFrom v (w - v) (bgra_to_rgb_px src d so e)
        let so ← (t.add so (← (t.add (4 * w) (ss - 4 * w) : R Nat)) : R Nat)
        let e ← (t.add e (← (t.add (3 * w) (ds - 3 * w) : R Nat)) : R Nat)
        return (so, e)) (s := fun y => (ss * y, ds * y))
      (G := fun y => Row d (ds * y + 3 * v) (3 * (w - v))
        (fun j => X86.rev3 src (ss * y) 4 (3 * v + j)))
      (fun y hy => by
        have h1 := hs y hy
        have h2 := hd y hy
        refine (Emits.bind (Emits.forFrom (G := fun x => Row d (ds * y + 3 * x) 3
          (fun j => X86.rev3 src (ss * y) 4 (3 * x + j))) fun i hi =>
          bgra_to_rgb_px_emits (by omega) (by omega)) (Emits.congr ?_
          (H := fun _ => False) fun p => Iff.rfl)).congr fun p => ?_
        · rw [X86.add_ok (t := t) (a := 4 * w) (by omega), X86.add_ok (t := t) (a := 3 * w)
            (by omega)]
          simp only [K.liftM_eq, K.lift_ok, pure_bind]
          rw [show 4 * w + (ss - 4 * w) = ss by omega, show 3 * w + (ds - 3 * w) = ds by omega,
            X86.add_ok (t := t) (by omega), X86.add_ok (t := t) (by omega)]
          simp only [K.lift_ok, pure_bind]
          rw [show ss * y + ss = ss * (y + 1) by rw [Nat.mul_add]; omega,
            show ds * y + ds = ds * (y + 1) by rw [Nat.mul_add]; omega]
          exact Emits.pure _
        · rw [Row.chunks (by omega)]
          simp only [or_false]
          constructor
          · rintro ⟨i, hi, h⟩
            refine ⟨i, hi, ?_⟩
            rw [show ds * y + 3 * v + 3 * i = ds * y + 3 * (v + i) by omega]
            refine (Row.congr (fun j _ => ?_) p).1 h
            congr 1; omega
          · rintro ⟨i, hi, h⟩
            refine ⟨i, hi, ?_⟩
            rw [show ds * y + 3 * v + 3 * i = ds * y + 3 * (v + i) by omega] at h
            refine (Row.congr (fun j _ => ?_) p).1 h
            congr 1; omega)
  simp only [Nat.mul_zero] at this
  exact (Emits.bind this (Emits.pure ())).congr fun p => by simp

theorem bgra_to_rgb_avx2_emits {t : Target} {w h ss ds : Nat} {src : Buf} {d : Dst}
    (hw : w < 2 ^ 32) (hsb : 4 * w ≤ ss) (hdb : 3 * w ≤ ds)
    (hsl : src.len + ss < 2 ^ t.bits) (hdl : d.len + ds < 2 ^ t.bits)
    (hs : ∀ y, y < h → ss * y + 4 * w ≤ src.len)
    (hd : ∀ y, y < h → ds * y + 3 * w ≤ d.len) :
    Emits (bgra_to_rgb_avx2 t w h ss src ds d) () (X86.GRgb .bgra .rgb src ss w h ds d) := by
  have hG : ∀ p, X86.GRgb .bgra .rgb src ss w h ds d p ↔
      ∃ y, y < h ∧ Row d (ds * y) (3 * w) (X86.rev3 src (ss * y) 4) p := by
    intro p
    unfold X86.GRgb
    rw [rect_rows]
    constructor
    · rintro ⟨y, hy, h⟩
      exact ⟨y, hy, (Row.congr (fun j _ => X86.rev3_bgra src ss y j) p).2 h⟩
    · rintro ⟨y, hy, h⟩
      exact ⟨y, hy, (Row.congr (fun j _ => X86.rev3_bgra src ss y j) p).1 h⟩
  have h8 : lower_multiple_of_pot w 8 = 8 * (w / 8) := lower_multiple (k := 3) hw (by omega)
  unfold bgra_to_rgb_avx2
  simp only [K.liftM_eq, X86.mul_ok (t := t) (show 4 * w < 2 ^ t.bits by omega),
    X86.mul_ok (t := t) (show 3 * w < 2 ^ t.bits by omega), K.lift_ok, pure_bind]
  rw [X86.sub_ok hsb, X86.sub_ok hdb]
  rw [K.lift_ok, pure_bind, K.lift_ok, pure_bind]
  have hlines := Emits.forK (n := h) (f := fun i => do
      let so ← (t.mul (← (t.add (4 * w) (ss - 4 * w) : R Nat)) i : R Nat)
      let e ← (t.mul (← (t.add (3 * w) (ds - 3 * w) : R Nat)) i : R Nat)
      let s ← whileK w (fun s => s.x < lower_multiple_of_pot w LANE_COUNT)
        (bgra_to_rgb_4x src d) ⟨0, so, e⟩
      let _ ← whileK w (fun s => s.x < lower_multiple_of_pot w 8) (bgra_to_rgb_1x src d) s
      return ())
    (G := fun y => Row d (ds * y) (3 * (8 * (w / 8))) (X86.rev3 src (ss * y) 4)) fun y hy => by
    have h1 := hs y hy
    have h2 := hd y hy
    rw [X86.add_ok (t := t) (a := 4 * w) (by omega), X86.add_ok (t := t) (a := 3 * w) (by omega)]
    simp only [K.liftM_eq, K.lift_ok, pure_bind]
    rw [show 4 * w + (ss - 4 * w) = ss by omega, show 3 * w + (ds - 3 * w) = ds by omega,
      X86.mul_ok (t := t) (by omega), X86.mul_ok (t := t) (by omega)]
    simp only [K.lift_ok, pure_bind]
    exact bgra_line_emits hw h1 h2
  simp only [h8] at hlines ⊢
  refine (hlines.bind (H := fun p => ∃ y, y < h ∧ Row d (ds * y + 3 * (8 * (w / 8)))
    (3 * (w - 8 * (w / 8))) (fun j => X86.rev3 src (ss * y) 4 (3 * (8 * (w / 8)) + j)) p) ?_).congr
    fun p => ?_
  · by_cases hl : 8 * (w / 8) = w
    · rw [if_neg (not_not.2 hl)]
      refine (Emits.pure ()).congr fun p => ?_
      simp only [false_iff, not_exists, not_and]
      rintro y - ⟨j, hj, -⟩
      omega
    · rw [if_pos hl]
      exact bgra_tail_emits (v := 8 * (w / 8)) (by omega) hsb hdb hsl hdl hs hd
  · rw [hG]
    have key : ∀ y, Row d (ds * y) (3 * w) (X86.rev3 src (ss * y) 4) p ↔
        Row d (ds * y) (3 * (8 * (w / 8))) (X86.rev3 src (ss * y) 4) p ∨
        Row d (ds * y + 3 * (8 * (w / 8))) (3 * (w - 8 * (w / 8)))
          (fun j => X86.rev3 src (ss * y) 4 (3 * (8 * (w / 8)) + j)) p := by
      intro y
      rw [← Row.split, show 3 * (8 * (w / 8)) + 3 * (w - 8 * (w / 8)) = 3 * w by omega]
    constructor
    · rintro (⟨y, hy, h⟩ | ⟨y, hy, h⟩)
      · exact ⟨y, hy, (key y).2 (.inl h)⟩
      · exact ⟨y, hy, (key y).2 (.inr h)⟩
    · rintro ⟨y, hy, h⟩
      rcases (key y).1 h with h | h
      · exact .inl ⟨y, hy, h⟩
      · exact .inr ⟨y, hy, h⟩

/-! ## RGB to BGRA -/

theorem rgb_to_bgra_8_byte (a : Reg) {j : Nat} (hj : j < 32) :
    rgb_to_bgra_8 a j =
      if j % 4 = 3 then 255 else a (16 * (j / 16) + (3 * (j % 16 / 4) + (2 - j % 4))) := by
  interval_cases j <;> first | exact X86.u8_or_0 _ | exact X86.u8_0_or _

theorem in0 (b : Buf) (o : Nat) {q m : Nat} (hq : q < 2) (hm : m < 12) :
    permutevar8x32_epi32 (reg b o) (set_epi32 [6, 5, 4, 3, 3, 2, 1, 0]) (16 * q + m) =
      b.bytes (o + (12 * q + m)) := by
  interval_cases q <;> interval_cases m <;> rfl

theorem in1 (b : Buf) (o : Nat) {q m : Nat} (hq : q < 2) (hm : m < 12) :
    blend_epi32 (permute4x64_epi64 (reg b o) (mm_shuffle 0 0 0 3))
      (permutevar8x32_epi32 (reg b (o + 32)) (set_epi32 [4, 3, 2, 1, 1, 0, 0, 0])) 0b11111100
      (16 * q + m) = b.bytes (o + (24 + (12 * q + m))) := by
  interval_cases q <;> interval_cases m <;> rfl

theorem in2 (b : Buf) (o : Nat) {q m : Nat} (hq : q < 2) (hm : m < 12) :
    blend_epi32 (permutevar8x32_epi32 (reg b (o + 32)) (set_epi32 [0, 0, 0, 7, 7, 6, 5, 4]))
      (permutevar8x32_epi32 (reg b (o + 64)) (set_epi32 [2, 1, 0, 0, 0, 0, 0, 0])) 0b11100000
      (16 * q + m) = b.bytes (o + (48 + (12 * q + m))) := by
  interval_cases q <;> interval_cases m <;> rfl

theorem in3 (b : Buf) (o : Nat) {q m : Nat} (hq : q < 2) (hm : m < 12) :
    permutevar8x32_epi32 (reg b (o + 64)) (set_epi32 [4, 7, 6, 5, 5, 4, 3, 2]) (16 * q + m) =
      b.bytes (o + (72 + (12 * q + m))) := by
  interval_cases q <;> interval_cases m <;> rfl

/-- Eight pixels from a register holding four of them in each half. -/
theorem px8 {a : Reg} {b : Buf} {o k : Nat}
    (h : ∀ q m, q < 2 → m < 12 → a (16 * q + m) = b.bytes (o + (24 * k + (12 * q + m)))) {j : Nat}
    (hj : j < 32) : rgb_to_bgra_8 a j = X86.rev4 b o (32 * k + j) := by
  rw [rgb_to_bgra_8_byte a hj]
  unfold X86.rev4
  rw [show (32 * k + j) % 4 = j % 4 by omega]
  split
  · rfl
  · rw [h _ _ (by omega) (by omega)]
    congr 1
    omega

theorem rgb_to_bgra_32_emits {src : Buf} {so : Nat} {dst : Dst} {d : Nat}
    (hs : so + 96 ≤ src.len) (hd : d + 128 ≤ dst.len) :
    Emits (rgb_to_bgra_32 src so dst d) () (Row dst d 128 (X86.rev4 src so)) := by
  unfold rgb_to_bgra_32
  rw [load32 (by omega), pure_bind, load32 (by omega), pure_bind, load32 (by omega)]
  simp only [pure_bind]
  refine ((store_row (F := fun j => X86.rev4 src so j) (by omega) fun j hj =>
      (px8 (b := src) (o := so) (k := 0) (fun q m hq hm => (in0 src so hq hm).trans (by rw [Nat.mul_zero, Nat.zero_add])) hj).trans
        (by rw [Nat.mul_zero, Nat.zero_add])).seq
    ((store_row (F := fun j => X86.rev4 src so (32 + j)) (by omega) fun j hj =>
      px8 (k := 1) (fun q m hq hm => in1 src so hq hm) hj).seq
    ((store_row (F := fun j => X86.rev4 src so (64 + j)) (by omega) fun j hj =>
      px8 (k := 2) (fun q m hq hm => in2 src so hq hm) hj).seq
    (store_row (F := fun j => X86.rev4 src so (96 + j)) (by omega) fun j hj =>
      px8 (k := 3) (fun q m hq hm => in3 src so hq hm) hj)))).congr fun p => ?_
  rw [show (128 : Nat) = 32 + (32 + (32 + 32)) from rfl, Row.split, Row.split, Row.split]
  simp only [← Nat.add_assoc, Nat.reduceAdd]

theorem rgb_to_bgra_avx2_emits {t : Target} {w h ss ds : Nat} {src : Buf} {d : Dst}
    (hw : w % 32 = 0) (hsb : 3 * w ≤ ss) (hdb : 4 * w ≤ ds)
    (hsl : src.len + ss < 2 ^ t.bits) (hdl : d.len + ds < 2 ^ t.bits)
    (hs : ∀ y, y < h → ss * y + 3 * w ≤ src.len)
    (hd : ∀ y, y < h → ds * y + 4 * w ≤ d.len) :
    Emits (rgb_to_bgra_avx2 t w h ss src ds d) () (X86.GRgb .rgb .bgra src ss w h ds d) := by
  obtain ⟨m, hm⟩ : ∃ m, w = 32 * m := ⟨w / 32, by omega⟩
  have e1 : 3 * w = 96 * m := by omega
  have e2 : 4 * w = 128 * m := by omega
  unfold rgb_to_bgra_avx2
  rw [X86.mul_ok (t := t) (show 3 * w < 2 ^ t.bits by omega),
    X86.mul_ok (t := t) (show 4 * w < 2 ^ t.bits by omega)]
  simp only [K.liftM_eq, K.lift_ok, pure_bind]
  rw [X86.sub_ok hsb, X86.sub_ok hdb]
  rw [K.lift_ok, pure_bind, K.lift_ok, pure_bind,
    show (w + (LANE_COUNT - 1)) / LANE_COUNT = m by unfold LANE_COUNT; omega]
  rw [e1] at hsb hs ⊢
  rw [e2] at hdb hd ⊢
  unfold X86.GRgb
  refine running_emits (a := 96) (b := 128) (m := m) (len := src.len)
    (g := fun so e => rgb_to_bgra_32 src so d e) (by omega) (show 4 * w = 128 * m by omega)
    hsb hdb hsl hdl hs hd fun y hy i hi => ?_
  have h1 := hs y hy
  have h2 := hd y hy
  refine (rgb_to_bgra_32_emits (src := src) (so := ss * y + 96 * i) (dst := d)
            (d := ds * y + 128 * i) (by omega) (by omega)).congr fun p => Row.congr (fun j hj => ?_) p
  rw [← X86.rev4_rgb]
  unfold X86.rev4
  rw [show (128 * i + j) % 4 = j % 4 by omega]
  split
  · rfl
  · congr 1; omega

end Verif.Avx2
