import Verif.Model.Align
import Verif.Spec.Align
import Verif.Lemmas.CountCall
import Verif.Lemmas.WpCall
/-! # An encoder with and without the demand for aligned words -/

namespace Verif

/-- `k'` is `k` if `P`; otherwise it ends in `e` whenever `k` completes. -/
def K.Twin {α : Type} (P : Prop) (e : Fault) (k k' : K α) : Prop :=
  (P → k' = k) ∧ (¬ P → ∀ x, k.run = .ok x → k' = K.throw e)

namespace K.Twin

variable {α β : Type} {P Q : Prop} {e : Fault}

theorem refl {k : K α} : K.Twin True e k k := ⟨fun _ => rfl, fun h => absurd trivial h⟩

theorem congr {k k' : K α} (h : K.Twin P e k k') (hpq : P ↔ Q) : K.Twin Q e k k' :=
  ⟨fun q => h.1 (hpq.2 q), fun q => h.2 fun p => q (hpq.1 p)⟩

theorem bind {k k' : K α} {f f' : α → K β} (h : K.Twin P e k k')
    (hf : ∀ a, K.Twin Q e (f a) (f' a)) : K.Twin (P ∧ Q) e (k >>= f) (k' >>= f') := by
  constructor
  · rintro ⟨p, q⟩
    rw [h.1 p, show f' = f from funext fun a => (hf a).1 q]
  · intro hn x hx
    obtain ⟨y, us, vs, f1, f2, -⟩ := K.run_bind hx
    by_cases p : P
    · have hq : ¬ Q := fun q => hn ⟨p, q⟩
      rw [h.1 p, K.bind_def, K.bind, f1]
      simp only
      rw [(hf y).2 hq _ f2]
    · rw [h.2 p _ f1, K.throw_bind]

theorem bind_left {k : K α} {f f' : α → K β} (hf : ∀ a, K.Twin Q e (f a) (f' a)) :
    K.Twin Q e (k >>= f) (k >>= f') := (bind refl hf).congr (by simp)

theorem bind_right {k k' : K α} {f : α → K β} (h : K.Twin P e k k') :
    K.Twin P e (k >>= f) (k' >>= f) := (bind h fun _ => refl).congr (by simp)

theorem forFrom {f f' : Nat → K Unit} {P : Nat → Prop} {n : Nat} : ∀ {lo : Nat},
    (∀ i, i < n → K.Twin (P (lo + i)) e (f (lo + i)) (f' (lo + i))) →
    K.Twin (∀ i, i < n → P (lo + i)) e (Verif.forFrom lo n f) (Verif.forFrom lo n f') := by
  induction n with
  | zero => intro lo _; exact refl.congr ⟨fun _ i hi => by omega, fun _ => trivial⟩
  | succ n ih =>
    intro lo h
    rw [Verif.forFrom, Verif.forFrom]
    refine (bind (h 0 (by omega)) fun _ => ih (lo := lo + 1) fun i hi => ?_).congr ⟨?_, ?_⟩
    · have := h (i + 1) (by omega)
      rwa [show lo + (i + 1) = lo + 1 + i by omega] at this
    · rintro ⟨h0, hs⟩ i hi
      rcases i with _ | i
      · exact h0
      · have := hs i (by omega)
        rwa [show lo + (i + 1) = lo + 1 + i by omega]
    · intro ha
      refine ⟨ha 0 (by omega), fun i hi => ?_⟩
      have := ha (i + 1) (by omega)
      rwa [show lo + (i + 1) = lo + 1 + i by omega] at this

theorem forK {f f' : Nat → K Unit} {P : Nat → Prop} {n : Nat}
    (h : ∀ i, i < n → K.Twin (P i) e (f i) (f' i)) :
    K.Twin (∀ i, i < n → P i) e (Verif.forK n f) (Verif.forK n f') := by
  have := forFrom (e := e) (lo := 0) (n := n) (f := f) (f' := f') (P := P) (by simpa using h)
  simpa [Verif.forK] using this

end K.Twin

theorem wg_exact {t : Target} {x y w s n : Nat} (h : s * y + x * w ≤ n) (hn : n < 2 ^ t.bits) :
    wg_index t x y w s = .ok (s * y + x * w) := by
  unfold wg_index
  rw [X86.mul_ok (by omega), X86.mul_ok (by omega)]
  exact X86.add_ok (by omega)

namespace Align

open Neon

variable {e : Fault} {a : Nat → Nat} {t : Target}

theorem lane_twin (d : Dst) (i : Nat) (r : Simd.Reg) (lane : Nat) :
    K.Twin ((a d.plane + d.off + i) % 4 = 0) e (Neon.vst1_lane_u32 d i r lane)
      (vst1_lane_u32 e a d i r lane) :=
  ⟨fun h => if_pos h, fun h _ _ => if_neg h⟩

theorem rgb_to_i420_8x_twin (s : Sampler) (src : Buf) (top bot : Nat) (yp : Dst) (y_top y_bot : Nat)
    (up : Dst) (u : Nat) (vp : Dst) (v : Nat) (w : Neon.Weights) :
    K.Twin ((a up.plane + up.off + u) % 4 = 0 ∧ (a vp.plane + vp.off + v) % 4 = 0) e
      (Neon.rgb_to_i420_8x s src top bot yp y_top y_bot up u vp v w)
      (rgb_to_i420_8x e a s src top bot yp y_top y_bot up u vp v w) :=
  .bind_left fun _ => .bind (lane_twin ..) fun _ => lane_twin ..

theorem rgb_to_i420_neon_twin (s : Sampler) (depth : Nat) (c : Colorimetry)
    {w h ss ys us vs n : Nat} {src : Buf} {yp up vp : Dst} (hn : n < 2 ^ t.bits)
    (hu : ∀ y, y < h / 2 → ∀ x, x < w / 8 → us * y + x * 4 ≤ n)
    (hv : ∀ y, y < h / 2 → ∀ x, x < w / 8 → vs * y + x * 4 ≤ n) :
    K.Twin (∀ y, y < h / 2 → ∀ x, x < w / 8 → (a up.plane + up.off + (us * y + x * 4)) % 4 = 0 ∧
        (a vp.plane + vp.off + (vs * y + x * 4)) % 4 = 0) e
      (Neon.rgb_to_i420_neon (wg_index t) s depth c w h ss src ys us vs yp up vp)
      (rgb_to_i420_neon e a (wg_index t) s depth c w h ss src ys us vs yp up vp) := by
  unfold Neon.rgb_to_i420_neon rgb_to_i420_neon
  simp only [K.liftM_eq]
  refine .forK fun y hy => .forK fun x hx => ?_
  refine .bind_left fun _ => .bind_left fun _ => .bind_left fun _ => .bind_left fun _ => ?_
  rw [show RGB_TO_YUV_WAVES / 2 = 4 from rfl, wg_exact (hu y hy x hx) hn, wg_exact (hv y hy x hx) hn]
  simp only [K.lift_ok, pure_bind]
  exact rgb_to_i420_8x_twin ..

theorem rgb_i420_twin (s : Sampler) (depth : Nat) (c : Colorimetry)
    {w h ss ys us vs n : Nat} {src : Buf} {yp up vp : Dst} (hw : w < 2 ^ 32) (hn : n < 2 ^ t.bits)
    (hu : ∀ y, y < h / 2 → ∀ x, x < w / 8 → us * y + x * 4 ≤ n)
    (hv : ∀ y, y < h / 2 → ∀ x, x < w / 8 → vs * y + x * 4 ≤ n) :
    K.Twin (8 ≤ w → ∀ y, y < h / 2 → (a up.plane + up.off + us * y) % 4 = 0 ∧
        (a vp.plane + vp.off + vs * y) % 4 = 0) e
      (Neon.rgb_i420 (wg_index t) s depth c w h ss src ys us vs yp up vp)
      (rgb_i420 e a (wg_index t) s depth c w h ss src ys us vs yp up vp) := by
  unfold Neon.rgb_i420 rgb_i420
  simp only [Neon.part_eq hw]
  by_cases h8 : 8 ≤ w
  · have hp : 8 * (w / 8) > 0 := by omega
    simp only [if_pos hp]
    have hd : 8 * (w / 8) / 8 = w / 8 := by omega
    refine (K.Twin.bind_right (rgb_to_i420_neon_twin s depth c hn (by rwa [hd]) (by rwa [hd]))).congr ?_
    rw [hd]
    constructor
    · intro H _ y hy
      have := H y hy 0 (by omega)
      simpa using this
    · intro H y hy x hx
      have := H h8 y hy
      omega
  · have hp : ¬ 8 * (w / 8) > 0 := by omega
    simp only [if_neg hp]
    exact K.Twin.refl.congr ⟨fun _ h => absurd h h8, fun _ => trivial⟩

theorem kcall_same {w h sn dn : Nat} {ss ds : Option (List Nat)} {sb db : List Buf} {r : Routine}
    (hr : ∀ s q, r ≠ .rgbYuv s .i420 q) :
    kcall t (impls e a .neon) w h sn ss sb dn ds db r = kcall t (crate .neon) w h sn ss sb dn ds db r := by
  cases r with
  | rgbYuv s y q =>
    cases y with
    | i420 => exact absurd rfl (hr s q)
    | i444 => simp only [kcall, impls, crate]
    | nv12 => simp only [kcall, impls, crate]
  | yuvRgb y q d => cases y <;> simp only [kcall, impls, crate]
  | rgbRgb q => cases q <;> simp only [kcall, impls, crate]

end Align

end Verif
