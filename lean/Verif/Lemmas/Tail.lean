import Verif.Lemmas.ImplOk
/-!
# Lines split into a vector part and a portable remainder

Facts shared by all vector instruction sets: groups of pixels tile a rectangle, and a rectangle is
the union of its vector part and its remainder.
-/

namespace Verif

open Spec (PlaneFits)

/-! ## Groups -/

theorem rect_groups {d : Dst} {stride n m h : Nat} {f : Nat → Nat → UInt8} (hn : 0 < n)
    (p : Write) :
    Rect d stride (n * m) h f p ↔ ∃ y, y < h ∧ ∃ x, x < m ∧
      Row d (stride * y + n * x) n (fun k => f (n * x + k) y) p := by
  simp only [rect_rows, Row.chunks hn]

theorem rect_groups2 {d : Dst} {stride n m h : Nat} {f : Nat → Nat → UInt8} (hn : 0 < n)
    (hh : h % 2 = 0) (p : Write) :
    Rect d stride (n * m) h f p ↔ ∃ y, y < h / 2 ∧ ∃ x, x < m ∧
      (Row d (stride * (2 * y) + n * x) n (fun k => f (n * x + k) (2 * y)) p ∨
        Row d (stride * (2 * y + 1) + n * x) n (fun k => f (n * x + k) (2 * y + 1)) p) := by
  rw [rect_groups hn, exists_even hh]
  constructor
  · rintro ⟨y, hy, ⟨x, hx, h⟩ | ⟨x, hx, h⟩⟩
    · exact ⟨y, hy, x, hx, .inl h⟩
    · exact ⟨y, hy, x, hx, .inr h⟩
  · rintro ⟨y, hy, x, hx, h | h⟩
    · exact ⟨y, hy, .inl ⟨x, hx, h⟩⟩
    · exact ⟨y, hy, .inr ⟨x, hx, h⟩⟩

/-- Encoder to three full planes, `n` pixels at a time. -/
theorem enc444_groups {n m h ys us vs : Nat} {yp up vp : Dst} {L U V : Spec.Plane}
    {body : Nat → Nat → K Unit} (hn : 0 < n)
    (hb : ∀ y, y < h → ∀ x, x < m → Emits (body x y) () fun p =>
      Row yp (ys * y + n * x) n (fun k => L (n * x + k) y) p ∨
      Row up (us * y + n * x) n (fun k => U (n * x + k) y) p ∨
      Row vp (vs * y + n * x) n (fun k => V (n * x + k) y) p) :
    Emits (forK h fun y => forK m fun x => body x y) () fun p =>
      Rect yp ys (n * m) h L p ∨ Rect up us (n * m) h U p ∨ Rect vp vs (n * m) h V p := by
  refine (Emits.forK fun y hy => Emits.forK fun x hx => hb y hy x hx).congr fun p => ?_
  simp only [rect_groups hn]
  constructor
  · rintro ⟨y, hy, x, hx, h | h | h⟩
    · exact .inl ⟨y, hy, x, hx, h⟩
    · exact .inr (.inl ⟨y, hy, x, hx, h⟩)
    · exact .inr (.inr ⟨y, hy, x, hx, h⟩)
  · rintro (⟨y, hy, x, hx, h⟩ | ⟨y, hy, x, hx, h⟩ | ⟨y, hy, x, hx, h⟩)
    · exact ⟨y, hy, x, hx, .inl h⟩
    · exact ⟨y, hy, x, hx, .inr (.inl h)⟩
    · exact ⟨y, hy, x, hx, .inr (.inr h)⟩

/-- Encoder to a full luma plane and two subsampled chroma planes, two lines of `n` pixels at a
time. -/
theorem enc420_groups {n n' m h ys us vs : Nat} {yp up vp : Dst} {L U V : Spec.Plane}
    {body : Nat → Nat → K Unit} (hn : 0 < n) (hn' : 0 < n') (hh : h % 2 = 0)
    (hb : ∀ y, y < h / 2 → ∀ x, x < m → Emits (body x y) () fun p =>
      Row yp (ys * (2 * y) + n * x) n (fun k => L (n * x + k) (2 * y)) p ∨
      Row yp (ys * (2 * y + 1) + n * x) n (fun k => L (n * x + k) (2 * y + 1)) p ∨
      Row up (us * y + n' * x) n' (fun k => U (n' * x + k) y) p ∨
      Row vp (vs * y + n' * x) n' (fun k => V (n' * x + k) y) p) :
    Emits (forK (h / 2) fun y => forK m fun x => body x y) () fun p =>
      Rect yp ys (n * m) h L p ∨ Rect up us (n' * m) (h / 2) U p ∨
        Rect vp vs (n' * m) (h / 2) V p := by
  refine (Emits.forK fun y hy => Emits.forK fun x hx => hb y hy x hx).congr fun p => ?_
  rw [rect_groups2 hn hh, rect_groups hn', rect_groups hn']
  constructor
  · rintro ⟨y, hy, x, hx, h | h | h | h⟩
    · exact .inl ⟨y, hy, x, hx, .inl h⟩
    · exact .inl ⟨y, hy, x, hx, .inr h⟩
    · exact .inr (.inl ⟨y, hy, x, hx, h⟩)
    · exact .inr (.inr ⟨y, hy, x, hx, h⟩)
  · rintro (⟨y, hy, x, hx, h | h⟩ | ⟨y, hy, x, hx, h⟩ | ⟨y, hy, x, hx, h⟩)
    · exact ⟨y, hy, x, hx, .inl h⟩
    · exact ⟨y, hy, x, hx, .inr (.inl h)⟩
    · exact ⟨y, hy, x, hx, .inr (.inr (.inl h))⟩
    · exact ⟨y, hy, x, hx, .inr (.inr (.inr h))⟩

/-- Encoder to a full luma plane and an interleaved chroma plane. -/
theorem encNv12_groups {n m h ys uvs : Nat} {yp uvp : Dst} {L UV : Spec.Plane}
    {body : Nat → Nat → K Unit} (hn : 0 < n) (hh : h % 2 = 0)
    (hb : ∀ y, y < h / 2 → ∀ x, x < m → Emits (body x y) () fun p =>
      Row yp (ys * (2 * y) + n * x) n (fun k => L (n * x + k) (2 * y)) p ∨
      Row yp (ys * (2 * y + 1) + n * x) n (fun k => L (n * x + k) (2 * y + 1)) p ∨
      Row uvp (uvs * y + n * x) n (fun k => UV (n * x + k) y) p) :
    Emits (forK (h / 2) fun y => forK m fun x => body x y) () fun p =>
      Rect yp ys (n * m) h L p ∨ Rect uvp uvs (n * m) (h / 2) UV p := by
  refine (Emits.forK fun y hy => Emits.forK fun x hx => hb y hy x hx).congr fun p => ?_
  rw [rect_groups2 hn hh, rect_groups hn]
  constructor
  · rintro ⟨y, hy, x, hx, h | h | h⟩
    · exact .inl ⟨y, hy, x, hx, .inl h⟩
    · exact .inl ⟨y, hy, x, hx, .inr h⟩
    · exact .inr ⟨y, hy, x, hx, h⟩
  · rintro (⟨y, hy, x, hx, h | h⟩ | ⟨y, hy, x, hx, h⟩)
    · exact ⟨y, hy, x, hx, .inl h⟩
    · exact ⟨y, hy, x, hx, .inr (.inl h)⟩
    · exact ⟨y, hy, x, hx, .inr (.inr h)⟩

/-- Decoder line by line, `n` destination bytes at a time. -/
theorem dec444_groups {n m h ds : Nat} {d : Dst} {F : Spec.Plane}
    {body : Nat → Nat → K Unit} (hn : 0 < n)
    (hb : ∀ y, y < h → ∀ x, x < m → Emits (body x y) ()
      (Row d (ds * y + n * x) n (fun k => F (n * x + k) y))) :
    Emits (forK h fun y => forK m fun x => body x y) () (Rect d ds (n * m) h F) :=
  (Emits.forK fun y hy => Emits.forK fun x hx => hb y hy x hx).congr fun p =>
    (rect_groups hn p).symm

/-- Decoder of two lines at a time; a group is two halves of `n` destination bytes. -/
theorem dec420_groups {n m h ds : Nat} {d : Dst} {F : Spec.Plane}
    {body : Nat → Nat → K Unit} (hn : 0 < n) (hh : h % 2 = 0)
    (hb : ∀ y, y < h / 2 → ∀ x, x < m → Emits (body x y) () fun p =>
      Row d (ds * (2 * y) + n * (2 * x)) n (fun k => F (n * (2 * x) + k) (2 * y)) p ∨
      Row d (ds * (2 * y) + n * (2 * x + 1)) n (fun k => F (n * (2 * x + 1) + k) (2 * y)) p ∨
      Row d (ds * (2 * y + 1) + n * (2 * x)) n (fun k => F (n * (2 * x) + k) (2 * y + 1)) p ∨
      Row d (ds * (2 * y + 1) + n * (2 * x + 1)) n
        (fun k => F (n * (2 * x + 1) + k) (2 * y + 1)) p) :
    Emits (forK (h / 2) fun y => forK m fun x => body x y) () (Rect d ds (n * (2 * m)) h F) := by
  refine (Emits.forK fun y hy => Emits.forK fun x hx => hb y hy x hx).congr fun p => ?_
  rw [rect_groups2 hn hh]
  constructor
  · rintro ⟨y, hy, x, hx, h | h | h | h⟩
    · exact ⟨y, hy, 2 * x, by omega, .inl h⟩
    · exact ⟨y, hy, 2 * x + 1, by omega, .inl h⟩
    · exact ⟨y, hy, 2 * x, by omega, .inr h⟩
    · exact ⟨y, hy, 2 * x + 1, by omega, .inr h⟩
  · rintro ⟨y, hy, h⟩
    rw [exists_even (show 2 * m % 2 = 0 by omega), show 2 * m / 2 = m by omega] at h
    obtain ⟨x, hx, (h | h) | (h | h)⟩ := h
    · exact ⟨y, hy, x, hx, .inl h⟩
    · exact ⟨y, hy, x, hx, .inr (.inr (.inl h))⟩
    · exact ⟨y, hy, x, hx, .inr (.inl h)⟩
    · exact ⟨y, hy, x, hx, .inr (.inr (.inr h))⟩

/-! ## Vector part and remainder -/

/-- The slice from byte `n` on. -/
def Dst.shift (d : Dst) (n : Nat) : Dst := ⟨d.plane, d.off + n, d.len - n⟩
/-- The slice from byte `n` on. -/
def Buf.shift (s : Buf) (n : Nat) : Buf := ⟨s.len - n, fun i => s.bytes (n + i)⟩

theorem Dst.from_ok {d : Dst} {n : Nat} (h : n ≤ d.len) : d.from n = .ok (d.shift n) := if_pos h
theorem Buf.from_ok {s : Buf} {n : Nat} (h : n ≤ s.len) : s.from n = .ok (s.shift n) := if_pos h

theorem rect_split {d : Dst} {stride a b h : Nat} {f : Nat → Nat → UInt8} (p : Write) :
    Rect d stride (a + b) h f p ↔ Rect d stride a h f p ∨
      Rect (d.shift a) stride b h (fun j y => f (a + j) y) p := by
  simp only [rect_rows, Row.split]
  constructor
  · rintro ⟨y, hy, h | ⟨j, hj, h⟩⟩
    · exact .inl ⟨y, hy, h⟩
    · exact .inr ⟨y, hy, j, hj, by rw [h]; simp only [Dst.shift]; congr 1; omega⟩
  · rintro (⟨y, hy, h⟩ | ⟨y, hy, j, hj, h⟩)
    · exact ⟨y, hy, .inl h⟩
    · exact ⟨y, hy, .inr ⟨j, hj, by rw [h]; simp only [Dst.shift]; congr 1; omega⟩⟩

/-- A rectangle from its vector part and its remainder. -/
theorem rect_join {d : Dst} {stride a w h : Nat} {f g : Nat → Nat → UInt8} (ha : a ≤ w)
    (hg : ∀ y, y < h → ∀ j, j < w - a → g j y = f (a + j) y) (p : Write) :
    Rect d stride w h f p ↔ Rect d stride a h f p ∨ Rect (d.shift a) stride (w - a) h g p := by
  obtain ⟨b, rfl⟩ : ∃ b, w = a + b := ⟨w - a, by omega⟩
  rw [rect_split]
  apply or_congr Iff.rfl
  rw [show a + b - a = b by omega] at *
  exact (Rect.congr hg p).symm

theorem rect_empty {d : Dst} {stride h : Nat} {f : Nat → Nat → UInt8} {p : Write} :
    ¬ Rect d stride 0 h f p := by
  rintro ⟨_, _, j, hj, _⟩
  omega

/-- `if v > 0 { vector } if s > 0 { portable }`. -/
theorem two_parts {v s : Nat} {kv ks : K Unit} {G H : Write → Prop}
    (hv : 0 < v → Emits kv () G) (hs : 0 < s → Emits ks () H)
    (hG : v = 0 → ∀ p, ¬ G p) (hH : s = 0 → ∀ p, ¬ H p) :
    Emits (if v > 0 then kv >>= fun _ => if s > 0 then ks else pure ()
      else if s > 0 then ks else pure ()) () fun p => G p ∨ H p := by
  have h2 : Emits (if s > 0 then ks else pure ()) () H := by
    by_cases h : s > 0
    · rw [if_pos h]; exact hs h
    · rw [if_neg h]
      exact (Emits.pure ()).congr fun p => ⟨False.elim, hH (by omega) p⟩
  by_cases h : v > 0
  · rw [if_pos h]; exact (hv h).bind h2
  · rw [if_neg h]
    exact h2.congr fun p => ⟨.inr, fun h' => h'.elim (fun g => absurd g (hG (by omega) p)) id⟩

theorem shift_img {s : Sampler} {src : Buf} {ss v x y : Nat} :
    (srcImg s (src.shift (v * s.pf.depth)) ss).r x y = (srcImg s src ss).r (v + x) y ∧
    (srcImg s (src.shift (v * s.pf.depth)) ss).g x y = (srcImg s src ss).g (v + x) y ∧
    (srcImg s (src.shift (v * s.pf.depth)) ss).b x y = (srcImg s src ss).b (v + x) y := by
  cases s <;> simp only [srcImg, Spec.rgbImage, Buf.shift, Sampler.pf, PixelFormat.depth,
    Spec.bpp, Spec.rgbPos] <;> refine ⟨?_, ?_, ?_⟩ <;> congr 1 <;> omega

theorem shift_luma {s : Sampler} {src : Buf} {ss v x y : Nat} (σ : Spec.Std) :
    Spec.lumaPlane σ (srcImg s (src.shift (v * s.pf.depth)) ss) x y =
      Spec.lumaPlane σ (srcImg s src ss) (v + x) y := by
  simp only [Spec.lumaPlane, shift_img]

theorem shift_cb {s : Sampler} {src : Buf} {ss v x y : Nat} (σ : Spec.Std) :
    Spec.cbPlane σ (srcImg s (src.shift (v * s.pf.depth)) ss) x y =
      Spec.cbPlane σ (srcImg s src ss) (v + x) y := by
  simp only [Spec.cbPlane, shift_img]

theorem shift_cr {s : Sampler} {src : Buf} {ss v x y : Nat} (σ : Spec.Std) :
    Spec.crPlane σ (srcImg s (src.shift (v * s.pf.depth)) ss) x y =
      Spec.crPlane σ (srcImg s src ss) (v + x) y := by
  simp only [Spec.crPlane, shift_img]

theorem shift_cb420 {s : Sampler} {src : Buf} {ss v x y : Nat} (σ : Spec.Std) (hv : v % 2 = 0) :
    Spec.cbPlane420 σ (srcImg s (src.shift (v * s.pf.depth)) ss) x y =
      Spec.cbPlane420 σ (srcImg s src ss) (v / 2 + x) y := by
  simp only [Spec.cbPlane420, Spec.sum4, shift_img]
  rw [show 2 * (v / 2 + x) = v + 2 * x by omega, show v + 2 * x + 1 = v + (2 * x + 1) by omega]

theorem shift_cr420 {s : Sampler} {src : Buf} {ss v x y : Nat} (σ : Spec.Std) (hv : v % 2 = 0) :
    Spec.crPlane420 σ (srcImg s (src.shift (v * s.pf.depth)) ss) x y =
      Spec.crPlane420 σ (srcImg s src ss) (v / 2 + x) y := by
  simp only [Spec.crPlane420, Spec.sum4, shift_img]
  rw [show 2 * (v / 2 + x) = v + 2 * x by omega, show v + 2 * x + 1 = v + (2 * x + 1) by omega]

theorem shift_at {len stride row rows v : Nat} (hf : PlaneFits len stride row rows) (hv : v ≤ row) :
    ∀ y, y < rows → ∀ x, x < row - v → stride * y + x < len - v := by
  intro y hy x hx
  have := fits_line hf hy
  omega

theorem shift_px {len stride w rows d v : Nat} (hf : PlaneFits len stride (d * w) rows)
    (hv : v ≤ w) :
    ∀ y, y < rows → ∀ x, x < w - v → stride * y + d * x + d ≤ len - v * d := by
  intro y hy x hx
  have h1 := fits_px hf y hy (v + x) (by omega)
  rw [Nat.mul_add] at h1
  rw [Nat.mul_comm v d]
  omega

theorem shift_le {len stride row rows v : Nat} (hf : PlaneFits len stride row rows)
    (h0 : 0 < rows) (hv : v ≤ row) : v ≤ len := by
  have := fits_line hf h0
  omega

/-- Encoder to three full planes: vector part, then the portable kernel. -/
theorem tail_rgb_i444 (s : Sampler) (c : Colorimetry) {w h ss ys us vs v : Nat} {src : Buf}
    {yp up vp : Dst} {U V : Spec.Plane} {kv : K Unit} (hdim : Dim w h) (hvw : v ≤ w)
    (hs : PlaneFits src.len ss (s.pf.depth * w) h)
    (hy : PlaneFits yp.len ys w h) (hu : PlaneFits up.len us w h) (hv : PlaneFits vp.len vs w h)
    (hU : ∀ x y, v ≤ x → U x y = Spec.cbPlane c.std (srcImg s src ss) x y)
    (hV : ∀ x y, v ≤ x → V x y = Spec.crPlane c.std (srcImg s src ss) x y)
    (hk : 0 < v → Emits kv () fun p =>
      Rect yp ys v h (Spec.lumaPlane c.std (srcImg s src ss)) p ∨ Rect up us v h U p ∨
        Rect vp vs v h V p) :
    Emits (do
      if v > 0 then kv
      if w - v > 0 then do
        X86.rgb_to_i444 exactIx s s.pf.depth c (w - v) h ss (← src.from (v * s.pf.depth)) ys us vs
          (← yp.from v) (← up.from v) (← vp.from v)) () fun p =>
      Rect yp ys w h (Spec.lumaPlane c.std (srcImg s src ss)) p ∨ Rect up us w h U p ∨
        Rect vp vs w h V p := by
  have h0 := hdim.h_pos
  have hsl : v * s.pf.depth ≤ src.len := shift_le hs h0 (by
    rw [Nat.mul_comm]; exact Nat.mul_le_mul_left _ hvw)
  rw [Buf.from_ok hsl, Dst.from_ok (shift_le hy h0 hvw), Dst.from_ok (shift_le hu h0 hvw),
    Dst.from_ok (shift_le hv h0 hvw)]
  simp only [K.liftM_eq, K.lift_ok, pure_bind]
  refine (two_parts hk (fun _ => X86.rgb_to_i444_emits s c (shift_px hs hvw) (shift_at hy hvw)
    (shift_at hu hvw) (shift_at hv hvw)) ?_ ?_).congr fun p => ?_
  · rintro rfl p (h | h | h) <;> exact rect_empty h
  · intro e p
    rw [e]
    rintro (h | h | h) <;> exact rect_empty h
  · rw [rect_join (a := v) hvw (fun y _ j _ => shift_luma (s := s) c.std) p,
      rect_join (a := v) (f := U) hvw
        (fun y _ j _ => (shift_cb (s := s) c.std).trans (hU (v + j) y (by omega)).symm) p,
      rect_join (a := v) (f := V) hvw
        (fun y _ j _ => (shift_cr (s := s) c.std).trans (hV (v + j) y (by omega)).symm) p]
    unfold X86.G444
    tauto

/-- Encoder to one full and two subsampled planes: vector part, then the portable kernel. -/
theorem tail_rgb_i420 (s : Sampler) (c : Colorimetry) {w h ss ys us vs v : Nat} {src : Buf}
    {yp up vp : Dst} {U V : Spec.Plane} {kv : K Unit} (hdim : Dim w h) (hw : w % 2 = 0)
    (hh : h % 2 = 0) (hvw : v ≤ w) (hv2 : v % 2 = 0)
    (hs : PlaneFits src.len ss (s.pf.depth * w) h)
    (hy : PlaneFits yp.len ys w h) (hu : PlaneFits up.len us (w / 2) (h / 2))
    (hv : PlaneFits vp.len vs (w / 2) (h / 2))
    (hU : ∀ x y, v / 2 ≤ x → U x y = Spec.cbPlane420 c.std (srcImg s src ss) x y)
    (hV : ∀ x y, v / 2 ≤ x → V x y = Spec.crPlane420 c.std (srcImg s src ss) x y)
    (hk : 0 < v → Emits kv () fun p =>
      Rect yp ys v h (Spec.lumaPlane c.std (srcImg s src ss)) p ∨
        Rect up us (v / 2) (h / 2) U p ∨ Rect vp vs (v / 2) (h / 2) V p) :
    Emits (do
      if v > 0 then kv
      if w - v > 0 then do
        X86.rgb_to_i420 exactIx s s.pf.depth c (w - v) h ss (← src.from (v * s.pf.depth)) ys us vs
          (← yp.from v) (← up.from (v / 2)) (← vp.from (v / 2))) () fun p =>
      Rect yp ys w h (Spec.lumaPlane c.std (srcImg s src ss)) p ∨
        Rect up us (w / 2) (h / 2) U p ∨ Rect vp vs (w / 2) (h / 2) V p := by
  have h0 := hdim.h_pos
  have h1 : 0 < h / 2 := by omega
  have hvw' : v / 2 ≤ w / 2 := by omega
  have e2 : w / 2 - v / 2 = (w - v) / 2 := by omega
  have hsl : v * s.pf.depth ≤ src.len := shift_le hs h0 (by
    rw [Nat.mul_comm]; exact Nat.mul_le_mul_left _ hvw)
  rw [Buf.from_ok hsl, Dst.from_ok (shift_le hy h0 hvw), Dst.from_ok (shift_le hu h1 hvw'),
    Dst.from_ok (shift_le hv h1 hvw')]
  simp only [K.liftM_eq, K.lift_ok, pure_bind]
  have hu' := shift_at hu hvw'
  have hv' := shift_at hv hvw'
  rw [e2] at hu' hv'
  refine (two_parts hk (fun _ => X86.rgb_to_i420_emits s c (by omega) hh (shift_px hs hvw)
    (shift_at hy hvw) hu' hv') ?_ ?_).congr fun p => ?_
  · rintro rfl p (h | h | h) <;> exact rect_empty h
  · intro e p
    rw [e]
    rintro (h | h | h) <;> exact rect_empty h
  · rw [rect_join (a := v) hvw (fun y _ j _ => shift_luma (s := s) c.std) p,
      rect_join (a := v / 2) (f := U) hvw' (fun y _ j _ => (shift_cb420 (s := s) c.std hv2).trans
        (hU (v / 2 + j) y (by omega)).symm) p,
      rect_join (a := v / 2) (f := V) hvw' (fun y _ j _ => (shift_cr420 (s := s) c.std hv2).trans
        (hV (v / 2 + j) y (by omega)).symm) p, e2]
    unfold X86.G420
    tauto

/-- Encoder to a full and an interleaved plane: vector part, then the portable kernel. -/
theorem tail_rgb_nv12 (s : Sampler) (c : Colorimetry) {w h ss ys uvs v : Nat} {src : Buf}
    {yp uvp : Dst} {U V : Spec.Plane} {kv : K Unit} (hdim : Dim w h) (hw : w % 2 = 0)
    (hh : h % 2 = 0) (hvw : v ≤ w) (hv2 : v % 2 = 0)
    (hs : PlaneFits src.len ss (s.pf.depth * w) h)
    (hy : PlaneFits yp.len ys w h) (hu : PlaneFits uvp.len uvs w (h / 2))
    (hU : ∀ x y, v / 2 ≤ x → U x y = Spec.cbPlane420 c.std (srcImg s src ss) x y)
    (hV : ∀ x y, v / 2 ≤ x → V x y = Spec.crPlane420 c.std (srcImg s src ss) x y)
    (hk : 0 < v → Emits kv () fun p =>
      Rect yp ys v h (Spec.lumaPlane c.std (srcImg s src ss)) p ∨
        Rect uvp uvs v (h / 2) (Spec.interleave U V) p) :
    Emits (do
      if v > 0 then kv
      if w - v > 0 then do
        X86.rgb_to_nv12 exactIx s s.pf.depth c (w - v) h ss (← src.from (v * s.pf.depth)) ys uvs
          (← yp.from v) (← uvp.from v)) () fun p =>
      Rect yp ys w h (Spec.lumaPlane c.std (srcImg s src ss)) p ∨
        Rect uvp uvs w (h / 2) (Spec.interleave U V) p := by
  have h0 := hdim.h_pos
  have h1 : 0 < h / 2 := by omega
  have hsl : v * s.pf.depth ≤ src.len := shift_le hs h0 (by
    rw [Nat.mul_comm]; exact Nat.mul_le_mul_left _ hvw)
  rw [Buf.from_ok hsl, Dst.from_ok (shift_le hy h0 hvw), Dst.from_ok (shift_le hu h1 hvw)]
  simp only [K.liftM_eq, K.lift_ok, pure_bind]
  refine (two_parts hk (fun _ => X86.rgb_to_nv12_emits s c (by omega) hh (shift_px hs hvw)
    (shift_at hy hvw) (shift_at hu hvw)) ?_ ?_).congr fun p => ?_
  · rintro rfl p (h | h) <;> exact rect_empty h
  · intro e p
    rw [e]
    rintro (h | h) <;> exact rect_empty h
  · rw [rect_join (a := v) hvw (fun y _ j _ => shift_luma (s := s) c.std) p,
      rect_join (a := v) (f := Spec.interleave U V) (g := Spec.interleave
        (Spec.cbPlane420 c.std (srcImg s (src.shift (v * s.pf.depth)) ss))
        (Spec.crPlane420 c.std (srcImg s (src.shift (v * s.pf.depth)) ss))) hvw ?_ p]
    · unfold X86.GNv12
      tauto
    · intro y _ j _
      have e1 : (v + j) % 2 = j % 2 := by omega
      have e2 : (v + j) / 2 = v / 2 + j / 2 := by omega
      simp only [Spec.interleave, e1, e2, shift_cb420 (s := s) c.std hv2,
        shift_cr420 (s := s) c.std hv2]
      rw [hU _ _ (by omega), hV _ _ (by omega)]

theorem shift_row {pf : PixelFormat} (hp : 0 < Spec.bpp pf) {im im' : Spec.RgbImage} {v : Nat}
    (hr : ∀ x y, im'.r x y = im.r (v + x) y) (hg : ∀ x y, im'.g x y = im.g (v + x) y)
    (hb : ∀ x y, im'.b x y = im.b (v + x) y) (j y : Nat) :
    Spec.rgbRow pf im' j y = Spec.rgbRow pf im (v * Spec.bpp pf + j) y := by
  unfold Spec.rgbRow
  rw [hr, hg, hb, Nat.mul_comm v, Nat.mul_add_div hp, Nat.mul_add_mod]

theorem shift_last {len stride w rows d v : Nat} (hd : 0 < d)
    (hf : PlaneFits len stride (d * w) rows) (hv : v ≤ w) :
    ∀ y, y < rows → ∀ x, x < w - v → stride * y + d * x + (d - 1) < len - v * d := by
  intro y hy x hx
  have := shift_px hf hv y hy x hx
  omega

/-- 4:4:4 decoder: vector part, then the portable kernel. -/
theorem tail_i444_rgb (c : Colorimetry) (o : RgbOut) {w h ys us vs ds v : Nat} {yb ub vb : Buf}
    {d : Dst} {F : Spec.Plane} {kv : K Unit} (ho : o ≠ .rgb) (hdim : Dim w h) (hvw : v ≤ w)
    (hy : PlaneFits yb.len ys w h) (hu : PlaneFits ub.len us w h) (hv : PlaneFits vb.len vs w h)
    (hd : PlaneFits d.len ds (o.pf.depth * w) h)
    (hF : ∀ j y, v * o.pf.depth ≤ j →
      F j y = Spec.rgbRow o.pf (Spec.decoded c.std (X86.img444 yb ub vb ys us vs)) j y)
    (hk : 0 < v → Emits kv () (Rect d ds (v * o.pf.depth) h F)) :
    Emits (do
      if v > 0 then kv
      if w - v > 0 then do
        X86.i444_to_bgra exactIx c o.pf.reversed (w - v) h ys us vs (← yb.from v) (← ub.from v)
          (← vb.from v) ds (← d.from (v * o.pf.depth))) ()
      (Rect d ds (o.pf.depth * w) h F) := by
  have h0 := hdim.h_pos
  obtain ⟨e1, e2⟩ := reversed_out o ho
  have hb : Spec.bpp o.pf = o.pf.depth := (depth_bpp _).symm
  have hvd : v * o.pf.depth ≤ o.pf.depth * w := by
    rw [Nat.mul_comm]; exact Nat.mul_le_mul_left _ hvw
  rw [Buf.from_ok (shift_le hy h0 hvw), Buf.from_ok (shift_le hu h0 hvw),
    Buf.from_ok (shift_le hv h0 hvw), Dst.from_ok (shift_le hd h0 hvd)]
  simp only [K.liftM_eq, K.lift_ok, pure_bind]
  have hl := shift_last (by omega) hd hvw
  have e3 : o.pf.depth * w - v * o.pf.depth = Spec.bpp o.pf * (w - v) := by
    rw [hb, Nat.mul_sub, Nat.mul_comm v]
  refine (two_parts hk (fun _ => X86.i444_to_bgra_emits c o.pf.reversed (yb := yb.shift v)
    (ub := ub.shift v) (vb := vb.shift v) (d := d.shift (v * o.pf.depth)) (shift_at hy hvw)
    (shift_at hu hvw) (shift_at hv hvw) ?_) ?_ ?_).congr fun p => ?_
  · rw [e2] at hl ⊢
    exact hl
  · rintro rfl p h
    rw [Nat.zero_mul] at h
    exact rect_empty h
  · intro e p
    rw [e, X86.GDec, Nat.mul_zero]
    exact rect_empty
  · rw [X86.GDec, e1, rect_join (a := v * o.pf.depth) hvd (fun y _ j _ => ?_) p, e3]
    rw [hF _ _ (by omega), ← hb]
    refine shift_row (by omega) ?_ ?_ ?_ j y <;> intro x y <;>
    simp only [Spec.decoded, X86.img444, Spec.i444Image, Spec.plane, Buf.shift, Nat.add_left_comm]

/-- Planar 4:2:0 decoder: vector part, then the portable kernel. -/
theorem tail_i420_rgb (c : Colorimetry) (o : RgbOut) {w h ys us vs ds v : Nat} {yb ub vb : Buf}
    {d : Dst} {F : Spec.Plane} {kv : K Unit} (ho : o ≠ .rgb) (hdim : Dim w h) (hw : w % 2 = 0)
    (hh : h % 2 = 0) (hvw : v ≤ w) (hv2 : v % 2 = 0)
    (hy : PlaneFits yb.len ys w h) (hu : PlaneFits ub.len us (w / 2) (h / 2))
    (hv : PlaneFits vb.len vs (w / 2) (h / 2)) (hd : PlaneFits d.len ds (o.pf.depth * w) h)
    (hF : ∀ j y, v * o.pf.depth ≤ j →
      F j y = Spec.rgbRow o.pf (Spec.decoded c.std (X86.img420 yb ub vb ys us vs)) j y)
    (hk : 0 < v → Emits kv () (Rect d ds (v * o.pf.depth) h F)) :
    Emits (do
      if v > 0 then kv
      if w - v > 0 then do
        X86.i420_to_bgra exactIx c o.pf.reversed (w - v) h ys us vs (← yb.from v) (← ub.from (v / 2))
          (← vb.from (v / 2)) ds (← d.from (v * o.pf.depth))) ()
      (Rect d ds (o.pf.depth * w) h F) := by
  have h0 := hdim.h_pos
  have h1 : 0 < h / 2 := by omega
  have hvw' : v / 2 ≤ w / 2 := by omega
  have e4 : w / 2 - v / 2 = (w - v) / 2 := by omega
  obtain ⟨e1, e2⟩ := reversed_out o ho
  have hb : Spec.bpp o.pf = o.pf.depth := (depth_bpp _).symm
  have hvd : v * o.pf.depth ≤ o.pf.depth * w := by
    rw [Nat.mul_comm]; exact Nat.mul_le_mul_left _ hvw
  rw [Buf.from_ok (shift_le hy h0 hvw), Buf.from_ok (shift_le hu h1 hvw'),
    Buf.from_ok (shift_le hv h1 hvw'), Dst.from_ok (shift_le hd h0 hvd)]
  simp only [K.liftM_eq, K.lift_ok, pure_bind]
  have hl := shift_last (by omega) hd hvw
  have hu' := shift_at hu hvw'
  have hv' := shift_at hv hvw'
  rw [e4] at hu' hv'
  have e3 : o.pf.depth * w - v * o.pf.depth = Spec.bpp o.pf * (w - v) := by
    rw [hb, Nat.mul_sub, Nat.mul_comm v]
  refine (two_parts hk (fun _ => X86.i420_to_bgra_emits c o.pf.reversed (yb := yb.shift v)
    (ub := ub.shift (v / 2)) (vb := vb.shift (v / 2)) (d := d.shift (v * o.pf.depth)) (by omega) hh
    (shift_at hy hvw) hu' hv' ?_) ?_ ?_).congr fun p => ?_
  · rw [e2] at hl ⊢
    exact hl
  · rintro rfl p h
    rw [Nat.zero_mul] at h
    exact rect_empty h
  · intro e p
    rw [e, X86.GDec, Nat.mul_zero]
    exact rect_empty
  · rw [X86.GDec, e1, rect_join (a := v * o.pf.depth) hvd (fun y _ j _ => ?_) p, e3]
    rw [hF _ _ (by omega), ← hb]
    refine shift_row (by omega) ?_ ?_ ?_ j y <;> intro x y <;>
    simp only [Spec.decoded, X86.img420, Spec.i420Image, Spec.plane, Buf.shift, Nat.add_left_comm,
      show (v + x) / 2 = v / 2 + x / 2 by omega]

theorem shift_nv12 {yb uvb : Buf} {ys uvs v : Nat} (hv2 : v % 2 = 0) (x y : Nat) :
    (X86.imgNv12 (yb.shift v) (uvb.shift v) ys uvs).y x y =
      (X86.imgNv12 yb uvb ys uvs).y (v + x) y ∧
    (X86.imgNv12 (yb.shift v) (uvb.shift v) ys uvs).cb x y =
      (X86.imgNv12 yb uvb ys uvs).cb (v + x) y ∧
    (X86.imgNv12 (yb.shift v) (uvb.shift v) ys uvs).cr x y =
      (X86.imgNv12 yb uvb ys uvs).cr (v + x) y := by
  simp only [X86.imgNv12, Spec.nv12Image, Spec.plane, Buf.shift]
  refine ⟨?_, ?_, ?_⟩ <;> congr 1 <;> omega

/-- Semi-planar 4:2:0 decoder to a four-byte format: vector part, then the portable kernel. -/
theorem tail_nv12_bgra (c : Colorimetry) (o : RgbOut) {w h ys uvs ds v : Nat} {yb uvb : Buf}
    {d : Dst} {F : Spec.Plane} {kv : K Unit} (ho : o ≠ .rgb) (hdim : Dim w h) (hw : w % 2 = 0)
    (hh : h % 2 = 0) (hvw : v ≤ w) (hv2 : v % 2 = 0)
    (hy : PlaneFits yb.len ys w h) (hu : PlaneFits uvb.len uvs w (h / 2))
    (hd : PlaneFits d.len ds (o.pf.depth * w) h)
    (hF : ∀ j y, v * o.pf.depth ≤ j →
      F j y = Spec.rgbRow o.pf (Spec.decoded c.std (X86.imgNv12 yb uvb ys uvs)) j y)
    (hk : 0 < v → Emits kv () (Rect d ds (v * o.pf.depth) h F)) :
    Emits (do
      if v > 0 then kv
      if w - v > 0 then do
        X86.nv12_to_bgra exactIx c o.pf.reversed (w - v) h ys uvs (← yb.from v) (← uvb.from v) ds
          (← d.from (v * o.pf.depth))) ()
      (Rect d ds (o.pf.depth * w) h F) := by
  have h0 := hdim.h_pos
  have h1 : 0 < h / 2 := by omega
  obtain ⟨e1, e2⟩ := reversed_out o ho
  have hb : Spec.bpp o.pf = o.pf.depth := (depth_bpp _).symm
  have hvd : v * o.pf.depth ≤ o.pf.depth * w := by
    rw [Nat.mul_comm]; exact Nat.mul_le_mul_left _ hvw
  rw [Buf.from_ok (shift_le hy h0 hvw), Buf.from_ok (shift_le hu h1 hvw),
    Dst.from_ok (shift_le hd h0 hvd)]
  simp only [K.liftM_eq, K.lift_ok, pure_bind]
  have hl := shift_last (by omega) hd hvw
  have e3 : o.pf.depth * w - v * o.pf.depth = Spec.bpp o.pf * (w - v) := by
    rw [hb, Nat.mul_sub, Nat.mul_comm v]
  refine (two_parts hk (fun _ => X86.nv12_to_bgra_emits c o.pf.reversed (yb := yb.shift v)
    (uvb := uvb.shift v) (d := d.shift (v * o.pf.depth)) (by omega) hh
    (shift_at hy hvw) (shift_at hu hvw) ?_) ?_ ?_).congr fun p => ?_
  · rw [e2] at hl ⊢
    exact hl
  · rintro rfl p h
    rw [Nat.zero_mul] at h
    exact rect_empty h
  · intro e p
    rw [e, X86.GDec, Nat.mul_zero]
    exact rect_empty
  · rw [X86.GDec, e1, rect_join (a := v * o.pf.depth) hvd (fun y _ j _ => ?_) p, e3]
    rw [hF _ _ (by omega), ← hb]
    refine shift_row (by omega) ?_ ?_ ?_ j y <;> intro x y <;>
    simp only [Spec.decoded, shift_nv12 hv2]

/-- Semi-planar 4:2:0 decoder to three bytes per pixel: vector part, then the portable kernel. -/
theorem tail_nv12_rgb (c : Colorimetry) {w h ys uvs ds v : Nat} {yb uvb : Buf}
    {d : Dst} {F : Spec.Plane} {kv : K Unit} (hdim : Dim w h) (hw : w % 2 = 0)
    (hh : h % 2 = 0) (hvw : v ≤ w) (hv2 : v % 2 = 0)
    (hy : PlaneFits yb.len ys w h) (hu : PlaneFits uvb.len uvs w (h / 2))
    (hd : PlaneFits d.len ds (3 * w) h)
    (hF : ∀ j y, v * 3 ≤ j →
      F j y = Spec.rgbRow .rgb (Spec.decoded c.std (X86.imgNv12 yb uvb ys uvs)) j y)
    (hk : 0 < v → Emits kv () (Rect d ds (v * 3) h F)) :
    Emits (do
      if v > 0 then kv
      if w - v > 0 then do
        X86.nv12_to_rgb exactIx c (w - v) h ys uvs (← yb.from v) (← uvb.from v) ds
          (← d.from (v * 3))) ()
      (Rect d ds (3 * w) h F) := by
  have h0 := hdim.h_pos
  have h1 : 0 < h / 2 := by omega
  rw [Buf.from_ok (shift_le hy h0 hvw), Buf.from_ok (shift_le hu h1 hvw),
    Dst.from_ok (shift_le hd h0 (by omega))]
  simp only [K.liftM_eq, K.lift_ok, pure_bind]
  have e3 : 3 * w - v * 3 = 3 * (w - v) := by omega
  refine (two_parts hk (fun _ => X86.nv12_to_rgb_emits c (yb := yb.shift v)
    (uvb := uvb.shift v) (d := d.shift (v * 3)) (by omega) hh
    (shift_at hy hvw) (shift_at hu hvw) (shift_last (by omega) hd hvw)) ?_ ?_).congr fun p => ?_
  · rintro rfl p h
    rw [Nat.zero_mul] at h
    exact rect_empty h
  · intro e p
    rw [e, X86.GDec, Nat.mul_zero]
    exact rect_empty
  · rw [X86.GDec, rect_join (a := v * 3) (w := 3 * w) (f := F) (by omega) (fun y _ j _ => ?_) p, e3]
    · rfl
    · rw [hF _ _ (by omega)]
      refine shift_row (pf := .rgb) (by decide) ?_ ?_ ?_ j y <;> intro x y <;>
      simp only [Spec.decoded, shift_nv12 hv2]

/-- The pixels of an RGB image from column `v` on. -/
theorem shift_rgb_row {spf dpf : PixelFormat} {src : Buf} {ss v : Nat} (hp : 0 < Spec.bpp dpf)
    (j y : Nat) :
    Spec.rgbRow dpf (Spec.rgbImage spf (src.shift (v * Spec.bpp spf)).bytes ss) j y =
      Spec.rgbRow dpf (Spec.rgbImage spf src.bytes ss) (v * Spec.bpp dpf + j) y := by
  refine shift_row hp ?_ ?_ ?_ j y <;> intro x y <;>
  simp only [Spec.rgbImage, Buf.shift] <;> congr 1 <;> rw [Nat.mul_add, Nat.mul_comm v] <;> omega

/-- RGB to RGB: vector part, then a portable kernel. -/
theorem tail_rgb_rgb {spf dpf : PixelFormat} (hp : 0 < Spec.bpp dpf) {w h ss ds v : Nat} {src : Buf}
    {d : Dst} {kv : K Unit} {ks : Buf → Dst → K Unit} (hdim : Dim w h) (hvw : v ≤ w)
    (hs : PlaneFits src.len ss (Spec.bpp spf * w) h)
    (hd : PlaneFits d.len ds (Spec.bpp dpf * w) h)
    (hk : 0 < v → Emits kv () (X86.GRgb spf dpf src ss v h ds d))
    (hks : 0 < w - v → ∀ (src' : Buf) (d' : Dst), src'.len ≤ src.len → d'.len ≤ d.len →
      (∀ y, y < h → ss * y + Spec.bpp spf * (w - v) ≤ src'.len) →
      (∀ y, y < h → ds * y + Spec.bpp dpf * (w - v) ≤ d'.len) →
      Emits (ks src' d') () (X86.GRgb spf dpf src' ss (w - v) h ds d')) :
    Emits (do
      if v > 0 then kv
      if w - v > 0 then do
        ks (← src.from (v * Spec.bpp spf)) (← d.from (v * Spec.bpp dpf))) ()
      (X86.GRgb spf dpf src ss w h ds d) := by
  have h0 := hdim.h_pos
  have le1 : v * Spec.bpp spf ≤ Spec.bpp spf * w := by
    rw [Nat.mul_comm]; exact Nat.mul_le_mul_left _ hvw
  have le2 : v * Spec.bpp dpf ≤ Spec.bpp dpf * w := by
    rw [Nat.mul_comm]; exact Nat.mul_le_mul_left _ hvw
  have e1 : Spec.bpp spf * w - v * Spec.bpp spf = Spec.bpp spf * (w - v) := by
    rw [Nat.mul_sub, Nat.mul_comm v]
  have e2 : Spec.bpp dpf * w - v * Spec.bpp dpf = Spec.bpp dpf * (w - v) := by
    rw [Nat.mul_sub, Nat.mul_comm v]
  rw [Buf.from_ok (shift_le hs h0 le1), Dst.from_ok (shift_le hd h0 le2)]
  simp only [K.liftM_eq, K.lift_ok, pure_bind]
  refine (two_parts hk (fun hpos => hks hpos (src.shift (v * Spec.bpp spf))
    (d.shift (v * Spec.bpp dpf)) (Nat.sub_le _ _) (Nat.sub_le _ _) ?_ ?_) ?_ ?_).congr fun p => ?_
  · intro y hy
    have := fits_line hs hy
    simp only [Buf.shift]
    omega
  · intro y hy
    have := fits_line hd hy
    simp only [Dst.shift]
    omega
  · rintro rfl p h
    rw [X86.GRgb, Nat.mul_zero] at h
    exact rect_empty h
  · intro e p
    rw [e, X86.GRgb, Nat.mul_zero]
    exact rect_empty
  · unfold X86.GRgb
    rw [rect_join (a := v * Spec.bpp dpf) le2 (fun y _ j _ => shift_rgb_row (spf := spf) hp j y) p,
      e2, Nat.mul_comm v (Spec.bpp dpf)]

end Verif
