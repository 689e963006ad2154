import Verif.Lemmas.Order
import Verif.Lemmas.Pixels
import Verif.Spec.Order
/-! # What the portable RGB to RGB kernels write on a big-endian target -/

namespace Verif.Ordered

open X86 (Cur word64 word32 byte64 byte32 rev3 swap_single swap_single_emits lower_multiple_8
  rgb_to_bgra_last rgb2_to_bgra2_bytes rgb1_to_bgra1_bytes bgr8_to_rgb8_bytes bgra_pack_bytes sub_ok
  mul_ok add_ok)

theorem loadu64_ok {s : Buf} {i : Nat} (h : i + 8 ≤ s.len) :
    loadu64 .big s i = pure (word64 fun k => s.bytes (i + (7 - k))) := by
  rw [loadu64, if_pos h]; rfl

theorem loadu32_ok {s : Buf} {i : Nat} (h : i + 4 ≤ s.len) :
    loadu32 .big s i = pure (word32 fun k => s.bytes (i + (3 - k))) := by
  rw [loadu32, if_pos h]; rfl

theorem storeu64_emits {d : Dst} {i : Nat} {v : BitVec 64} {bs : List UInt8} (h : i + 8 ≤ d.len)
    (hb : (List.range 8).map (byte64 v) = bs) :
    Emits (storeu64 .big d i v) () (Bytes d i bs.reverse) := by
  subst hb
  refine ⟨_, by rw [storeu64, if_pos h], fun p => ?_⟩
  have r : ((List.range 8).map (byte64 v)).reverse = (List.range 8).map fun k => byte64 v (7 - k) :=
    rfl
  rw [r]
  simp only [List.mem_map, List.mem_range, Bytes, List.length_map, List.length_range, Order.pos]
  constructor
  · rintro ⟨k, hk, rfl⟩; exact ⟨k, hk, by simp [hk]⟩
  · rintro ⟨k, hk, rfl⟩; exact ⟨k, hk, by simp [hk]⟩

theorem storeu32_emits {d : Dst} {i : Nat} {v : BitVec 32} {bs : List UInt8} (h : i + 4 ≤ d.len)
    (hb : (List.range 4).map (byte32 v) = bs) :
    Emits (storeu32 .big d i v) () (Bytes d i bs.reverse) := by
  subst hb
  refine ⟨_, by rw [storeu32, if_pos h], fun p => ?_⟩
  have r : ((List.range 4).map (byte32 v)).reverse = (List.range 4).map fun k => byte32 v (3 - k) :=
    rfl
  rw [r]
  simp only [List.mem_map, List.mem_range, Bytes, List.length_map, List.length_range, Order.pos]
  constructor
  · rintro ⟨k, hk, rfl⟩; exact ⟨k, hk, by simp [hk]⟩
  · rintro ⟨k, hk, rfl⟩; exact ⟨k, hk, by simp [hk]⟩

/-- Source bytes of a group of eight pixels. -/
def grp (tab : List Nat) (src : Buf) (b k : Nat) : UInt8 := src.bytes (b + tab.getD k 0)

theorem bgr_to_rgb_multi_emits {src : Buf} {dst : Dst} {so d m : Nat}
    (hs : so + 24 * m + 24 ≤ src.len) (hd : d + 24 * m + 24 ≤ dst.len) :
    Emits (bgr_to_rgb_multi .big src dst ⟨8 * m, so + 24 * m, d + 24 * m⟩)
      ⟨8 * (m + 1), so + 24 * (m + 1), d + 24 * (m + 1)⟩
      (Row dst (d + 24 * m) 24 (grp Spec.bigBgr src (so + 24 * m))) := by
  unfold bgr_to_rgb_multi
  simp only
  rw [loadu64_ok (by omega), pure_bind, loadu64_ok (by omega), pure_bind, loadu64_ok (by omega),
    pure_bind]
  obtain ⟨e0, e1, e2⟩ := bgr8_to_rgb8_bytes (fun k => src.bytes (so + 24 * m + (7 - k)))
    (fun k => src.bytes (so + 24 * m + 8 + (7 - k)))
    (fun k => src.bytes (so + 24 * m + 16 + (7 - k)))
  have s0 := storeu64_emits (d := dst) (i := d + 24 * m) (by omega) e0
  have s1 := storeu64_emits (d := dst) (i := d + 24 * m + 8) (by omega) e1
  have s2 := storeu64_emits (d := dst) (i := d + 24 * m + 16) (by omega) e2
  rw [show (⟨8 * (m + 1), so + 24 * (m + 1), d + 24 * (m + 1)⟩ : Cur) =
    ⟨8 * m + 8, so + 24 * m + 3 * 8, d + 24 * m + 3 * 8⟩ by
      congr 1 ]
  refine (s0.seq (s1.seq s2.then_pure)).congr fun p => ?_
  rw [show (24 : Nat) = 8 + (8 + 8) from rfl, Row.split, Row.split]
  simp only [Nat.reduceAdd]
  rw [Bytes_row (n := 8) rfl, Bytes_row (n := 8) rfl, Bytes_row (n := 8) rfl]
  all_goals
    intro k hk
    interval_cases k <;> rfl

theorem bgra_to_rgb_multi_emits {src : Buf} {dst : Dst} {so d m : Nat}
    (hs : so + 32 * m + 32 ≤ src.len) (hd : d + 24 * m + 24 ≤ dst.len) :
    Emits (bgra_to_rgb_multi .big src dst ⟨8 * m, so + 8 * 4 * m, d + 24 * m⟩)
      ⟨8 * (m + 1), so + 8 * 4 * (m + 1), d + 24 * (m + 1)⟩
      (Row dst (d + 24 * m) 24 (grp Spec.bigBgra src (so + 8 * 4 * m))) := by
  unfold bgra_to_rgb_multi
  simp only
  rw [loadu64_ok (by omega), pure_bind, loadu64_ok (by omega), pure_bind, loadu64_ok (by omega),
    pure_bind, loadu64_ok (by omega), pure_bind]
  obtain ⟨e0, e1, e2⟩ := bgra_pack_bytes (fun k => src.bytes (so + 8 * 4 * m + (7 - k)))
    (fun k => src.bytes (so + 8 * 4 * m + 8 + (7 - k)))
    (fun k => src.bytes (so + 8 * 4 * m + 16 + (7 - k)))
    (fun k => src.bytes (so + 8 * 4 * m + 24 + (7 - k)))
  have s0 := storeu64_emits (d := dst) (i := d + 24 * m) (by omega) e0
  have s1 := storeu64_emits (d := dst) (i := d + 24 * m + 8) (by omega) e1
  have s2 := storeu64_emits (d := dst) (i := d + 24 * m + 16) (by omega) e2
  rw [show (⟨8 * (m + 1), so + 8 * 4 * (m + 1), d + 24 * (m + 1)⟩ : Cur) =
    ⟨8 * m + 8, so + 8 * 4 * m + 4 * 8, d + 24 * m + 3 * 8⟩ by
      congr 1]
  refine (s0.seq (s1.seq s2.then_pure)).congr fun p => ?_
  rw [show (24 : Nat) = 8 + (8 + 8) from rfl, Row.split, Row.split]
  simp only [Nat.reduceAdd]
  rw [Bytes_row (n := 8) rfl, Bytes_row (n := 8) rfl, Bytes_row (n := 8) rfl]
  all_goals
    intro k hk
    interval_cases k <;> rfl

/-- One line of three-byte destination pixels: groups of eight, then single pixels. -/
theorem line3_emits {src : Buf} {dst : Dst} {sd so d w : Nat} {F : Nat → UInt8}
    (hsd : sd = 3 ∨ sd = 4)
    (hw64 : w < 2 ^ 64) (f : Cur → K Cur)
    (hs : so + sd * w ≤ src.len) (hd : d + 3 * w ≤ dst.len)
    (hf : ∀ m, m < w / 8 → Emits (f ⟨8 * m, so + 8 * sd * m, d + 24 * m⟩)
      ⟨8 * (m + 1), so + 8 * sd * (m + 1), d + 24 * (m + 1)⟩
      (Row dst (d + 24 * m) 24 (fun j => F (24 * m + j))))
    (hF : ∀ j, 24 * (w / 8) ≤ j → F j = rev3 src so sd j) :
    Emits (do
      let s ← whileK w (fun s => s.x < lower_multiple_of_pot w 8) f ⟨0, so, d⟩
      let _ ← whileK w (fun s => s.x < w) (swap_single sd src dst) s
      pure ()) () (Row dst d (3 * w) F) := by
  rw [lower_multiple_8 hw64]
  have h1 := Emits.whileK (fuel := w) (n := w / 8) (cond := fun s : Cur => s.x < 8 * (w / 8)) (f := f)
    (s := fun m => ⟨8 * m, so + 8 * sd * m, d + 24 * m⟩) (by omega)
    (by intro i hi; simp; omega) (by simp) hf
  simp only [Nat.mul_zero, Nat.add_zero] at h1
  have h2 := Emits.whileK (fuel := w) (n := w - 8 * (w / 8)) (cond := fun s : Cur => s.x < w)
    (f := swap_single sd src dst)
    (s := fun i => ⟨8 * (w / 8) + i, so + sd * (8 * (w / 8) + i), d + 3 * (8 * (w / 8) + i)⟩)
    (by omega) (by intro i hi; simp; omega) (by simp; omega)
    (fun i hi => swap_single_emits hsd
      (by rcases hsd with rfl | rfl <;> omega) (by omega))
  have e : (⟨8 * (w / 8) + 0, so + sd * (8 * (w / 8) + 0), d + 3 * (8 * (w / 8) + 0)⟩ : Cur) =
      ⟨8 * (w / 8), so + 8 * sd * (w / 8), d + 24 * (w / 8)⟩ := by
    rcases hsd with rfl | rfl <;> simp <;> omega
  rw [e] at h2
  refine (h1.bind (h2.bind (Emits.pure ()))).congr fun p => ?_
  rw [show 3 * w = 24 * (w / 8) + 3 * (w - 8 * (w / 8)) by omega, Row.split,
    Row.chunks (by omega), Row.congr (d := dst) (F := fun j => F (24 * (w / 8) + j))
      (fun j _ => hF (24 * (w / 8) + j) (by omega)), Row.chunks (by omega)]
  simp only [or_false]
  rw [show d + 3 * (8 * (w / 8)) = d + 24 * (w / 8) by omega,
    show 3 * (8 * (w / 8)) = 24 * (w / 8) by omega]

/-- The bytes of a line of the source that starts at `so`. -/
def lineOf (src : Buf) (so : Nat) : Nat → UInt8 := fun i => src.bytes (so + i)

theorem bigRgb_group {tab : List Nat} {sd w so m j : Nat} {src : Buf} (hm : m < w / 8) (hj : j < 24) :
    grp tab src (so + 8 * sd * m) j = Spec.bigRgb tab sd w (lineOf src so) (24 * m + j) := by
  unfold Spec.bigRgb grp lineOf
  rw [if_pos (by omega), show (24 * m + j) / 24 = m by omega, show (24 * m + j) % 24 = j by omega,
    Nat.add_assoc]

theorem bigRgb_tail {tab : List Nat} {sd w so j : Nat} {src : Buf} (hj : 24 * (w / 8) ≤ j) :
    Spec.bigRgb tab sd w (lineOf src so) j = rev3 src so sd j := by
  unfold Spec.bigRgb lineOf rev3
  rw [if_neg (by omega), Nat.add_assoc]

theorem bgr_to_rgb_emits {t : Target} {w h ss ds : Nat} {src : Buf} {d : Dst} (hw : w < 2 ^ 64)
    (hsl : src.len < 2 ^ t.bits) (hdl : d.len < 2 ^ t.bits)
    (hs : ∀ y, y < h → ss * y + 3 * w ≤ src.len)
    (hd : ∀ y, y < h → ds * y + 3 * w ≤ d.len) :
    Emits (bgr_to_rgb .big t.mul w h ss src ds d) () (Rect d ds (3 * w) h
      fun j y => Spec.bigRgb Spec.bigBgr 3 w (lineOf src (ss * y)) j) := by
  unfold bgr_to_rgb
  refine (Emits.forK (G := fun y => Row d (ds * y) (3 * w)
    (Spec.bigRgb Spec.bigBgr 3 w (lineOf src (ss * y)))) fun y hy => ?_).congr fun p => ?_
  · have h1 := hs y hy
    have h2 := hd y hy
    rw [mul_ok (by omega), mul_ok (by omega)]
    simp only [K.liftM_eq, K.lift_ok, pure_bind]
    exact line3_emits (.inl rfl) hw _ h1 h2
      (fun m hm => (bgr_to_rgb_multi_emits (by omega) (by omega)).congr
        (Row.congr fun j hj => bigRgb_group (sd := 3) hm hj)) fun j hj => bigRgb_tail hj
  · rw [rect_rows]

theorem bgra_to_rgb_emits {t : Target} {w h ss ds : Nat} {src : Buf} {d : Dst} (hw : w < 2 ^ 64)
    (hsb : 4 * w ≤ ss) (hdb : 3 * w ≤ ds) (hs64 : ss < 2 ^ t.bits) (hd64 : ds < 2 ^ t.bits)
    (hsl : src.len < 2 ^ t.bits) (hdl : d.len < 2 ^ t.bits)
    (hs : ∀ y, y < h → ss * y + 4 * w ≤ src.len)
    (hd : ∀ y, y < h → ds * y + 3 * w ≤ d.len) :
    Emits (bgra_to_rgb .big t w h ss src ds d) () (Rect d ds (3 * w) h
      fun j y => Spec.bigRgb Spec.bigBgra 4 w (lineOf src (ss * y)) j) := by
  unfold bgra_to_rgb
  simp only [K.liftM_eq, mul_ok (t := t) (show 4 * w < 2 ^ t.bits by omega),
    mul_ok (t := t) (show 3 * w < 2 ^ t.bits by omega), K.lift_ok, pure_bind]
  rw [sub_ok hsb, sub_ok hdb]
  simp only [K.lift_ok, pure_bind]
  refine (Emits.forK (G := fun y => Row d (ds * y) (3 * w)
    (Spec.bigRgb Spec.bigBgra 4 w (lineOf src (ss * y)))) fun y hy => ?_).congr fun p => ?_
  · have h1 := hs y hy
    have h2 := hd y hy
    rw [add_ok (by omega), add_ok (by omega), show 4 * w + (ss - 4 * w) = ss by omega,
      show 3 * w + (ds - 3 * w) = ds by omega]
    simp only [K.lift_ok, pure_bind]
    rw [mul_ok (by omega), mul_ok (by omega)]
    simp only [K.lift_ok, pure_bind]
    exact line3_emits (.inr rfl) hw _ h1 h2
      (fun m hm => (bgra_to_rgb_multi_emits (by omega) (by omega)).congr
        (Row.congr fun j hj => bigRgb_group hm hj)) fun j hj => bigRgb_tail hj
  · rw [rect_rows]

/-- Bytes of a pair of pixels, and of a pixel, converted as a word. -/
def quad (src : Buf) (so j n : Nat) : UInt8 :=
  if j % 4 = 0 then 255 else src.bytes (so + 3 * (j / 4) + (n - j % 4))

theorem rgb_to_bgra_multi_emits {src : Buf} {dst : Dst} {so d m : Nat}
    (hs : so + 24 * m + 26 ≤ src.len) (hd : d + 32 * m + 32 ≤ dst.len) :
    Emits (rgb_to_bgra_multi .big src dst ⟨8 * m, so + 24 * m, d + 32 * m⟩)
      ⟨8 * (m + 1), so + 24 * (m + 1), d + 32 * (m + 1)⟩
      (Row dst (d + 32 * m) 32 (fun j => quad src so (32 * m + j) 5)) := by
  unfold rgb_to_bgra_multi
  simp only
  rw [loadu64_ok (by omega), pure_bind, loadu64_ok (by omega), pure_bind, loadu64_ok (by omega),
    pure_bind, loadu64_ok (by omega), pure_bind]
  have s0 := fun f => storeu64_emits (d := dst) (i := d + 32 * m) (by omega) (rgb2_to_bgra2_bytes f)
  have s1 := fun f => storeu64_emits (d := dst) (i := d + 32 * m + 8) (by omega)
    (rgb2_to_bgra2_bytes f)
  have s2 := fun f => storeu64_emits (d := dst) (i := d + 32 * m + 16) (by omega)
    (rgb2_to_bgra2_bytes f)
  have s3 := fun f => storeu64_emits (d := dst) (i := d + 32 * m + 24) (by omega)
    (rgb2_to_bgra2_bytes f)
  rw [show (⟨8 * (m + 1), so + 24 * (m + 1), d + 32 * (m + 1)⟩ : Cur) =
    ⟨8 * m + 8, so + 24 * m + 3 * 8, d + 32 * m + 4 * 8⟩ by
      congr 1]
  refine ((s0 _).seq ((s1 _).seq ((s2 _).seq (s3 _).then_pure))).congr fun p => ?_
  rw [show (32 : Nat) = 8 + (8 + (8 + 8)) from rfl, Row.split, Row.split, Row.split]
  simp only [Nat.reduceAdd]
  rw [Bytes_row (n := 8) rfl, Bytes_row (n := 8) rfl, Bytes_row (n := 8) rfl,
    Bytes_row (n := 8) rfl]
  all_goals
    intro k hk
    simp only [quad]
    interval_cases k <;>
    first
    | (rw [if_pos (by omega)]; rfl)
    | (rw [if_neg (by omega)]; simp; congr 1; omega)

theorem rgb_to_bgra_single_emits {src : Buf} {dst : Dst} {so d m i : Nat}
    (hs : so + 3 * (m + i) + 4 ≤ src.len) (hd : d + 4 * (m + i) + 4 ≤ dst.len) :
    Emits (rgb_to_bgra_single .big src dst ⟨m + i, so + 3 * (m + i), d + 4 * (m + i)⟩)
      ⟨m + (i + 1), so + 3 * (m + (i + 1)), d + 4 * (m + (i + 1))⟩
      (Row dst (d + 4 * m + 4 * i) 4 (fun j => quad src so (4 * m + (4 * i + j)) 4)) := by
  unfold rgb_to_bgra_single
  simp only
  rw [loadu32_ok (by omega), pure_bind]
  have s0 := fun f => storeu32_emits (d := dst) (i := d + 4 * (m + i)) (by omega)
    (rgb1_to_bgra1_bytes f)
  rw [show (⟨m + (i + 1), so + 3 * (m + (i + 1)), d + 4 * (m + (i + 1))⟩ : Cur) =
    ⟨m + i + 1, so + 3 * (m + i) + 3, d + 4 * (m + i) + 4⟩ by
      congr 1]
  refine ((s0 _).then_pure).congr fun p => ?_
  rw [Bytes_row (n := 4) rfl, show d + 4 * (m + i) = d + 4 * m + 4 * i by omega]
  intro k hk
  simp only [quad]
  interval_cases k <;>
    first
    | (rw [if_pos (by omega)]; rfl)
    | (rw [if_neg (by omega)]; simp; congr 1; omega)

/-- The three phases of a line, for any admissible choice of the loop bounds. -/
theorem line4_emits {src : Buf} {dst : Dst} {so d w M S : Nat} {F : Nat → UInt8}
    (hw : 0 < w) (hMS : 8 * M ≤ S)
    (hS : S = w ∨ S = w - 1) (hd : d + 4 * w ≤ dst.len) (hs : so + 3 * w ≤ src.len)
    (hM : 0 < M → so + 24 * M + 2 ≤ src.len) (hS1 : 0 < S → so + 3 * S + 1 ≤ src.len)
    (f : Cur → K (Nat × Nat)) (r : Nat × Nat)
    (hf : ∀ x, f ⟨x, so + 3 * w, d + 4 * w⟩ = pure r)
    (hF : ∀ j, j / 4 < 8 * M → quad src so j 5 = F j)
    (hF1 : ∀ j, 8 * M ≤ j / 4 → j / 4 < S → quad src so j 4 = F j)
    (hF2 : ∀ j, S ≤ j / 4 → j / 4 < w → X86.rev4 src so j = F j) :
    Emits (do
      let s ← iterK ((8 * M + 7) / 8) (rgb_to_bgra_multi .big src dst) ⟨0, so, d⟩
      let s ← whileK w (fun s => s.x < S) (rgb_to_bgra_single .big src dst) s
      let s ← if s.x < w then rgb_to_bgra_last src dst s else pure s
      f s) r (Row dst d (4 * w) F) := by
  rw [show (8 * M + 7) / 8 = M by omega]
  have h1 := Emits.iterK (n := M) (f := rgb_to_bgra_multi .big src dst)
    (s := fun m => ⟨8 * m, so + 24 * m, d + 32 * m⟩)
    (fun i hi => (rgb_to_bgra_multi_emits (by have := hM (by omega); omega) (by omega)).congr
      (Row.congr fun j hj => hF (32 * i + j) (by omega)))
  simp only [Nat.mul_zero, Nat.add_zero] at h1
  have h2 := Emits.whileK (fuel := w) (n := S - 8 * M) (cond := fun s : Cur => s.x < S)
    (f := rgb_to_bgra_single .big src dst)
    (s := fun i => ⟨8 * M + i, so + 3 * (8 * M + i), d + 4 * (8 * M + i)⟩)
    (by omega) (by intro i hi; simp; omega) (by simp; omega)
    (fun i hi => (rgb_to_bgra_single_emits (by have := hS1 (by omega); omega) (by omega)).congr
      (Row.congr fun j hj => hF1 (4 * (8 * M) + (4 * i + j)) (by omega) (by omega)))
  have e : (⟨8 * M + 0, so + 3 * (8 * M + 0), d + 4 * (8 * M + 0)⟩ : Cur) =
      ⟨8 * M, so + 24 * M, d + 32 * M⟩ := by
    simp; omega
  rw [e, show 8 * M + (S - 8 * M) = S by omega] at h2
  rcases hS with hS | hS
  · subst hS
    refine (h1.bind (h2.bind ((?_ : Emits _ r fun _ => False)))).congr fun p => ?_
    · rw [if_neg (by simp)]
      rw [pure_bind]
      show Emits (f _) r _
      rw [hf]
      exact Emits.pure r
    · rw [show 4 * S = 32 * M + 4 * (S - 8 * M) by omega, Row.split,
        Row.chunks (by omega), Row.chunks (by omega)]
      simp only [or_false]
      rw [show d + 4 * (8 * M) = d + 32 * M by omega, show 4 * (8 * M) = 32 * M by omega]
  · subst hS
    refine (h1.bind (h2.bind ((?_ : Emits _ r
      (Row dst (d + 4 * (w - 1)) 4 (fun j => F (4 * (w - 1) + j))))))).congr fun p => ?_
    · rw [if_pos (by simp; omega)]
      refine (Emits.bind ((X86.rgb_to_bgra_last_emits (by omega) (by omega)).congr
        (Row.congr fun j hj => hF2 (4 * (w - 1) + j) (by omega) (by omega)))
        (b := r) (H := fun _ => False) ?_).congr (by simp)
      rw [show w - 1 + 1 = w by omega]
      show Emits (f _) r _
      rw [hf]
      exact Emits.pure r
    · rw [show 4 * w = 32 * M + (4 * (w - 1 - 8 * M) + 4) by omega, Row.split, Row.split,
        Row.chunks (by omega), Row.chunks (by omega)]
      rw [show d + 4 * (8 * M) = d + 32 * M by omega, show 4 * (8 * M) = 32 * M by omega,
        show d + 32 * M + 4 * (w - 1 - 8 * M) = d + 4 * (w - 1) by omega]
      simp only [show ∀ j, 32 * M + (4 * (w - 1 - 8 * M) + j) = 4 * (w - 1) + j by omega]

theorem bigBgra_spec {w h gap y so M S : Nat} {src : Buf}
    (hM : Spec.bigGroups w h gap y = 8 * M) (hS : Spec.bigWords w h gap y = S) (hMS : 8 * M ≤ S) :
    (∀ j, j / 4 < 8 * M → quad src so j 5 = Spec.bigBgraRow w h gap y (lineOf src so) j) ∧
    (∀ j, 8 * M ≤ j / 4 → j / 4 < S →
      quad src so j 4 = Spec.bigBgraRow w h gap y (lineOf src so) j) ∧
    (∀ j, S ≤ j / 4 → j / 4 < w →
      X86.rev4 src so j = Spec.bigBgraRow w h gap y (lineOf src so) j) := by
  unfold Spec.bigBgraRow lineOf quad X86.rev4
  simp only [hM, hS, Nat.add_assoc]
  refine ⟨fun j hj => ?_, fun j h1 h2 => ?_, fun j h1 _ => ?_⟩
  · rw [if_pos hj]
  · rw [if_neg (show ¬ j / 4 < 8 * M by omega), if_pos h2]
  · rw [if_neg (show ¬ j / 4 < 8 * M by omega), if_neg (show ¬ j / 4 < S by omega)]

theorem rgb_to_bgra_line_emits {t : Target} {w h ss ds y : Nat} {src : Buf} {dst : Dst}
    (hw : 0 < w) (hsb : 3 * w ≤ ss) (hdb : 4 * w ≤ ds) (hy : y < h)
    (hsl : src.len + ss < 2 ^ t.bits) (hdl : dst.len + ds < 2 ^ t.bits)
    (hs : ∀ y, y < h → ss * y + 3 * w ≤ src.len)
    (hd : ∀ y, y < h → ds * y + 4 * w ≤ dst.len) :
    Emits (rgb_to_bgra_line .big t w h (ss - 3 * w) (ds - 4 * w) src dst y (ss * y) (ds * y))
      (ss * (y + 1), ds * (y + 1)) (Row dst (ds * y) (4 * w)
        (Spec.bigBgraRow w h (ss - 3 * w) y (lineOf src (ss * y)))) := by
  have h1 := hs y hy
  have h2 := hd y hy
  let f : Cur → K (Nat × Nat) := fun s => do
    let so ← (t.add s.so (ss - 3 * w) : R Nat)
    let d ← (t.add s.d (ds - 4 * w) : R Nat)
    return (so, d)
  have hf : ∀ x, f ⟨x, ss * y + 3 * w, ds * y + 4 * w⟩ =
      pure (ss * (y + 1), ds * (y + 1)) := by
    intro x
    simp only [f]
    rw [add_ok (by omega), add_ok (by omega), Nat.mul_succ, Nat.mul_succ,
      show ss * y + 3 * w + (ss - 3 * w) = ss * y + ss by omega,
      show ds * y + 4 * w + (ds - 4 * w) = ds * y + ds by omega]
    rfl
  have hn : y + 1 ≠ h → ss * y + ss ≤ src.len := by
    intro hne
    have := hs (y + 1) (by omega)
    rw [Nat.mul_succ] at this
    omega
  unfold rgb_to_bgra_line
  simp only [beq_iff_eq, Bool.or_eq_true, decide_eq_true_eq, Bool.and_eq_true]
  rw [sub_ok (by omega : 1 ≤ w)]
  by_cases hA : y + 1 = h ∨ ss - 3 * w < 1
  · by_cases hB : y + 1 = h ∨ (8 * (w / 8) = w ∧ ss - 3 * w < 2)
    · simp only [if_pos hA, if_pos hB, K.liftM_eq, K.lift_ok, pure_bind]
      obtain ⟨b1, b2, b3⟩ := bigBgra_spec (src := src) (so := ss * y) (gap := ss - 3 * w) (w := w)
        (h := h) (y := y) (M := (w - 1) / 8) (S := w - 1)
        (by unfold Spec.bigGroups; rw [if_pos (by omega)])
        (by unfold Spec.bigWords; rw [if_pos (by omega)]) (by omega)
      simpa only [f, K.liftM_eq, pure_bind] using
        line4_emits (M := (w - 1) / 8) (w := w) hw (by omega) (.inr rfl) h2 h1 (by omega) (by omega) f
          _ hf b1 b2 b3
    · simp only [if_pos hA, if_neg hB, K.liftM_eq, K.lift_ok, pure_bind]
      obtain ⟨b1, b2, b3⟩ := bigBgra_spec (src := src) (so := ss * y) (gap := ss - 3 * w) (w := w)
        (h := h) (y := y) (M := w / 8) (S := w - 1)
        (by unfold Spec.bigGroups; rw [if_neg (by omega)])
        (by unfold Spec.bigWords; rw [if_pos (by omega)]) (by omega)
      simpa only [f, K.liftM_eq, pure_bind] using
        line4_emits (M := w / 8) (w := w) hw (by omega) (.inr rfl) h2 h1 (by omega) (by omega) f _ hf
          b1 b2 b3
  · have := hn (by omega)
    by_cases hB : y + 1 = h ∨ (8 * (w / 8) = w ∧ ss - 3 * w < 2)
    · simp only [if_neg hA, if_pos hB, K.liftM_eq, K.lift_ok, pure_bind]
      obtain ⟨b1, b2, b3⟩ := bigBgra_spec (src := src) (so := ss * y) (gap := ss - 3 * w) (w := w)
        (h := h) (y := y) (M := (w - 1) / 8) (S := w)
        (by unfold Spec.bigGroups; rw [if_pos (by omega)])
        (by unfold Spec.bigWords; rw [if_neg (by omega)]) (by omega)
      simpa only [f, K.liftM_eq, pure_bind] using
        line4_emits (M := (w - 1) / 8) (w := w) hw (by omega) (.inl rfl) h2 h1 (by omega) (by omega) f
          _ hf b1 b2 b3
    · simp only [if_neg hA, if_neg hB, pure_bind]
      obtain ⟨b1, b2, b3⟩ := bigBgra_spec (src := src) (so := ss * y) (gap := ss - 3 * w) (w := w)
        (h := h) (y := y) (M := w / 8) (S := w)
        (by unfold Spec.bigGroups; rw [if_neg (by omega)])
        (by unfold Spec.bigWords; rw [if_neg (by omega)]) (by omega)
      simpa only [f, K.liftM_eq, pure_bind] using
        line4_emits (M := w / 8) (w := w) hw (by omega) (.inl rfl) h2 h1 (by omega) (by omega) f _ hf
          b1 b2 b3

theorem rgb_to_bgra_lines_emits {t : Target} {w h ss ds : Nat} {src : Buf} {dst : Dst}
    (hw : 0 < w) (hsb : 3 * w ≤ ss) (hdb : 4 * w ≤ ds)
    (hsl : src.len + ss < 2 ^ t.bits) (hdl : dst.len + ds < 2 ^ t.bits)
    (hs : ∀ y, y < h → ss * y + 3 * w ≤ src.len)
    (hd : ∀ y, y < h → ds * y + 4 * w ≤ dst.len) (n y : Nat) (hn : y + n = h) :
    Emits (rgb_to_bgra_lines .big t w h (ss - 3 * w) (ds - 4 * w) src dst y n (ss * y) (ds * y)) ()
      (fun p => ∃ i, i < n ∧ Row dst (ds * (y + i)) (4 * w)
        (Spec.bigBgraRow w h (ss - 3 * w) (y + i) (lineOf src (ss * (y + i)))) p) := by
  induction n generalizing y with
  | zero => exact (Emits.pure ()).congr (by simp)
  | succ n ih =>
    unfold rgb_to_bgra_lines
    refine ((rgb_to_bgra_line_emits hw hsb hdb (by omega) hsl hdl hs hd).bind
      (ih (y + 1) (by omega))).congr fun p => ?_
    constructor
    · rintro (h | ⟨i, hi, h⟩)
      · exact ⟨0, by omega, h⟩
      · exact ⟨i + 1, by omega, by rwa [show y + (i + 1) = y + 1 + i by omega]⟩
    · rintro ⟨i, hi, h⟩
      cases i with
      | zero => exact .inl h
      | succ i => exact .inr ⟨i, by omega, by rwa [show y + 1 + i = y + (i + 1) by omega]⟩

theorem rgb_to_bgra_emits {t : Target} {w h ss ds : Nat} {src : Buf} {d : Dst}
    (hw : 0 < w) (hsb : 3 * w ≤ ss) (hdb : 4 * w ≤ ds)
    (hsl : src.len + ss < 2 ^ t.bits) (hdl : d.len + ds < 2 ^ t.bits)
    (hs : ∀ y, y < h → ss * y + 3 * w ≤ src.len)
    (hd : ∀ y, y < h → ds * y + 4 * w ≤ d.len) :
    Emits (rgb_to_bgra .big t w h ss src ds d) () (Rect d ds (4 * w) h
      fun j y => Spec.bigBgraRow w h (ss - 3 * w) y (lineOf src (ss * y)) j) := by
  unfold rgb_to_bgra
  simp only [K.liftM_eq, mul_ok (t := t) (show 4 * w < 2 ^ t.bits by omega),
    mul_ok (t := t) (show 3 * w < 2 ^ t.bits by omega), K.lift_ok, pure_bind]
  rw [sub_ok hsb, sub_ok hdb]
  simp only [K.lift_ok, pure_bind]
  have := rgb_to_bgra_lines_emits hw hsb hdb hsl hdl hs hd h 0 (by omega)
  simp only [Nat.mul_zero, Nat.zero_add] at this
  refine this.congr fun p => ?_
  rw [rect_rows]

theorem srcLine_eq (c : Call) (y : Nat) : Spec.srcLine c y = lineOf (bufAt c.src_buffers 0)
    (Spec.strideOf c.src_strides 0 (Spec.bpp c.src_format.pixel_format * c.width.toNat) * y) := by
  funext i
  rw [Spec.srcLine, lineOf, bytesAt_eq]

theorem convertOn_big {t : Target} {c : Call} (hv : Spec.Valid t c) (hk : c.Shuffles) :
    convertOn t .big c = .ok (.ok (), Spec.painted c.dst_format c.width c.height c.dst_strides
      [Spec.bigPlane c] c.dst_buffers) := by
  obtain ⟨tb, hT, e⟩ := convert_table t (impls .big) .other
  have hb := hv.bits_pos
  have h0 := u32_pos hv.height_ne
  obtain ⟨r, hkey, hr, e'⟩ := convert_checked (impls := impls .big) hT hv.src_legal
    hv.dst_legal hv.supported hv.width_ne hv.height_ne
    (present_of_fits hv.src_fits) (present_of_fits hv.dst_fits)
    (small_of_fits hb hv.src_legal h0 hv.src_fits hv.src_real)
    (small_of_fits hb hv.dst_legal h0 hv.dst_fits hv.dst_real)
  rw [if_pos ⟨acc_image_of_fits hv.src_legal h0 hv.src_fits _,
    acc_image_of_fits hv.dst_legal h0 hv.dst_fits _⟩] at e'
  unfold convertOn
  rw [e c]
  refine convert_of_emits e' (row_le_stride hv.dst_fits) ?_
  have hdim := dim_of hv.width_ne hv.height_ne
  have ht := imax_lt t hb
  have n1 := planes_le hv.src_legal.planes
  have n2 := planes_le hv.dst_legal.planes
  have l1 := hv.src_real _ (buf_mem (bufs := c.src_buffers) (i := 0)
    (by have := hv.src_fits.bufs_len; omega))
  have l2 := hv.dst_real _ (buf_mem (bufs := c.dst_buffers) (i := 0)
    (by have := hv.dst_fits.bufs_len; omega))
  have hw64 : c.width.toNat < 2 ^ 64 := Nat.lt_trans hdim.w_lt (by decide)
  have key := fun rc => plane0 hv.src_fits 0 (rc := rc) (by omega)
  have key' := fun rc => plane0 hv.dst_fits 0 (rc := rc) (by omega)
  clear e e' hT hv
  rcases c with ⟨w, h, ⟨spf, scs, sn⟩, ss, sb, ⟨dpf, dcs, dn⟩, ds, db⟩
  simp only at *
  match r with
  | .rgbYuv s y k =>
    simp only [Routine.key, Prod.mk.injEq] at hkey
    obtain ⟨⟨rfl, -⟩, rfl, -⟩ := hkey
    exact absurd hk.2 (by cases y <;> simp [YuvFmt.pf, Spec.isRgb])
  | .yuvRgb y k d =>
    simp only [Routine.key, Prod.mk.injEq] at hkey
    obtain ⟨⟨rfl, -⟩, rfl, -⟩ := hkey
    exact absurd hk.1 (by cases y <;> simp [YuvFmt.pf, Spec.isRgb])
  | .rgbRgb .bgrRgb =>
    simp only [Routine.key, Prod.mk.injEq] at hkey
    obtain ⟨⟨rfl, rfl⟩, rfl, rfl⟩ := hkey
    have f1 := key (3 * w.toNat, h.toNat) rfl
    have f2 := key' (3 * w.toNat, h.toNat) rfl
    refine (bgr_to_rgb_emits (t := t) hw64 (by omega) (by simp only [sliceAt]; omega)
      (fun y hy => fits_line f1 hy) (fun y hy => fits_line f2 hy)).congr fun p => ?_
    simp only [Spec.bigPlane, srcLine_eq, Spec.srcGap]
    exact planeWrites_one (rc := (3 * w.toNat, h.toNat)) (st := Spec.strideOf ds) p
  | .rgbRgb .bgraRgb =>
    simp only [Routine.key, Prod.mk.injEq] at hkey
    obtain ⟨⟨rfl, rfl⟩, rfl, rfl⟩ := hkey
    have f1 := key (4 * w.toNat, h.toNat) rfl
    have f2 := key' (3 * w.toNat, h.toNat) rfl
    have g1 := f1.stride_le
    have g2 := f2.stride_le
    simp only at g1 g2
    refine (bgra_to_rgb_emits (t := t) hw64 f1.row_le f2.row_le (by simp only; omega)
      (by simp only; omega) (by omega)
      (by simp only [sliceAt]; omega)
      (fun y hy => fits_line f1 hy) (fun y hy => fits_line f2 hy)).congr fun p => ?_
    simp only [Spec.bigPlane, srcLine_eq]
    exact planeWrites_one (rc := (3 * w.toNat, h.toNat)) (st := Spec.strideOf ds) p
  | .rgbRgb .rgbBgra =>
    simp only [Routine.key, Prod.mk.injEq] at hkey
    obtain ⟨⟨rfl, rfl⟩, rfl, rfl⟩ := hkey
    have f1 := key (3 * w.toNat, h.toNat) rfl
    have f2 := key' (4 * w.toNat, h.toNat) rfl
    have g1 := f1.stride_le
    have g2 := f2.stride_le
    simp only at g1 g2
    refine (rgb_to_bgra_emits (t := t) hdim.w_pos f1.row_le f2.row_le (by simp only; omega)
      (by simp only [sliceAt]; omega)
      (fun y hy => fits_line f1 hy) (fun y hy => fits_line f2 hy)).congr fun p => ?_
    simp only [Spec.bigPlane, srcLine_eq, Spec.srcGap]
    exact planeWrites_one (rc := (4 * w.toNat, h.toNat)) (st := Spec.strideOf ds) p

end Verif.Ordered
