import Mathlib.Tactic.IntervalCases
import Verif.Lemmas.Word
import Verif.Lemmas.X86Dec
/-! # Scalar RGB <-> RGB kernels -/

namespace Verif

/-- Writes of `n` consecutive bytes `F 0 .. F (n-1)`. -/
def Row (d : Dst) (base n : Nat) (F : Nat → UInt8) (p : Write) : Prop :=
  ∃ j, j < n ∧ p = ⟨d.plane, d.off + (base + j), F j⟩

theorem Row.split {d : Dst} {base a b : Nat} {F : Nat → UInt8} (p : Write) :
    Row d base (a + b) F p ↔ Row d base a F p ∨ Row d (base + a) b (fun j => F (a + j)) p := by
  constructor
  · rintro ⟨j, hj, h⟩
    by_cases hja : j < a
    · exact .inl ⟨j, hja, h⟩
    · exact .inr ⟨j - a, by omega, by
        simp only
        rw [h, show base + a + (j - a) = base + j by omega, show a + (j - a) = j by omega]⟩
  · rintro (⟨j, hj, h⟩ | ⟨j, hj, h⟩)
    · exact ⟨j, by omega, h⟩
    · exact ⟨a + j, by omega, by rw [h, Nat.add_assoc]⟩

theorem Row.chunks {d : Dst} {base n m : Nat} {F : Nat → UInt8} (hn : 0 < n) (p : Write) :
    Row d base (n * m) F p ↔
      ∃ i, i < m ∧ Row d (base + n * i) n (fun j => F (n * i + j)) p := by
  unfold Row
  rw [exists_mul hn]
  simp only [Nat.add_assoc]

theorem Row.congr {d : Dst} {base n : Nat} {F F' : Nat → UInt8} (h : ∀ j, j < n → F j = F' j)
    (p : Write) : Row d base n F p ↔ Row d base n F' p := by
  constructor
  · rintro ⟨j, hj, e⟩; exact ⟨j, hj, by rw [e, h j hj]⟩
  · rintro ⟨j, hj, e⟩; exact ⟨j, hj, by rw [e, h j hj]⟩

theorem rect_rows {d : Dst} {stride row h : Nat} {f : Nat → Nat → UInt8} (p : Write) :
    Rect d stride row h f p ↔ ∃ y, y < h ∧ Row d (stride * y) row (fun j => f j y) p := Iff.rfl

theorem Bytes_row {d : Dst} {i n : Nat} {bs : List UInt8} {F : Nat → UInt8} (hn : bs.length = n)
    (h : ∀ k, k < n → bs.getD k 0 = F k) (p : Write) : Bytes d i bs p ↔ Row d i n F p := by
  subst hn
  exact Row.congr h p

namespace X86

theorem loadu64_ok {s : Buf} {i : Nat} (h : i + 8 ≤ s.len) :
    loadu64 s i = pure (word64 fun k => s.bytes (i + k)) := by simp [loadu64, h]

theorem loadu32_ok {s : Buf} {i : Nat} (h : i + 4 ≤ s.len) :
    loadu32 s i = pure (word32 fun k => s.bytes (i + k)) := by simp [loadu32, h]

theorem storeu64_emits {d : Dst} {i : Nat} {v : BitVec 64} (h : i + 8 ≤ d.len) :
    Emits (storeu64 d i v) () (Bytes d i ((List.range 8).map (byte64 v))) := by
  refine ⟨_, by rw [storeu64, if_pos h], fun p => ?_⟩
  simp only [List.mem_map, List.mem_range, Bytes, List.length_map, List.length_range]
  constructor
  · rintro ⟨k, hk, rfl⟩; exact ⟨k, hk, by simp [hk]⟩
  · rintro ⟨k, hk, rfl⟩; exact ⟨k, hk, by simp [hk]⟩

theorem storeu32_emits {d : Dst} {i : Nat} {v : BitVec 32} (h : i + 4 ≤ d.len) :
    Emits (storeu32 d i v) () (Bytes d i ((List.range 4).map (byte32 v))) := by
  refine ⟨_, by rw [storeu32, if_pos h], fun p => ?_⟩
  simp only [List.mem_map, List.mem_range, Bytes, List.length_map, List.length_range]
  constructor
  · rintro ⟨k, hk, rfl⟩; exact ⟨k, hk, by simp [hk]⟩
  · rintro ⟨k, hk, rfl⟩; exact ⟨k, hk, by simp [hk]⟩

/-- Bytes of a line of three-byte pixels obtained by reversing three source bytes; the source
line starts at `so` and has `sd` bytes per pixel. -/
def rev3 (src : Buf) (so sd j : Nat) : UInt8 := src.bytes (so + sd * (j / 3) + (2 - j % 3))

/-- Bytes of a line of four-byte opaque pixels obtained by reversing three source bytes. -/
def rev4 (src : Buf) (so j : Nat) : UInt8 :=
  if j % 4 = 3 then 255 else src.bytes (so + 3 * (j / 4) + (2 - j % 4))

theorem bgr_to_rgb_multi_emits {src : Buf} {dst : Dst} {so d m : Nat}
    (hs : so + 24 * m + 24 ≤ src.len) (hd : d + 24 * m + 24 ≤ dst.len) :
    Emits (bgr_to_rgb_multi src dst ⟨8 * m, so + 24 * m, d + 24 * m⟩)
      ⟨8 * (m + 1), so + 24 * (m + 1), d + 24 * (m + 1)⟩
      (Row dst (d + 24 * m) 24 (fun j => rev3 src so 3 (24 * m + j))) := by
  unfold bgr_to_rgb_multi
  simp only
  rw [loadu64_ok (by omega), pure_bind, loadu64_ok (by omega), pure_bind, loadu64_ok (by omega),
    pure_bind]
  obtain ⟨e0, e1, e2⟩ := bgr8_to_rgb8_bytes (fun k => src.bytes (so + 24 * m + k))
    (fun k => src.bytes (so + 24 * m + 8 + k)) (fun k => src.bytes (so + 24 * m + 16 + k))
  have s0 := storeu64_emits (d := dst) (i := d + 24 * m)
    (v := (bgr8_to_rgb8 (word64 fun k => src.bytes (so + 24 * m + k))
    (word64 fun k => src.bytes (so + 24 * m + 8 + k))
    (word64 fun k => src.bytes (so + 24 * m + 16 + k))).1) (by omega)
  have s1 := storeu64_emits (d := dst) (i := d + 24 * m + 8)
    (v := (bgr8_to_rgb8 (word64 fun k => src.bytes (so + 24 * m + k))
    (word64 fun k => src.bytes (so + 24 * m + 8 + k))
    (word64 fun k => src.bytes (so + 24 * m + 16 + k))).2.1) (by omega)
  have s2 := storeu64_emits (d := dst) (i := d + 24 * m + 16)
    (v := (bgr8_to_rgb8 (word64 fun k => src.bytes (so + 24 * m + k))
    (word64 fun k => src.bytes (so + 24 * m + 8 + k))
    (word64 fun k => src.bytes (so + 24 * m + 16 + k))).2.2) (by omega)
  rw [e0] at s0
  rw [e1] at s1
  rw [e2] at s2
  rw [show (⟨8 * (m + 1), so + 24 * (m + 1), d + 24 * (m + 1)⟩ : Cur) =
    ⟨8 * m + 8, so + 24 * m + 3 * 8, d + 24 * m + 3 * 8⟩ by
      congr 1 ]
  refine (s0.seq (s1.seq s2.then_pure)).congr fun p => ?_
  rw [show (24 : Nat) = 8 + (8 + 8) from rfl, Row.split, Row.split]
  simp only [Nat.reduceAdd]
  rw [Bytes_row (n := 8) rfl, Bytes_row (n := 8) rfl, Bytes_row (n := 8) rfl]
  all_goals
    intro k hk
    simp only [rev3]
    interval_cases k <;> simp <;> congr 1 <;> omega

theorem swap_single_emits {src : Buf} {dst : Dst} {sd so d m i : Nat} (hsd : sd = 3 ∨ sd = 4)
    (hs : so + sd * (m + i) + 3 ≤ src.len) (hd : d + 3 * (m + i) + 3 ≤ dst.len) :
    Emits (swap_single sd src dst ⟨m + i, so + sd * (m + i), d + 3 * (m + i)⟩)
      ⟨m + (i + 1), so + sd * (m + (i + 1)), d + 3 * (m + (i + 1))⟩
      (Row dst (d + 3 * m + 3 * i) 3 (fun j => rev3 src so sd (3 * m + (3 * i + j)))) := by
  unfold swap_single
  simp only
  rw [rd_eq (by omega), pure_bind, rd_eq (by omega), rd_eq (by omega)]
  simp only [pure_bind]
  rw [show (⟨m + (i + 1), so + sd * (m + (i + 1)), d + 3 * (m + (i + 1))⟩ : Cur) =
    ⟨m + i + 1, so + sd * (m + i) + sd, d + 3 * (m + i) + 3⟩ by
      rcases hsd with rfl | rfl <;> simp <;> omega]
  refine ((Emits.wr (by omega)).seq ((Emits.wr (by omega)).seq
    (Emits.wr (by omega)).then_pure)).congr fun p => ?_
  rw [← Bytes_row (n := 3) (bs := [src.bytes (so + sd * (m + i) + 2),
    src.bytes (so + sd * (m + i) + 1), src.bytes (so + sd * (m + i))]) rfl, Bytes_three,
    show d + 3 * (m + i) = d + 3 * m + 3 * i by omega]
  intro k hk
  simp only [rev3]
  rcases hsd with rfl | rfl <;> interval_cases k <;> simp <;> congr 1 <;> omega

theorem and_mask {x k : Nat} (hx : x < 2 ^ 64) (hk : k ≤ 64) :
    x &&& ((2 ^ 64 - 1) ^^^ (2 ^ k - 1)) = 2 ^ k * (x / 2 ^ k) := by
  apply Nat.eq_of_testBit_eq
  intro i
  rw [Nat.testBit_and, Nat.testBit_xor, Nat.testBit_two_pow_sub_one, Nat.testBit_two_pow_sub_one,
    Nat.testBit_two_pow_mul, Nat.testBit_div_two_pow]
  by_cases h1 : i < k
  · have h2 : i < 64 := by omega
    have h3 : ¬ (i ≥ k) := by omega
    simp [h1, h2, h3]
  · by_cases h2 : i < 64
    · have h3 : i ≥ k := by omega
      simp [h1, h2, h3]
    · have : x.testBit i = false :=
        Nat.testBit_lt_two_pow (Nat.lt_of_lt_of_le hx (Nat.pow_le_pow_right (by omega) (by omega)))
      have h3 : i ≥ k := by omega
      simp [this, h3]

theorem lower_multiple_8 {x : Nat} (hx : x < 2 ^ 64) : lower_multiple_of_pot x 8 = 8 * (x / 8) :=
  and_mask (k := 3) hx (by omega)

/-- One line of three-byte destination pixels: groups of eight, then single pixels. -/
theorem line3_emits {src : Buf} {dst : Dst} {sd so d w : Nat} (hsd : sd = 3 ∨ sd = 4)
    (hw64 : w < 2 ^ 64) (f : Cur → K Cur)
    (hs : so + sd * w ≤ src.len) (hd : d + 3 * w ≤ dst.len)
    (hf : ∀ m, m < w / 8 → Emits (f ⟨8 * m, so + 8 * sd * m, d + 24 * m⟩)
      ⟨8 * (m + 1), so + 8 * sd * (m + 1), d + 24 * (m + 1)⟩
      (Row dst (d + 24 * m) 24 (fun j => rev3 src so sd (24 * m + j)))) :
    Emits (do
      let s ← whileK w (fun s => s.x < lower_multiple_of_pot w 8) f ⟨0, so, d⟩
      let _ ← whileK w (fun s => s.x < w) (swap_single sd src dst) s
      pure ()) () (Row dst d (3 * w) (rev3 src so sd)) := by
  rw [lower_multiple_8 hw64]
  have h1 := Emits.whileK (fuel := w) (n := w / 8) (cond := fun s : Cur => s.x < 8 * (w / 8)) (f := f)
    (s := fun m => ⟨8 * m, so + 8 * sd * m, d + 24 * m⟩) (by omega)
    (by intro i hi; simp; omega) (by simp) hf
  simp only [Nat.mul_zero, Nat.add_zero] at h1
  have h2 := Emits.whileK (fuel := w) (n := w - 8 * (w / 8)) (cond := fun s : Cur => s.x < w)
    (f := swap_single sd src dst)
    (s := fun i => ⟨8 * (w / 8) + i, so + sd * (8 * (w / 8) + i), d + 3 * (8 * (w / 8) + i)⟩)
    (by omega) (by intro i hi; simp; omega) (by simp; omega)
    (fun i hi => swap_single_emits hsd
      (by rcases hsd with rfl | rfl <;> omega) (by omega))
  have e : (⟨8 * (w / 8) + 0, so + sd * (8 * (w / 8) + 0), d + 3 * (8 * (w / 8) + 0)⟩ : Cur) =
      ⟨8 * (w / 8), so + 8 * sd * (w / 8), d + 24 * (w / 8)⟩ := by
    rcases hsd with rfl | rfl <;> simp <;> omega
  rw [e] at h2
  refine (h1.bind (h2.bind (Emits.pure ()))).congr fun p => ?_
  rw [show 3 * w = 24 * (w / 8) + 3 * (w - 8 * (w / 8)) by omega, Row.split,
    Row.chunks (by omega), Row.chunks (by omega)]
  simp only [or_false]
  rw [show d + 3 * (8 * (w / 8)) = d + 24 * (w / 8) by omega,
    show 3 * (8 * (w / 8)) = 24 * (w / 8) by omega]

/-- Writes of an RGB to RGB conversion. -/
def GRgb (spf dpf : PixelFormat) (src : Buf) (ss w h ds : Nat) (d : Dst) : Write → Prop :=
  Rect d ds (Spec.bpp dpf * w) h (Spec.rgbRow dpf (Spec.rgbImage spf src.bytes ss))

theorem rev3_bgr (src : Buf) (ss y j : Nat) :
    rev3 src (ss * y) 3 j = Spec.rgbRow .rgb (Spec.rgbImage .bgr src.bytes ss) j y := by
  simp only [rev3, Spec.rgbRow, Spec.rgbImage, Spec.pixelBytes, Spec.bpp, Spec.rgbPos]
  rcases (by omega : j % 3 = 0 ∨ j % 3 = 1 ∨ j % 3 = 2) with e | e | e <;> simp [e]

theorem rev3_bgra (src : Buf) (ss y j : Nat) :
    rev3 src (ss * y) 4 j = Spec.rgbRow .rgb (Spec.rgbImage .bgra src.bytes ss) j y := by
  simp only [rev3, Spec.rgbRow, Spec.rgbImage, Spec.pixelBytes, Spec.bpp, Spec.rgbPos]
  rcases (by omega : j % 3 = 0 ∨ j % 3 = 1 ∨ j % 3 = 2) with e | e | e <;> simp [e]

theorem rev4_rgb (src : Buf) (ss y j : Nat) :
    rev4 src (ss * y) j = Spec.rgbRow .bgra (Spec.rgbImage .rgb src.bytes ss) j y := by
  simp only [rev4, Spec.rgbRow, Spec.rgbImage, Spec.pixelBytes, Spec.bpp, Spec.rgbPos]
  rcases (by omega : j % 4 = 0 ∨ j % 4 = 1 ∨ j % 4 = 2 ∨ j % 4 = 3) with e | e | e | e <;> simp [e]

theorem bgr_to_rgb_emits {w h ss ds : Nat} {src : Buf} {d : Dst} (hw : w < 2 ^ 64)
    (hs : ∀ y, y < h → ss * y + 3 * w ≤ src.len)
    (hd : ∀ y, y < h → ds * y + 3 * w ≤ d.len) :
    Emits (bgr_to_rgb exactMul w h ss src ds d) () (GRgb .bgr .rgb src ss w h ds d) := by
  unfold bgr_to_rgb
  simp only [exactMul, K.liftM_eq, K.lift_ok, pure_bind]
  refine (Emits.forK fun y hy => line3_emits (.inl rfl) hw _ (hs y hy) (hd y hy)
    fun m hm => bgr_to_rgb_multi_emits ?_ ?_).congr fun p => ?_
  · have := hs y hy; omega
  · have := hd y hy; omega
  · unfold GRgb
    rw [rect_rows]
    simp only [Spec.bpp]
    constructor
    · rintro ⟨y, hy, h⟩
      exact ⟨y, hy, (Row.congr (fun j _ => rev3_bgr src ss y j) p).1 h⟩
    · rintro ⟨y, hy, h⟩
      exact ⟨y, hy, (Row.congr (fun j _ => rev3_bgr src ss y j) p).2 h⟩

theorem bgra_to_rgb_multi_emits {src : Buf} {dst : Dst} {so d m : Nat}
    (hs : so + 32 * m + 32 ≤ src.len) (hd : d + 24 * m + 24 ≤ dst.len) :
    Emits (bgra_to_rgb_multi src dst ⟨8 * m, so + 8 * 4 * m, d + 24 * m⟩)
      ⟨8 * (m + 1), so + 8 * 4 * (m + 1), d + 24 * (m + 1)⟩
      (Row dst (d + 24 * m) 24 (fun j => rev3 src so 4 (24 * m + j))) := by
  unfold bgra_to_rgb_multi
  simp only
  rw [loadu64_ok (by omega), pure_bind, loadu64_ok (by omega), pure_bind, loadu64_ok (by omega),
    pure_bind, loadu64_ok (by omega), pure_bind]
  obtain ⟨e0, e1, e2⟩ := bgra_pack_bytes (fun k => src.bytes (so + 8 * 4 * m + k))
    (fun k => src.bytes (so + 8 * 4 * m + 8 + k)) (fun k => src.bytes (so + 8 * 4 * m + 16 + k))
    (fun k => src.bytes (so + 8 * 4 * m + 24 + k))
  have s0 := fun v => storeu64_emits (d := dst) (i := d + 24 * m) (v := v) (by omega)
  have s1 := fun v => storeu64_emits (d := dst) (i := d + 24 * m + 8) (v := v) (by omega)
  have s2 := fun v => storeu64_emits (d := dst) (i := d + 24 * m + 16) (v := v) (by omega)
  rw [show (⟨8 * (m + 1), so + 8 * 4 * (m + 1), d + 24 * (m + 1)⟩ : Cur) =
    ⟨8 * m + 8, so + 8 * 4 * m + 4 * 8, d + 24 * m + 3 * 8⟩ by
      congr 1]
  refine ((s0 _).seq ((s1 _).seq (s2 _).then_pure)).congr fun p => ?_
  rw [e0, e1, e2]
  rw [show (24 : Nat) = 8 + (8 + 8) from rfl, Row.split, Row.split]
  simp only [Nat.reduceAdd]
  rw [Bytes_row (n := 8) rfl, Bytes_row (n := 8) rfl, Bytes_row (n := 8) rfl]
  all_goals
    intro k hk
    simp only [rev3]
    interval_cases k <;> simp <;> congr 1 <;> omega

theorem sub_ok {t : Target} {a b : Nat} (h : b ≤ a) : t.sub a b = .ok (a - b) := by
  simp [Target.sub, h]
theorem mul_ok {t : Target} {a b : Nat} (h : a * b < 2 ^ t.bits) : t.mul a b = .ok (a * b) := by
  simp [Target.mul, h]
theorem add_ok {t : Target} {a b : Nat} (h : a + b < 2 ^ t.bits) : t.add a b = .ok (a + b) := by
  simp [Target.add, h]

theorem bgra_to_rgb_emits {t : Target} {w h ss ds : Nat} {src : Buf} {d : Dst} (hw : w < 2 ^ 64)
    (hsb : 4 * w ≤ ss) (hdb : 3 * w ≤ ds) (hs64 : ss < 2 ^ t.bits) (hd64 : ds < 2 ^ t.bits)
    (hsl : src.len < 2 ^ t.bits) (hdl : d.len < 2 ^ t.bits)
    (hs : ∀ y, y < h → ss * y + 4 * w ≤ src.len)
    (hd : ∀ y, y < h → ds * y + 3 * w ≤ d.len) :
    Emits (bgra_to_rgb t w h ss src ds d) () (GRgb .bgra .rgb src ss w h ds d) := by
  unfold bgra_to_rgb
  simp only [K.liftM_eq, mul_ok (t := t) (show 4 * w < 2 ^ t.bits by omega),
    mul_ok (t := t) (show 3 * w < 2 ^ t.bits by omega), K.lift_ok, pure_bind]
  rw [sub_ok hsb, sub_ok hdb]
  simp only [K.lift_ok, pure_bind]
  refine (Emits.forK (G := fun y => Row d (ds * y) (3 * w) (rev3 src (ss * y) 4))
    fun y hy => ?_).congr fun p => ?_
  · have h1 := hs y hy
    have h2 := hd y hy
    rw [add_ok (by omega), add_ok (by omega), show 4 * w + (ss - 4 * w) = ss by omega,
      show 3 * w + (ds - 3 * w) = ds by omega]
    simp only [K.lift_ok, pure_bind]
    rw [mul_ok (by omega), mul_ok (by omega)]
    simp only [K.lift_ok, pure_bind]
    exact line3_emits (.inr rfl) hw _ h1 h2
      fun m hm => bgra_to_rgb_multi_emits (by omega) (by omega)
  · unfold GRgb
    rw [rect_rows]
    simp only [Spec.bpp]
    constructor
    · rintro ⟨y, hy, h⟩
      exact ⟨y, hy, (Row.congr (fun j _ => rev3_bgra src ss y j) p).1 h⟩
    · rintro ⟨y, hy, h⟩
      exact ⟨y, hy, (Row.congr (fun j _ => rev3_bgra src ss y j) p).2 h⟩

theorem rgb_to_bgra_multi_emits {src : Buf} {dst : Dst} {so d m : Nat}
    (hs : so + 24 * m + 26 ≤ src.len) (hd : d + 32 * m + 32 ≤ dst.len) :
    Emits (rgb_to_bgra_multi src dst ⟨8 * m, so + 24 * m, d + 32 * m⟩)
      ⟨8 * (m + 1), so + 24 * (m + 1), d + 32 * (m + 1)⟩
      (Row dst (d + 32 * m) 32 (fun j => rev4 src so (32 * m + j))) := by
  unfold rgb_to_bgra_multi
  simp only
  rw [loadu64_ok (by omega), pure_bind, loadu64_ok (by omega), pure_bind, loadu64_ok (by omega),
    pure_bind, loadu64_ok (by omega), pure_bind]
  have s0 := fun v => storeu64_emits (d := dst) (i := d + 32 * m) (v := v) (by omega)
  have s1 := fun v => storeu64_emits (d := dst) (i := d + 32 * m + 8) (v := v) (by omega)
  have s2 := fun v => storeu64_emits (d := dst) (i := d + 32 * m + 16) (v := v) (by omega)
  have s3 := fun v => storeu64_emits (d := dst) (i := d + 32 * m + 24) (v := v) (by omega)
  rw [show (⟨8 * (m + 1), so + 24 * (m + 1), d + 32 * (m + 1)⟩ : Cur) =
    ⟨8 * m + 8, so + 24 * m + 3 * 8, d + 32 * m + 4 * 8⟩ by
      congr 1]
  refine ((s0 _).seq ((s1 _).seq ((s2 _).seq (s3 _).then_pure))).congr fun p => ?_
  simp only [rgb2_to_bgra2_bytes]
  rw [show (32 : Nat) = 8 + (8 + (8 + 8)) from rfl, Row.split, Row.split, Row.split]
  simp only [Nat.reduceAdd]
  rw [Bytes_row (n := 8) rfl, Bytes_row (n := 8) rfl, Bytes_row (n := 8) rfl,
    Bytes_row (n := 8) rfl]
  all_goals
    intro k hk
    simp only [rev4]
    interval_cases k <;>
    first
    | (rw [if_pos (by omega)]; rfl)
    | (rw [if_neg (by omega)]; simp; congr 1; omega)

theorem rgb_to_bgra_single_emits {src : Buf} {dst : Dst} {so d m i : Nat}
    (hs : so + 3 * (m + i) + 4 ≤ src.len) (hd : d + 4 * (m + i) + 4 ≤ dst.len) :
    Emits (rgb_to_bgra_single src dst ⟨m + i, so + 3 * (m + i), d + 4 * (m + i)⟩)
      ⟨m + (i + 1), so + 3 * (m + (i + 1)), d + 4 * (m + (i + 1))⟩
      (Row dst (d + 4 * m + 4 * i) 4 (fun j => rev4 src so (4 * m + (4 * i + j)))) := by
  unfold rgb_to_bgra_single
  simp only
  rw [loadu32_ok (by omega), pure_bind]
  have s0 := fun v => storeu32_emits (d := dst) (i := d + 4 * (m + i)) (v := v) (by omega)
  rw [show (⟨m + (i + 1), so + 3 * (m + (i + 1)), d + 4 * (m + (i + 1))⟩ : Cur) =
    ⟨m + i + 1, so + 3 * (m + i) + 3, d + 4 * (m + i) + 4⟩ by
      congr 1]
  refine ((s0 _).then_pure).congr fun p => ?_
  simp only [rgb1_to_bgra1_bytes]
  rw [Bytes_row (n := 4) rfl, show d + 4 * (m + i) = d + 4 * m + 4 * i by omega]
  intro k hk
  simp only [rev4]
  interval_cases k <;>
    first
    | (rw [if_pos (by omega)]; rfl)
    | (rw [if_neg (by omega)]; simp; congr 1; omega)

theorem rgb_to_bgra_last_emits {src : Buf} {dst : Dst} {so d m : Nat}
    (hs : so + 3 * m + 3 ≤ src.len) (hd : d + 4 * m + 4 ≤ dst.len) :
    Emits (rgb_to_bgra_last src dst ⟨m, so + 3 * m, d + 4 * m⟩)
      ⟨m, so + 3 * (m + 1), d + 4 * (m + 1)⟩
      (Row dst (d + 4 * m) 4 (fun j => rev4 src so (4 * m + j))) := by
  unfold rgb_to_bgra_last
  simp only
  rw [rd_eq (by omega), pure_bind, rd_eq (by omega), rd_eq (by omega)]
  simp only [pure_bind]
  rw [show (⟨m, so + 3 * (m + 1), d + 4 * (m + 1)⟩ : Cur) =
    ⟨m, so + 3 * m + 3, d + 4 * m + 4⟩ by congr 1]
  refine ((Emits.wr (by omega)).seq ((Emits.wr (by omega)).seq ((Emits.wr (by omega)).seq
    (Emits.wr (by omega)).then_pure))).congr fun p => ?_
  rw [← Bytes_row (n := 4) (bs := [src.bytes (so + 3 * m + 2),
    src.bytes (so + 3 * m + 1), src.bytes (so + 3 * m), 255]) rfl, Bytes_four]
  intro k hk
  simp only [rev4]
  interval_cases k <;>
    first
    | (rw [if_pos (by omega)]; rfl)
    | (rw [if_neg (by omega)]; simp <;> congr 1 <;> omega)

/-- The three phases of a line, for any admissible choice of the loop bounds. -/
theorem line4_emits {src : Buf} {dst : Dst} {so d w M S : Nat} (hw : 0 < w) (hMS : 8 * M ≤ S)
    (hS : S = w ∨ S = w - 1) (hd : d + 4 * w ≤ dst.len) (hs : so + 3 * w ≤ src.len)
    (hM : 0 < M → so + 24 * M + 2 ≤ src.len) (hS1 : 0 < S → so + 3 * S + 1 ≤ src.len)
    (f : Cur → K (Nat × Nat)) (r : Nat × Nat)
    (hf : ∀ x, f ⟨x, so + 3 * w, d + 4 * w⟩ = pure r) :
    Emits (do
      let s ← iterK ((8 * M + 7) / 8) (rgb_to_bgra_multi src dst) ⟨0, so, d⟩
      let s ← whileK w (fun s => s.x < S) (rgb_to_bgra_single src dst) s
      let s ← if s.x < w then rgb_to_bgra_last src dst s else pure s
      f s) r (Row dst d (4 * w) (rev4 src so)) := by
  rw [show (8 * M + 7) / 8 = M by omega]
  have h1 := Emits.iterK (n := M) (f := rgb_to_bgra_multi src dst)
    (s := fun m => ⟨8 * m, so + 24 * m, d + 32 * m⟩)
    (fun i hi => rgb_to_bgra_multi_emits (by have := hM (by omega); omega) (by omega))
  simp only [Nat.mul_zero, Nat.add_zero] at h1
  have h2 := Emits.whileK (fuel := w) (n := S - 8 * M) (cond := fun s : Cur => s.x < S)
    (f := rgb_to_bgra_single src dst)
    (s := fun i => ⟨8 * M + i, so + 3 * (8 * M + i), d + 4 * (8 * M + i)⟩)
    (by omega) (by intro i hi; simp; omega) (by simp; omega)
    (fun i hi => rgb_to_bgra_single_emits (by have := hS1 (by omega); omega) (by omega))
  have e : (⟨8 * M + 0, so + 3 * (8 * M + 0), d + 4 * (8 * M + 0)⟩ : Cur) =
      ⟨8 * M, so + 24 * M, d + 32 * M⟩ := by
    simp; omega
  rw [e, show 8 * M + (S - 8 * M) = S by omega] at h2
  rcases hS with hS | hS
  · subst hS
    refine (h1.bind (h2.bind ((?_ : Emits _ r fun _ => False)))).congr fun p => ?_
    · rw [if_neg (by simp)]
      rw [pure_bind]
      show Emits (f _) r _
      rw [hf]
      exact Emits.pure r
    · rw [show 4 * S = 32 * M + 4 * (S - 8 * M) by omega, Row.split,
        Row.chunks (by omega), Row.chunks (by omega)]
      simp only [or_false]
      rw [show d + 4 * (8 * M) = d + 32 * M by omega, show 4 * (8 * M) = 32 * M by omega]
  · subst hS
    refine (h1.bind (h2.bind ((?_ : Emits _ r
      (Row dst (d + 4 * (w - 1)) 4 (fun j => rev4 src so (4 * (w - 1) + j))))))).congr fun p => ?_
    · rw [if_pos (by simp; omega)]
      refine (Emits.bind (rgb_to_bgra_last_emits (by omega) (by omega))
        (b := r) (H := fun _ => False) ?_).congr (by simp)
      rw [show w - 1 + 1 = w by omega]
      show Emits (f _) r _
      rw [hf]
      exact Emits.pure r
    · rw [show 4 * w = 32 * M + (4 * (w - 1 - 8 * M) + 4) by omega, Row.split, Row.split,
        Row.chunks (by omega), Row.chunks (by omega)]
      rw [show d + 4 * (8 * M) = d + 32 * M by omega, show 4 * (8 * M) = 32 * M by omega,
        show d + 32 * M + 4 * (w - 1 - 8 * M) = d + 4 * (w - 1) by omega]
      simp only [show ∀ j, 32 * M + (4 * (w - 1 - 8 * M) + j) = 4 * (w - 1) + j by omega]

theorem rgb_to_bgra_line_emits {t : Target} {w h ss ds y : Nat} {src : Buf} {dst : Dst}
    (hw : 0 < w) (hsb : 3 * w ≤ ss) (hdb : 4 * w ≤ ds) (hy : y < h)
    (hsl : src.len + ss < 2 ^ t.bits) (hdl : dst.len + ds < 2 ^ t.bits)
    (hs : ∀ y, y < h → ss * y + 3 * w ≤ src.len)
    (hd : ∀ y, y < h → ds * y + 4 * w ≤ dst.len) :
    Emits (rgb_to_bgra_line t w h (ss - 3 * w) (ds - 4 * w) src dst y (ss * y) (ds * y))
      (ss * (y + 1), ds * (y + 1)) (Row dst (ds * y) (4 * w) (rev4 src (ss * y))) := by
  have h1 := hs y hy
  have h2 := hd y hy
  let f : Cur → K (Nat × Nat) := fun s => do
    let so ← (t.add s.so (ss - 3 * w) : R Nat)
    let d ← (t.add s.d (ds - 4 * w) : R Nat)
    return (so, d)
  have hf : ∀ x, f ⟨x, ss * y + 3 * w, ds * y + 4 * w⟩ =
      pure (ss * (y + 1), ds * (y + 1)) := by
    intro x
    simp only [f]
    rw [add_ok (by omega), add_ok (by omega), Nat.mul_succ, Nat.mul_succ,
      show ss * y + 3 * w + (ss - 3 * w) = ss * y + ss by omega,
      show ds * y + 4 * w + (ds - 4 * w) = ds * y + ds by omega]
    rfl
  have hn : y + 1 ≠ h → ss * y + ss ≤ src.len := by
    intro hne
    have := hs (y + 1) (by omega)
    rw [Nat.mul_succ] at this
    omega
  unfold rgb_to_bgra_line
  simp only [beq_iff_eq, Bool.or_eq_true, decide_eq_true_eq, Bool.and_eq_true]
  rw [sub_ok (by omega : 1 ≤ w)]
  by_cases hA : y + 1 = h ∨ ss - 3 * w < 1
  · by_cases hB : y + 1 = h ∨ (8 * (w / 8) = w ∧ ss - 3 * w < 2)
    · simp only [if_pos hA, if_pos hB, K.liftM_eq, K.lift_ok, pure_bind]
      simpa only [f, K.liftM_eq, pure_bind] using
        line4_emits (M := (w - 1) / 8) (w := w) hw (by omega) (.inr rfl) h2 h1 (by omega) (by omega) f _ hf
    · simp only [if_pos hA, if_neg hB, K.liftM_eq, K.lift_ok, pure_bind]
      simpa only [f, K.liftM_eq, pure_bind] using
        line4_emits (M := w / 8) (w := w) hw (by omega) (.inr rfl) h2 h1 (by omega) (by omega) f _ hf
  · have := hn (by omega)
    by_cases hB : y + 1 = h ∨ (8 * (w / 8) = w ∧ ss - 3 * w < 2)
    · simp only [if_neg hA, if_pos hB, K.liftM_eq, K.lift_ok, pure_bind]
      simpa only [f, K.liftM_eq, pure_bind] using
        line4_emits (M := (w - 1) / 8) (w := w) hw (by omega) (.inl rfl) h2 h1 (by omega) (by omega) f _ hf
    · simp only [if_neg hA, if_neg hB, pure_bind]
      simpa only [f, K.liftM_eq, pure_bind] using
        line4_emits (M := w / 8) (w := w) hw (by omega) (.inl rfl) h2 h1 (by omega) (by omega) f _ hf

theorem rgb_to_bgra_lines_emits {t : Target} {w h ss ds : Nat} {src : Buf} {dst : Dst}
    (hw : 0 < w) (hsb : 3 * w ≤ ss) (hdb : 4 * w ≤ ds)
    (hsl : src.len + ss < 2 ^ t.bits) (hdl : dst.len + ds < 2 ^ t.bits)
    (hs : ∀ y, y < h → ss * y + 3 * w ≤ src.len)
    (hd : ∀ y, y < h → ds * y + 4 * w ≤ dst.len) (n y : Nat) (hn : y + n = h) :
    Emits (rgb_to_bgra_lines t w h (ss - 3 * w) (ds - 4 * w) src dst y n (ss * y) (ds * y)) ()
      (fun p => ∃ i, i < n ∧ Row dst (ds * (y + i)) (4 * w) (rev4 src (ss * (y + i))) p) := by
  induction n generalizing y with
  | zero => exact (Emits.pure ()).congr (by simp)
  | succ n ih =>
    unfold rgb_to_bgra_lines
    refine ((rgb_to_bgra_line_emits hw hsb hdb (by omega) hsl hdl hs hd).bind
      (ih (y + 1) (by omega))).congr fun p => ?_
    constructor
    · rintro (h | ⟨i, hi, h⟩)
      · exact ⟨0, by omega, h⟩
      · exact ⟨i + 1, by omega, by rwa [show y + (i + 1) = y + 1 + i by omega]⟩
    · rintro ⟨i, hi, h⟩
      cases i with
      | zero => exact .inl h
      | succ i => exact .inr ⟨i, by omega, by rwa [show y + 1 + i = y + (i + 1) by omega]⟩

theorem rgb_to_bgra_emits {t : Target} {w h ss ds : Nat} {src : Buf} {d : Dst}
    (hw : 0 < w) (hsb : 3 * w ≤ ss) (hdb : 4 * w ≤ ds)
    (hsl : src.len + ss < 2 ^ t.bits) (hdl : d.len + ds < 2 ^ t.bits)
    (hs : ∀ y, y < h → ss * y + 3 * w ≤ src.len)
    (hd : ∀ y, y < h → ds * y + 4 * w ≤ d.len) :
    Emits (rgb_to_bgra t w h ss src ds d) () (GRgb .rgb .bgra src ss w h ds d) := by
  unfold rgb_to_bgra
  simp only [K.liftM_eq, mul_ok (t := t) (show 4 * w < 2 ^ t.bits by omega),
    mul_ok (t := t) (show 3 * w < 2 ^ t.bits by omega), K.lift_ok, pure_bind]
  rw [sub_ok hsb, sub_ok hdb]
  simp only [K.lift_ok, pure_bind]
  have := rgb_to_bgra_lines_emits hw hsb hdb hsl hdl hs hd h 0 (by omega)
  simp only [Nat.mul_zero, Nat.zero_add] at this
  refine this.congr fun p => ?_
  unfold GRgb
  rw [rect_rows]
  simp only [Spec.bpp]
  constructor
  · rintro ⟨y, hy, h⟩
    exact ⟨y, hy, (Row.congr (fun j _ => rev4_rgb src ss y j) p).1 h⟩
  · rintro ⟨y, hy, h⟩
    exact ⟨y, hy, (Row.congr (fun j _ => rev4_rgb src ss y j) p).2 h⟩

end X86
end Verif
