import Verif.Props.Simd
import Verif.Props.Numeric
/-!
# C78, C79: chroma subsampling

A 4:2:0 image and a 4:4:4 image of the same picture: how their chroma samples are related when they
are encoded, and that decoding repeats every chroma sample of a 4:2:0 image over its 2x2 block.
-/

namespace Verif

open Spec (val byte)

variable {t : Target} {cpu cpu' : Cpu} {c c' : Call} {out out' : List Buf}

/-! ## C78: encoding -/

/-- Rounding of a chroma sum of `n` pixels, with ties up or down. -/
def tieRound (up : Prop) [Decidable up] (d n : Int) : Int :=
  if up then Spec.clamp (128 + Spec.roundUp d (n * 65536)) else 128 + Spec.roundDown d (n * 65536)

theorem tieRound_between (up : Prop) [Decidable up] (d : Fin 4 → Int) :
    (∃ i, tieRound up (d i) 1 ≤ tieRound up (d 0 + d 1 + d 2 + d 3) 4) ∧
    (∃ i, tieRound up (d 0 + d 1 + d 2 + d 3) 4 ≤ tieRound up (d i) 1) := by
  by_cases h : up
  · simp only [tieRound, if_pos h, Spec.roundUp, Spec.clamp]
    constructor <;> by_contra hn <;> rw [not_exists] at hn <;>
      have h0 := hn 0 <;> have h1 := hn 1 <;> have h2 := hn 2 <;> have h3 := hn 3 <;>
      omega
  · simp only [tieRound, if_neg h, Spec.roundDown]
    constructor <;> by_contra hn <;> rw [not_exists] at hn <;>
      have h0 := hn 0 <;> have h1 := hn 1 <;> have h2 := hn 2 <;> have h3 := hn 3 <;>
      omega

/-- The pixels of the 2x2 block of `(x, y)`. -/
def blockX (x : Nat) (i : Fin 4) : Nat := 2 * (x / 2) + i.val % 2
@[inherit_doc blockX] def blockY (y : Nat) (i : Fin 4) : Nat := 2 * (y / 2) + i.val / 2

/-- Weighted sum of the components of pixel `i` of the block of `(x, y)`. -/
def blockDot (k : Int × Int × Int) (im : Spec.RgbImage) (x y : Nat) (i : Fin 4) : Int :=
  Spec.dot k (val (im.r (blockX x i) (blockY y i))) (val (im.g (blockX x i) (blockY y i)))
    (val (im.b (blockX x i) (blockY y i)))

theorem dot_sum4 (k : Int × Int × Int) (im : Spec.RgbImage) (x y : Nat) :
    Spec.dot k (Spec.sum4 im.r (x / 2) (y / 2)) (Spec.sum4 im.g (x / 2) (y / 2))
      (Spec.sum4 im.b (x / 2) (y / 2)) =
    blockDot k im x y 0 + blockDot k im x y 1 + blockDot k im x y 2 + blockDot k im x y 3 := by
  simp only [blockDot, Spec.dot, Spec.sum4, blockX, blockY]
  have e1 : ((1 : Fin 4).val % 2 = 1 ∧ (1 : Fin 4).val / 2 = 0) := by decide
  have e2 : ((2 : Fin 4).val % 2 = 0 ∧ (2 : Fin 4).val / 2 = 1) := by decide
  have e3 : ((3 : Fin 4).val % 2 = 1 ∧ (3 : Fin 4).val / 2 = 1) := by decide
  have e0 : ((0 : Fin 4).val % 2 = 0 ∧ (0 : Fin 4).val / 2 = 0) := by decide
  rw [e0.1, e0.2, e1.1, e1.2, e2.1, e2.2, e3.1, e3.2]
  simp only [Nat.add_zero]
  ring

/-- Whether the chroma of column `x` is rounded with ties up. -/
def TiesUp (cpu : Cpu) (c : Call) (x : Nat) : Prop :=
  cpu.set = .neon ∧ x < 8 * (c.width.toNat / 8)

instance (cpu : Cpu) (c : Call) (x : Nat) : Decidable (TiesUp cpu c x) := by
  unfold TiesUp; infer_instance

/-- Stored 4:2:0 chroma, with the rounding. -/
theorem chroma420 (hv : Spec.Valid t c) (hk : c.Encodes)
    (hd : c.dst_format.pixel_format = .i420 ∨ c.dst_format.pixel_format = .nv12)
    (ho : Stores t crate cpu c out) {x y : Nat} (hp : c.Pixel x y) :
    let d := fun k => Spec.dot k (Spec.sum4 c.rgbIn.r (x / 2) (y / 2))
      (Spec.sum4 c.rgbIn.g (x / 2) (y / 2)) (Spec.sum4 c.rgbIn.b (x / 2) (y / 2))
    val ((c.yuvOut out).cb x y) =
      tieRound (TiesUp cpu c x) (d (Spec.cbCoef (Spec.std c.dst_format.color_space))) 4 ∧
    val ((c.yuvOut out).cr x y) =
      tieRound (TiesUp cpu c x) (d (Spec.crCoef (Spec.std c.dst_format.color_space))) 4 := by
  have hr4 := isSum4 c.rgbIn.r (x / 2) (y / 2)
  have hg4 := isSum4 c.rgbIn.g (x / 2) (y / 2)
  have hb4 := isSum4 c.rgbIn.b (x / 2) (y / 2)
  have z : IsByte 0 := by unfold IsByte; omega
  obtain ⟨-, -, -, n4, n5⟩ := C35_full (Spec.std c.dst_format.color_space) z z z hr4 hg4 hb4
  obtain ⟨⟨-, -, m4, m5⟩, -⟩ := C35_ties (Spec.std c.dst_format.color_space) z z z hr4 hg4 hb4
  by_cases hn : cpu.set = .neon
  · obtain ⟨h1, h2⟩ := C21_chroma_420_neon hv hk hn hd ho hp
    rw [h1, h2]
    by_cases hx : x < 8 * (c.width.toNat / 8)
    · rw [if_pos (by omega), if_pos (by omega), val_byte m4, val_byte m5]
      simp only [tieRound, TiesUp, hn, hx, and_self, if_true]
      exact ⟨rfl, rfl⟩
    · rw [if_neg (by omega), if_neg (by omega), val_byte n4, val_byte n5]
      simp only [tieRound, TiesUp, hx, and_false, if_false]
      exact ⟨rfl, rfl⟩
  · obtain ⟨h1, h2⟩ := C21_chroma_420_partial hv hk hn hd ho hp
    rw [h1, h2, val_byte n4, val_byte n5]
    simp only [tieRound, TiesUp, hn, false_and, if_false]
    exact ⟨rfl, rfl⟩

/-- Stored 4:4:4 chroma, with the rounding. -/
theorem chroma444 (hv : Spec.Valid t c) (hk : c.Encodes)
    (hd : c.dst_format.pixel_format = .i444)
    (ho : Stores t crate cpu c out) {x y : Nat} (hp : c.Pixel x y) :
    let d := fun k => Spec.dot k (val (c.rgbIn.r x y)) (val (c.rgbIn.g x y)) (val (c.rgbIn.b x y))
    val ((c.yuvOut out).cb x y) =
      tieRound (TiesUp cpu c x) (d (Spec.cbCoef (Spec.std c.dst_format.color_space))) 1 ∧
    val ((c.yuvOut out).cr x y) =
      tieRound (TiesUp cpu c x) (d (Spec.crCoef (Spec.std c.dst_format.color_space))) 1 := by
  have hr := isByte_val (c.rgbIn.r x y)
  have hg := isByte_val (c.rgbIn.g x y)
  have hb := isByte_val (c.rgbIn.b x y)
  have z : IsSum4 0 := by unfold IsSum4; omega
  obtain ⟨-, n4, n5, -, -⟩ := C35_full (Spec.std c.dst_format.color_space) hr hg hb z z z
  obtain ⟨⟨m4, m5, -, -⟩, -⟩ := C35_ties (Spec.std c.dst_format.color_space) hr hg hb z z z
  by_cases hn : cpu.set = .neon
  · obtain ⟨h1, h2⟩ := C22_chroma_444_neon hv hk hn hd ho hp
    rw [h1, h2]
    by_cases hx : x < 8 * (c.width.toNat / 8)
    · rw [if_pos hx, if_pos hx, val_byte m4, val_byte m5]
      simp only [tieRound, TiesUp, hn, hx, and_self, if_true]
      exact ⟨rfl, rfl⟩
    · rw [if_neg hx, if_neg hx, val_byte n4, val_byte n5]
      simp only [tieRound, TiesUp, hx, and_false, if_false]
      exact ⟨rfl, rfl⟩
  · obtain ⟨h1, h2⟩ := C22_chroma_444_partial hv hk hn hd ho hp
    rw [h1, h2, val_byte n4, val_byte n5]
    simp only [tieRound, TiesUp, hn, false_and, if_false]
    exact ⟨rfl, rfl⟩

/-- The two pixels share a 2x2 block. -/
def Spec.SameBlock (x y x' y' : Nat) : Prop := x' / 2 = x / 2 ∧ y' / 2 = y / 2

/-- Two calls encode the same picture to a 4:2:0 and to a 4:4:4 format of the same colour space; the
layouts of the sources may differ. -/
structure Spec.SamePicture (c c' : Call) : Prop where
  width : c'.width = c.width
  height : c'.height = c.height
  space : c'.dst_format.color_space = c.dst_format.color_space
  sub : c.dst_format.pixel_format = .i420 ∨ c.dst_format.pixel_format = .nv12
  full : c'.dst_format.pixel_format = .i444
  rgb : ∀ x y, c.Pixel x y → Spec.RgbAt c.rgbIn c'.rgbIn x y

section
variable (hp : Spec.SamePicture c c')
include hp

/-- Chroma of the block and of its four pixels, by one coefficient vector each for Cb and Cr. -/
theorem block_chroma (hv : Spec.Valid t c) (hk : c.Encodes) (hv' : Spec.Valid t c') (hk' : c'.Encodes)
    (ho : Stores t crate cpu c out) (ho' : Stores t crate cpu' c' out')
    {x y : Nat} (hxy : c.Pixel x y) : ∃ db dr : Fin 4 → Int,
    (val ((c.yuvOut out).cb x y) = tieRound (TiesUp cpu c x) (db 0 + db 1 + db 2 + db 3) 4 ∧
      val ((c.yuvOut out).cr x y) = tieRound (TiesUp cpu c x) (dr 0 + dr 1 + dr 2 + dr 3) 4) ∧
    ∀ i, c.Pixel (blockX x i) (blockY y i) ∧
      Spec.SameBlock x y (blockX x i) (blockY y i) ∧
      db i = blockDot (Spec.cbCoef (Spec.std c.dst_format.color_space)) c.rgbIn x y i ∧
      dr i = blockDot (Spec.crCoef (Spec.std c.dst_format.color_space)) c.rgbIn x y i ∧
      val ((c'.yuvOut out').cb (blockX x i) (blockY y i)) = tieRound (TiesUp cpu' c x) (db i) 1 ∧
      val ((c'.yuvOut out').cr (blockX x i) (blockY y i)) = tieRound (TiesUp cpu' c x) (dr i) 1 := by
  obtain ⟨h1, h2⟩ := chroma420 hv hk hp.sub ho hxy
  simp only [dot_sum4] at h1 h2
  refine ⟨blockDot (Spec.cbCoef (Spec.std c.dst_format.color_space)) c.rgbIn x y,
    blockDot (Spec.crCoef (Spec.std c.dst_format.color_space)) c.rgbIn x y, ⟨h1, h2⟩, fun i => ?_⟩
  have hev : c.width.toNat % 2 = 0 ∧ c.height.toNat % 2 = 0 := by
    have := hv.dst_legal.size
    rcases hp.sub with h | h <;> rw [h] at this <;> simp only [Spec.SizeOk] at this <;> omega
  have hpx : c.Pixel (blockX x i) (blockY y i) := by
    unfold Call.Pixel blockX blockY at *
    have := i.isLt
    omega
  have hpx' : c'.Pixel (blockX x i) (blockY y i) := by
    unfold Call.Pixel at *; rw [hp.width, hp.height]; exact hpx
  obtain ⟨g1, g2⟩ := chroma444 hv' hk' hp.full ho' hpx'
  obtain ⟨e1, e2, e3⟩ := hp.rgb _ _ hpx
  simp only [← e1, ← e2, ← e3, hp.space] at g1 g2
  have ht : TiesUp cpu' c' (blockX x i) ↔ TiesUp cpu' c x := by
    unfold TiesUp blockX
    rw [hp.width]
    have := i.isLt
    have : 2 * (x / 2) + i.val % 2 < 8 * (c.width.toNat / 8) ↔ x < 8 * (c.width.toNat / 8) := by omega
    rw [this]
  refine ⟨hpx, ⟨by unfold blockX; omega, by unfold blockY; have := i.isLt; omega⟩, rfl, rfl, ?_, ?_⟩
  · rw [g1]; simp only [tieRound, ht, blockDot]
  · rw [g2]; simp only [tieRound, ht, blockDot]

end

theorem tieRound_flat (up : Prop) [Decidable up] (d : Int) :
    tieRound up (d + d + d + d) 4 = tieRound up d 1 := by
  unfold tieRound Spec.roundUp Spec.roundDown
  split
  · congr 2; omega
  · congr 2; omega

/-- The two roundings differ by at most one. -/
theorem tieRound_near (up up' : Prop) [Decidable up] [Decidable up'] (d : Int)
    (h : IsByte (tieRound up d 1)) (h' : IsByte (tieRound up' d 1)) :
    tieRound up d 1 ≤ tieRound up' d 1 + 1 := by
  by_cases u : up <;> by_cases u' : up' <;>
    simp only [tieRound, u, u', if_true, if_false, Spec.roundUp, Spec.roundDown, Spec.clamp, IsByte] at * <;>
    omega

theorem isByte_tieRound (up : Prop) [Decidable up] (s : Spec.Std) {r g b : Int} (hr : IsByte r)
    (hg : IsByte g) (hb : IsByte b) : IsByte (tieRound up (Spec.dot (Spec.cbCoef s) r g b) 1) ∧
    IsByte (tieRound up (Spec.dot (Spec.crCoef s) r g b) 1) := by
  have z : IsSum4 0 := by unfold IsSum4; omega
  obtain ⟨-, n4, n5, -, -⟩ := C35_full s hr hg hb z z z
  obtain ⟨⟨m4, m5, -, -⟩, -⟩ := C35_ties s hr hg hb z z z
  unfold tieRound
  split
  · exact ⟨m4, m5⟩
  · exact ⟨n4, n5⟩

theorem le_of_val {a b : UInt8} (h : val a ≤ val b) : a ≤ b := by
  unfold val at h
  rw [UInt8.le_iff_toNat_le]
  omega

/-- C78: a chroma sample of the 4:2:0 image lies between the smallest and the largest of the four
4:4:4 samples of its block (both encoded with, or both without, NEON). -/
theorem C78_between (hp : Spec.SamePicture c c') (hs : cpu.set = .neon ↔ cpu'.set = .neon)
    (hv : Spec.Valid t c) (hk : c.Encodes) (hv' : Spec.Valid t c') (hk' : c'.Encodes)
    (ho : Stores t crate cpu c out) (ho' : Stores t crate cpu' c' out')
    {x y : Nat} (hxy : c.Pixel x y) :
    (∃ x₁ y₁ x₂ y₂, Spec.SameBlock x y x₁ y₁ ∧ Spec.SameBlock x y x₂ y₂ ∧
      (c'.yuvOut out').cb x₁ y₁ ≤ (c.yuvOut out).cb x y ∧
      (c.yuvOut out).cb x y ≤ (c'.yuvOut out').cb x₂ y₂) ∧
    (∃ x₁ y₁ x₂ y₂, Spec.SameBlock x y x₁ y₁ ∧ Spec.SameBlock x y x₂ y₂ ∧
      (c'.yuvOut out').cr x₁ y₁ ≤ (c.yuvOut out).cr x y ∧
      (c.yuvOut out).cr x y ≤ (c'.yuvOut out').cr x₂ y₂) := by
  obtain ⟨db, dr, ⟨h1, h2⟩, hi⟩ := block_chroma hp hv hk hv' hk' ho ho' hxy
  have ht : TiesUp cpu' c x ↔ TiesUp cpu c x := by unfold TiesUp; rw [hs]
  simp only [tieRound, ht] at hi
  obtain ⟨⟨i, bi⟩, j, bj⟩ := tieRound_between (TiesUp cpu c x) db
  obtain ⟨⟨k, rk⟩, l, rl⟩ := tieRound_between (TiesUp cpu c x) dr
  rw [← h1] at bi bj
  rw [← h2] at rk rl
  refine ⟨⟨_, _, _, _, (hi i).2.1, (hi j).2.1, le_of_val ?_, le_of_val ?_⟩,
    _, _, _, _, (hi k).2.1, (hi l).2.1, le_of_val ?_, le_of_val ?_⟩
  · exact (hi i).2.2.2.2.1.le.trans bi
  · exact bj.trans (hi j).2.2.2.2.1.ge
  · exact (hi k).2.2.2.2.2.le.trans rk
  · exact rl.trans (hi l).2.2.2.2.2.ge

/-- C78: on any two processors the bounds hold up to one code. -/
theorem C78_near (hp : Spec.SamePicture c c')
    (hv : Spec.Valid t c) (hk : c.Encodes) (hv' : Spec.Valid t c') (hk' : c'.Encodes)
    (ho : Stores t crate cpu c out) (ho' : Stores t crate cpu' c' out')
    {x y : Nat} (hxy : c.Pixel x y) :
    (∃ x₁ y₁ x₂ y₂, Spec.SameBlock x y x₁ y₁ ∧ Spec.SameBlock x y x₂ y₂ ∧
      val ((c'.yuvOut out').cb x₁ y₁) - 1 ≤ val ((c.yuvOut out).cb x y) ∧
      val ((c.yuvOut out).cb x y) ≤ val ((c'.yuvOut out').cb x₂ y₂) + 1) ∧
    (∃ x₁ y₁ x₂ y₂, Spec.SameBlock x y x₁ y₁ ∧ Spec.SameBlock x y x₂ y₂ ∧
      val ((c'.yuvOut out').cr x₁ y₁) - 1 ≤ val ((c.yuvOut out).cr x y) ∧
      val ((c.yuvOut out).cr x y) ≤ val ((c'.yuvOut out').cr x₂ y₂) + 1) := by
  obtain ⟨db, dr, ⟨h1, h2⟩, hi⟩ := block_chroma hp hv hk hv' hk' ho ho' hxy
  obtain ⟨⟨i, bi⟩, j, bj⟩ := tieRound_between (TiesUp cpu c x) db
  obtain ⟨⟨k, rk⟩, l, rl⟩ := tieRound_between (TiesUp cpu c x) dr
  rw [← h1] at bi bj
  rw [← h2] at rk rl
  have bb : ∀ (up : Prop) [Decidable up] i, IsByte (tieRound up (db i) 1) := fun up _ i => by
    rw [(hi i).2.2.1, blockDot]; exact (isByte_tieRound up _ (isByte_val _) (isByte_val _) (isByte_val _)).1
  have br : ∀ (up : Prop) [Decidable up] i, IsByte (tieRound up (dr i) 1) := fun up _ i => by
    rw [(hi i).2.2.2.1, blockDot]; exact (isByte_tieRound up _ (isByte_val _) (isByte_val _) (isByte_val _)).2
  refine ⟨⟨_, _, _, _, (hi i).2.1, (hi j).2.1, ?_, ?_⟩, _, _, _, _, (hi k).2.1, (hi l).2.1, ?_, ?_⟩
  · rw [(hi i).2.2.2.2.1]
    have := tieRound_near (TiesUp cpu' c x) (TiesUp cpu c x) _ (bb _ i) (bb _ i)
    omega
  · rw [(hi j).2.2.2.2.1]
    have := tieRound_near (TiesUp cpu c x) (TiesUp cpu' c x) _ (bb _ j) (bb _ j)
    omega
  · rw [(hi k).2.2.2.2.2]
    have := tieRound_near (TiesUp cpu' c x) (TiesUp cpu c x) _ (br _ k) (br _ k)
    omega
  · rw [(hi l).2.2.2.2.2]
    have := tieRound_near (TiesUp cpu c x) (TiesUp cpu' c x) _ (br _ l) (br _ l)
    omega

/-- C78: a block of one colour has the chroma of its pixels. -/
theorem C78_flat (hp : Spec.SamePicture c c') (hs : cpu.set = .neon ↔ cpu'.set = .neon)
    (hv : Spec.Valid t c) (hk : c.Encodes) (hv' : Spec.Valid t c') (hk' : c'.Encodes)
    (ho : Stores t crate cpu c out) (ho' : Stores t crate cpu' c' out')
    {x y : Nat} (hxy : c.Pixel x y)
    (hf : ∀ x' y', Spec.SameBlock x y x' y' → c.rgbIn.r x' y' = c.rgbIn.r x y ∧
      c.rgbIn.g x' y' = c.rgbIn.g x y ∧ c.rgbIn.b x' y' = c.rgbIn.b x y) :
    (c.yuvOut out).cb x y = (c'.yuvOut out').cb x y ∧
    (c.yuvOut out).cr x y = (c'.yuvOut out').cr x y := by
  obtain ⟨db, dr, ⟨h1, h2⟩, hi⟩ := block_chroma hp hv hk hv' hk' ho ho' hxy
  have hxy' : c'.Pixel x y := by
    unfold Call.Pixel at *; rw [hp.width, hp.height]; exact hxy
  obtain ⟨g1, g2⟩ := chroma444 hv' hk' hp.full ho' hxy'
  obtain ⟨e1, e2, e3⟩ := hp.rgb _ _ hxy
  simp only [← e1, ← e2, ← e3, hp.space] at g1 g2
  have ht : TiesUp cpu' c' x ↔ TiesUp cpu c x := by unfold TiesUp; rw [hs, hp.width]
  have hd : ∀ i, db i = Spec.dot (Spec.cbCoef (Spec.std c.dst_format.color_space))
      (val (c.rgbIn.r x y)) (val (c.rgbIn.g x y)) (val (c.rgbIn.b x y)) ∧
      dr i = Spec.dot (Spec.crCoef (Spec.std c.dst_format.color_space))
      (val (c.rgbIn.r x y)) (val (c.rgbIn.g x y)) (val (c.rgbIn.b x y)) := fun i => by
    obtain ⟨f1, f2, f3⟩ := hf _ _ (hi i).2.1
    rw [(hi i).2.2.1, (hi i).2.2.2.1, blockDot, blockDot, f1, f2, f3]
    exact ⟨rfl, rfl⟩
  simp only [(hd _).1, (hd _).2, tieRound_flat] at h1 h2
  simp only [tieRound, ht] at g1 g2
  simp only [tieRound] at h1 h2
  have inj : ∀ {a b : UInt8}, val a = val b → a = b := fun {a b} h => by
    unfold val at h
    exact UInt8.toNat_inj.1 (by omega)
  exact ⟨inj (h1.trans g1.symm), inj (h2.trans g2.symm)⟩

/-- The picture of `exEncode` encoded to I444. -/
def exEncodeFull : Call := { exEncode with
  dst_format := ⟨.i444, .bt601, 3⟩
  dst_strides := none
  dst_buffers := [noise 8 2, noise 8 3, noise 8 4] }

/-- The hypotheses of C78 are met. -/
example : Spec.SamePicture exEncode exEncodeFull ∧ Spec.Valid .x64 exEncodeFull ∧ exEncode.Encodes ∧
    exEncodeFull.Encodes ∧ exEncode.Pixel 3 1 :=
  ⟨⟨rfl, rfl, rfl, .inl rfl, rfl, fun _ _ _ => ⟨rfl, rfl, rfl⟩⟩, valid_of_check (by decide +kernel),
    by decide, by decide, by unfold Call.Pixel; decide⟩

/-! ## C79: decoding -/

/-- Two calls decode a 4:2:0 image and the 4:4:4 image that repeats its chroma samples over the 2x2
blocks (`yuvIn` of a 4:2:0 image is that image). The layouts and the RGB formats may differ. -/
structure Spec.Upsampled (c c' : Call) : Prop where
  width : c'.width = c.width
  height : c'.height = c.height
  space : c'.src_format.color_space = c.src_format.color_space
  sub : Spec.Is420 c.src_format.pixel_format
  full : c'.src_format.pixel_format = .i444
  luma : ∀ x y, c.Pixel x y → c'.yuvIn.y x y = c.yuvIn.y x y
  chroma : ∀ x y, c.Pixel x y → c'.yuvIn.cb x y = c.yuvIn.cb (2 * (x / 2)) (2 * (y / 2)) ∧
    c'.yuvIn.cr x y = c.yuvIn.cr (2 * (x / 2)) (2 * (y / 2))

/-- A 4:2:0 image has the same chroma on all pixels of a 2x2 block. -/
theorem sampled_chroma_block (h : Spec.Is420 c.src_format.pixel_format) (x y : Nat) :
    c.yuvIn.cb (2 * (x / 2)) (2 * (y / 2)) = c.yuvIn.cb x y ∧
    c.yuvIn.cr (2 * (x / 2)) (2 * (y / 2)) = c.yuvIn.cr x y := by
  have ex : 2 * (x / 2) / 2 = x / 2 := by omega
  have ey : 2 * (y / 2) / 2 = y / 2 := by omega
  rcases h with h | h <;> unfold Call.yuvIn Spec.readYuv <;> rw [h] <;> dsimp only
  · simp only [Spec.i420Image, ex, ey, and_self]
  · split <;> simp only [Spec.nv12Image, ex, ey, and_self]

theorem Spec.Upsampled.same (hu : Spec.Upsampled c c') {x y : Nat} (hp : c.Pixel x y) :
    Spec.YuvAt c.yuvIn c'.yuvIn x y := by
  obtain ⟨h1, h2⟩ := hu.chroma x y hp
  obtain ⟨h3, h4⟩ := sampled_chroma_block hu.sub x y
  exact ⟨(hu.luma x y hp).symm, (h1.trans h3).symm, (h2.trans h4).symm⟩

/-- C79, exact: red and green are the same; blue is the same if and only if it does not exceed the
16-bit range or both or none of the two decoders treat the column with vector instructions. -/
theorem C79_exact (hu : Spec.Upsampled c c') (hv : Spec.Valid t c) (hk : c.Decodes)
    (hv' : Spec.Valid t c') (hk' : c'.Decodes)
    (ho : Stores t crate cpu c out) (ho' : Stores t crate cpu' c' out')
    {x y : Nat} (hp : c.Pixel x y) :
    (c'.rgbOut out').r x y = (c.rgbOut out).r x y ∧
    (c'.rgbOut out').g x y = (c.rgbOut out).g x y ∧
    ((c'.rgbOut out').b x y = (c.rgbOut out).b x y ↔
      Spec.blueFix (Spec.std c.src_format.color_space) (val (c.yuvIn.y x y))
        (val (c.yuvIn.cb x y)) ≤ 32767 ∨
      (x < Spec.vectorColumns cpu.set c.src_format.pixel_format c.dst_format.pixel_format
          c.width.toNat ↔
        x < Spec.vectorColumns cpu'.set .i444 c'.dst_format.pixel_format c.width.toNat)) := by
  have hp' : c'.Pixel x y := by
    unfold Call.Pixel at *; rw [hu.width, hu.height]; exact hp
  obtain ⟨e1, e2, e3⟩ := hu.same hp
  obtain ⟨a1, a2, a3⟩ := C46_exact hv hk ho hp
  obtain ⟨b1, b2, b3⟩ := C46_exact hv' hk' ho' hp'
  rw [← e1, ← e3, hu.space] at b1
  rw [← e1, ← e2, ← e3, hu.space] at b2
  rw [← e1, ← e2, hu.space, hu.width, hu.full] at b3
  refine ⟨b1.trans a1.symm, b2.trans a2.symm, ?_⟩
  rw [a3, b3]
  by_cases hb : Spec.blueFix (Spec.std c.src_format.color_space) (val (c.yuvIn.y x y))
    (val (c.yuvIn.cb x y)) ≤ 32767
  · rw [if_neg (by omega), if_neg (by omega)]
    simp [hb]
  · have h6 : byte (Spec.blue (Spec.std c.src_format.color_space) (val (c.yuvIn.y x y))
        (val (c.yuvIn.cb x y))) = 255 := by
      have : Spec.blue (Spec.std c.src_format.color_space) (val (c.yuvIn.y x y))
        (val (c.yuvIn.cb x y)) = 255 := by unfold Spec.blue Spec.clamp; omega
      rw [this]; rfl
    have hb' : Spec.blueFix (Spec.std c.src_format.color_space) (val (c.yuvIn.y x y))
      (val (c.yuvIn.cb x y)) > 32767 := by omega
    rw [h6]
    simp only [hb, hb', and_true, false_or]
    generalize Spec.vectorColumns cpu.set _ _ _ = m
    generalize Spec.vectorColumns cpu'.set _ _ _ = n
    by_cases u : x < m <;> by_cases u' : x < n <;> simp [u, u']

/-- C79: decoding a 4:2:0 image gives the same pixels as decoding the 4:4:4 image with repeated chroma
samples, on any two processors; missing: limited-range images with luma above 235 or Cb above 240
(counterexample below, exact criterion above). -/
theorem C79_upsample_partial (hu : Spec.Upsampled c c') (hl : Spec.LegalCodes c)
    (hv : Spec.Valid t c) (hk : c.Decodes) (hv' : Spec.Valid t c') (hk' : c'.Decodes)
    (ho : Stores t crate cpu c out) (ho' : Stores t crate cpu' c' out')
    {x y : Nat} (hp : c.Pixel x y) : Spec.RgbAt (c.rgbOut out) (c'.rgbOut out') x y := by
  obtain ⟨h1, h2, h3⟩ := C79_exact hu hv hk hv' hk' ho ho' hp
  refine ⟨h1.symm, h2.symm, (h3.2 (.inl ?_)).symm⟩
  refine blueFix_small (val_range _) (val_range _) ?_
  rcases hl with h | h
  · exact .inl h
  · obtain ⟨h1, h2⟩ := h x y hp
    rw [UInt8.le_iff_toNat_le] at h1 h2
    refine .inr ⟨?_, ?_⟩ <;> unfold val
    · exact_mod_cast h1
    · exact_mod_cast h2

/-- C79 without x86 vector instructions: always. -/
theorem C79_upsample_scalar (hu : Spec.Upsampled c c') (hs : cpu.set = .x86 ∨ cpu.set = .neon)
    (hs' : cpu'.set = .x86 ∨ cpu'.set = .neon)
    (hv : Spec.Valid t c) (hk : c.Decodes) (hv' : Spec.Valid t c') (hk' : c'.Decodes)
    (ho : Stores t crate cpu c out) (ho' : Stores t crate cpu' c' out')
    {x y : Nat} (hp : c.Pixel x y) : Spec.RgbAt (c.rgbOut out) (c'.rgbOut out') x y := by
  obtain ⟨h1, h2, h3⟩ := C79_exact hu hv hk hv' hk' ho ho' hp
  refine ⟨h1.symm, h2.symm, (h3.2 (.inr ?_)).symm⟩
  have z : ∀ {s : InstructionSet} (p d : PixelFormat) (w : Nat), s = .x86 ∨ s = .neon →
      Spec.vectorColumns s p d w = 0 := by
    rintro s p d w (rfl | rfl) <;> rfl
  rw [z _ _ _ hs, z _ _ _ hs']

/-- An 8x2 I444 image, all codes 255, decoded, and the same image in I420. -/
def exBright (cs : ColorSpace) : Call where
  width := 8
  height := 2
  src_format := ⟨.i444, cs, 3⟩
  src_strides := none
  src_buffers := [⟨16, fun _ => 255⟩, ⟨16, fun _ => 255⟩, ⟨16, fun _ => 255⟩]
  dst_format := ⟨.bgra, .rgb, 1⟩
  dst_strides := none
  dst_buffers := [noise 64 2]

@[inherit_doc exBright] def exBright420 (cs : ColorSpace) : Call := { exBright cs with
  src_format := ⟨.i420, cs, 3⟩
  src_buffers := [⟨16, fun _ => 255⟩, ⟨4, fun _ => 255⟩, ⟨4, fun _ => 255⟩] }

theorem exBright_upsampled (cs : ColorSpace) : Spec.Upsampled (exBright420 cs) (exBright cs) :=
  ⟨rfl, rfl, rfl, .inl rfl, rfl, fun _ _ _ => rfl, fun _ _ _ => ⟨rfl, rfl⟩⟩

/-- **C79 is false**: with SSE2, the I444 image of codes 255 in BT.709 gets blue 0, the I420 image of
the same codes gets blue 255. -/
theorem C79_counterexample : Spec.Valid .x64 (exBright420 .bt709) ∧ Spec.Valid .x64 (exBright .bt709) ∧
    Spec.Upsampled (exBright420 .bt709) (exBright .bt709) ∧
    (∀ out, Stores .x64 crate sse2Cpu (exBright .bt709) out →
      ((exBright .bt709).rgbOut out).b 0 0 = 0) ∧
    (∀ out, Stores .x64 crate sse2Cpu (exBright420 .bt709) out →
      ((exBright420 .bt709).rgbOut out).b 0 0 = 255) := by
  have hv : Spec.Valid .x64 (exBright420 .bt709) := valid_of_check (by decide +kernel)
  have hv' : Spec.Valid .x64 (exBright .bt709) := valid_of_check (by decide +kernel)
  refine ⟨hv, hv', exBright_upsampled _, fun out ho => ?_, fun out ho => ?_⟩
  · rw [(C46_exact hv' (by unfold Call.Decodes; decide) ho (x := 0) (y := 0)
      (by unfold Call.Pixel; decide)).2.2]
    decide
  · rw [(C46_exact hv (by unfold Call.Decodes; decide) ho (x := 0) (y := 0)
      (by unfold Call.Pixel; decide)).2.2]
    decide

/-- The hypotheses of C79 are met: the same images in full range. -/
example : Spec.Upsampled (exBright420 .bt709FR) (exBright .bt709FR) ∧
    Spec.LegalCodes (exBright420 .bt709FR) ∧ Spec.Valid .x64 (exBright420 .bt709FR) ∧
    Spec.Valid .x64 (exBright .bt709FR) ∧ (exBright .bt709FR).Decodes :=
  ⟨exBright_upsampled _, .inl rfl, valid_of_check (by decide +kernel),
    valid_of_check (by decide +kernel), by unfold Call.Decodes; decide⟩

end Verif
