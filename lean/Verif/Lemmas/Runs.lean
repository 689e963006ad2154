import Verif.Lemmas.Pixels
import Verif.Spec.Result
/-! # The image stored by a valid call -/

namespace Verif

open Spec (bytesAt strideOf dims painted)

/-- The kernels selected for the processor implement the arithmetic `S`, the call is valid and the
source has the room `S` asks for. -/
structure Runs (t : Target) (impls : InstructionSet → Impl) (cpu : Cpu) (S : Sem) (c : Call) :
    Prop where
  impl : ImplOk t (impls cpu.set) S
  valid : Spec.Valid t c
  room : Spec.isRgb c.dst_format.pixel_format = false → S.room c.src_format.pixel_format
    c.width.toNat c.height.toNat (strideOf c.src_strides 0
      (Spec.bpp c.src_format.pixel_format * c.width.toNat)) (bufAt c.src_buffers 0).len

variable {t : Target} {impls : InstructionSet → Impl} {cpu : Cpu} {S : Sem} {c : Call}

/-- The destination buffers after a valid call. -/
def Sem.out (S : Sem) (c : Call) : List Buf :=
  painted c.dst_format c.width c.height c.dst_strides
    (S.resultPlanes c.width c.height c.src_format c.src_strides c.src_buffers c.dst_format)
    c.dst_buffers

theorem Runs.stores (hr : Runs t impls cpu S c) : Stores t impls cpu c (S.out c) :=
  convert_sem hr.impl hr.valid hr.room

theorem Stores.eq {out out' : List Buf} (h : Stores t impls cpu c out)
    (h' : Stores t impls cpu c out') : out' = out := by
  unfold Stores at h h'
  rw [h] at h'
  injection h' with h'
  injection h' with _ h'
  exact h'.symm

theorem Runs.out_eq (hr : Runs t impls cpu S c) {out : List Buf} (h : Stores t impls cpu c out) :
    out = S.out c := hr.stores.eq h

theorem Runs.encode (hr : Runs t impls cpu S c) (hk : c.Encodes) {x y : Nat} (hp : c.Pixel x y) :
    Spec.YuvAt (c.yuvOut (S.out c)) (S.encoded c.src_format.pixel_format c.width.toNat
      c.dst_format.pixel_format (Spec.std c.dst_format.color_space) c.rgbIn) x y := by
  unfold Call.yuvOut Sem.out Sem.resultPlanes
  simp only [hk.1, hk.2, if_true, Bool.false_eq_true, if_false]
  refine readYuv_painted hr.valid.dst_legal ?_ hk.2 hr.valid.dst_fits hp.1 hp.2
  have := hr.valid.supported
  revert this
  cases c.src_format.pixel_format <;> cases c.dst_format.pixel_format <;> decide

theorem Runs.decode (hr : Runs t impls cpu S c) (hk : c.Decodes) {x y : Nat} (hp : c.Pixel x y) :
    Spec.RgbAt (c.rgbOut (S.out c)) (S.dec c.src_format.pixel_format c.dst_format.pixel_format
      c.width.toNat (Spec.std c.src_format.color_space) c.yuvIn) x y := by
  unfold Call.rgbOut Sem.out Sem.resultPlanes
  simp only [hk.1, Bool.false_eq_true, if_false]
  exact readRgb_painted hr.valid.dst_legal hk.2 hr.valid.dst_fits hp.1 hp.2

theorem Runs.shuffle (hr : Runs t impls cpu S c) (hk : c.Shuffles) {x y : Nat} (hp : c.Pixel x y) :
    Spec.RgbAt (c.rgbOut (S.out c)) c.rgbIn x y := by
  unfold Call.rgbOut Sem.out Sem.resultPlanes
  simp only [hk.1, hk.2, if_true]
  exact readRgb_painted hr.valid.dst_legal hk.2 hr.valid.dst_fits hp.1 hp.2

/-- Alpha of a stored pixel. -/
theorem Runs.alpha (hr : Runs t impls cpu S c)
    (hd : c.dst_format.pixel_format = .bgra ∨ c.dst_format.pixel_format = .rgba) {x y : Nat}
    (hp : c.Pixel x y) :
    bytesAt (S.out c) 0 (strideOf c.dst_strides 0 (4 * c.width.toNat) * y + 4 * x + 3) = 255 := by
  have key : ∃ im, S.resultPlanes c.width c.height c.src_format c.src_strides c.src_buffers
      c.dst_format = [Spec.rgbRow c.dst_format.pixel_format im] := by
    unfold Sem.resultPlanes
    split
    · rw [if_pos (by rcases hd with hd | hd <;> rw [hd] <;> rfl)]
      exact ⟨_, rfl⟩
    · exact ⟨_, rfl⟩
  obtain ⟨im, e⟩ := key
  have hrgb : Spec.isRgb c.dst_format.pixel_format = true := by
    rcases hd with hd | hd <;> rw [hd] <;> rfl
  have hbpp : Spec.bpp c.dst_format.pixel_format = 4 := by
    rcases hd with hd | hd <;> rw [hd] <;> rfl
  have := rgb_byte (im := im) hr.valid.dst_legal hrgb hr.valid.dst_fits hp.1 hp.2 (k := 3)
    (by omega)
  rw [hbpp] at this
  rw [Sem.out, e, this]
  rcases hd with hd | hd <;> rw [hd] <;> rfl

/-- Nothing outside the image changes. -/
theorem Runs.frame {i k : Nat}
    (hk : ∀ rc, (dims c.dst_format.pixel_format c.dst_format.num_planes.toNat c.width.toNat
      c.height.toNat)[i]? = some rc →
      ∀ y, y < rc.2 → ∀ j, j < rc.1 → k ≠ strideOf c.dst_strides i rc.1 * y + j) :
    bytesAt (S.out c) i k = bytesAt c.dst_buffers i k := painted_miss hk

theorem Sem.out_len (i : Nat) : (S.out c)[i]?.map Buf.len = c.dst_buffers[i]?.map Buf.len := by
  unfold Sem.out painted
  rw [List.getElem?_mapIdx]
  cases c.dst_buffers[i]? with
  | none => rfl
  | some b =>
    simp only [Option.map_some, Option.some.injEq]
    split <;> rfl

/-- Two calls with the same destination whose source images agree on every pixel store the same
bytes (the formats of the sources must be the same, so that the same arithmetic is used). -/
theorem Sem.out_congr {sf' : ImageFormat} {ss' : Option (List Nat)} {sb' : List Buf}
    (hS : Spec.isRgb c.src_format.pixel_format = true → ∀ x s r g b,
      S.cb c.src_format.pixel_format c.width.toNat x s r g b =
        S.cb sf'.pixel_format c.width.toNat x s r g b ∧
      S.cr c.src_format.pixel_format c.width.toNat x s r g b =
        S.cr sf'.pixel_format c.width.toNat x s r g b ∧
      S.cbAvg c.src_format.pixel_format c.width.toNat x s r g b =
        S.cbAvg sf'.pixel_format c.width.toNat x s r g b ∧
      S.crAvg c.src_format.pixel_format c.width.toNat x s r g b =
        S.crAvg sf'.pixel_format c.width.toNat x s r g b)
    (hB : ∀ x s y b, S.blue c.src_format.pixel_format c.dst_format.pixel_format c.width.toNat x s y b
      = S.blue sf'.pixel_format c.dst_format.pixel_format c.width.toNat x s y b)
    (hk : Spec.isRgb sf'.pixel_format = Spec.isRgb c.src_format.pixel_format)
    (hcs : sf'.color_space = c.src_format.color_space)
    (hl : Spec.Legal c.dst_format c.width c.height) (hn : c.dst_format.pixel_format ≠ .i422)
    (hrgb : Spec.isRgb c.src_format.pixel_format = true → ∀ x y, c.Pixel x y →
      Spec.RgbAt c.rgbIn (Spec.readRgb sf' c.width ss' sb') x y)
    (hyuv : Spec.isRgb c.src_format.pixel_format = false →
      Spec.isRgb c.dst_format.pixel_format = true ∧ ∀ x y, c.Pixel x y →
      Spec.YuvAt c.yuvIn (Spec.readYuv sf' c.width c.height ss' sb') x y) :
    S.out { c with src_format := sf', src_strides := ss', src_buffers := sb' } = S.out c := by
  have hrow : ∀ (im im' : Spec.RgbImage), Spec.isRgb c.dst_format.pixel_format = true →
      (∀ x y, c.Pixel x y → Spec.RgbAt im im' x y) →
      painted c.dst_format c.width c.height c.dst_strides
        [Spec.rgbRow c.dst_format.pixel_format im'] c.dst_buffers =
      painted c.dst_format c.width c.height c.dst_strides
        [Spec.rgbRow c.dst_format.pixel_format im] c.dst_buffers := by
    intro im im' hd him
    refine painted_congr rfl ?_
    intro i rc g g' hrc hg hg' j hj y hy
    rw [rgb_dims hd] at hrc
    rcases i with _ | i
    · simp only [List.getElem?_cons_zero, Option.some.injEq] at hrc hg hg'
      subst hrc hg hg'
      have hb : 0 < Spec.bpp c.dst_format.pixel_format := by
        revert hd; cases c.dst_format.pixel_format <;> decide
      obtain ⟨h1, h2, h3⟩ := him (j / Spec.bpp c.dst_format.pixel_format) y
        ⟨Nat.div_lt_of_lt_mul hj, hy⟩
      simp only [Spec.rgbRow, h1, h2, h3]
    · simp at hrc
  unfold Sem.out Sem.resultPlanes
  simp only [hk]
  cases hs : Spec.isRgb c.src_format.pixel_format with
  | true =>
    have him := hrgb hs
    simp only [if_true]
    cases hd : Spec.isRgb c.dst_format.pixel_format with
    | true => exact hrow _ _ hd him
    | false =>
      simp only [Bool.false_eq_true, if_false]
      have hsz := hl.size
      have hpl := hl.planes
      -- the planes agree
      have hluma : ∀ s x y, c.Pixel x y → Spec.lumaPlane s (Spec.readRgb sf' c.width ss' sb') x y =
          Spec.lumaPlane s c.rgbIn x y := by
        intro s x y hp
        obtain ⟨h1, h2, h3⟩ := him x y hp
        simp only [Spec.lumaPlane, h1, h2, h3]
      have hcb : ∀ s x y, c.Pixel x y →
          S.cb444 sf'.pixel_format c.width.toNat s (Spec.readRgb sf' c.width ss' sb') x y =
          S.cb444 c.src_format.pixel_format c.width.toNat s c.rgbIn x y := by
        intro s x y hp
        obtain ⟨h1, h2, h3⟩ := him x y hp
        simp only [Sem.cb444, h1, h2, h3, (hS hs _ _ _ _ _).1]
      have hcr : ∀ s x y, c.Pixel x y →
          S.cr444 sf'.pixel_format c.width.toNat s (Spec.readRgb sf' c.width ss' sb') x y =
          S.cr444 c.src_format.pixel_format c.width.toNat s c.rgbIn x y := by
        intro s x y hp
        obtain ⟨h1, h2, h3⟩ := him x y hp
        simp only [Sem.cr444, h1, h2, h3, (hS hs _ _ _ _ _).2.1]
      have hsum : ∀ x y, x < c.width.toNat / 2 → y < c.height.toNat / 2 →
          Spec.sum4 (Spec.readRgb sf' c.width ss' sb').r x y = Spec.sum4 c.rgbIn.r x y ∧
          Spec.sum4 (Spec.readRgb sf' c.width ss' sb').g x y = Spec.sum4 c.rgbIn.g x y ∧
          Spec.sum4 (Spec.readRgb sf' c.width ss' sb').b x y = Spec.sum4 c.rgbIn.b x y := by
        intro x y hx hy
        obtain ⟨a1, a2, a3⟩ := him (2 * x) (2 * y) ⟨by omega, by omega⟩
        obtain ⟨b1, b2, b3⟩ := him (2 * x + 1) (2 * y) ⟨by omega, by omega⟩
        obtain ⟨c1, c2, c3⟩ := him (2 * x) (2 * y + 1) ⟨by omega, by omega⟩
        obtain ⟨d1, d2, d3⟩ := him (2 * x + 1) (2 * y + 1) ⟨by omega, by omega⟩
        simp only [Spec.sum4, a1, a2, a3, b1, b2, b3, c1, c2, c3, d1, d2, d3, and_self]
      have hcb' : ∀ s x y, x < c.width.toNat / 2 → y < c.height.toNat / 2 →
          S.cb420 sf'.pixel_format c.width.toNat s (Spec.readRgb sf' c.width ss' sb') x y =
          S.cb420 c.src_format.pixel_format c.width.toNat s c.rgbIn x y := by
        intro s x y hx hy
        obtain ⟨h1, h2, h3⟩ := hsum x y hx hy
        simp only [Sem.cb420, h1, h2, h3, (hS hs _ _ _ _ _).2.2.1]
      have hcr' : ∀ s x y, x < c.width.toNat / 2 → y < c.height.toNat / 2 →
          S.cr420 sf'.pixel_format c.width.toNat s (Spec.readRgb sf' c.width ss' sb') x y =
          S.cr420 c.src_format.pixel_format c.width.toNat s c.rgbIn x y := by
        intro s x y hx hy
        obtain ⟨h1, h2, h3⟩ := hsum x y hx hy
        simp only [Sem.cr420, h1, h2, h3, (hS hs _ _ _ _ _).2.2.2]
      have huv : ∀ s j y, c.width.toNat % 2 = 0 → j < c.width.toNat → y < c.height.toNat / 2 →
          Spec.interleave
            (S.cb420 sf'.pixel_format c.width.toNat s (Spec.readRgb sf' c.width ss' sb'))
            (S.cr420 sf'.pixel_format c.width.toNat s (Spec.readRgb sf' c.width ss' sb')) j y =
          Spec.interleave (S.cb420 c.src_format.pixel_format c.width.toNat s c.rgbIn)
            (S.cr420 c.src_format.pixel_format c.width.toNat s c.rgbIn) j y := by
        intro s j y hw hj hy
        unfold Spec.interleave
        rw [hcb' s _ _ (by omega) hy, hcr' s _ _ (by omega) hy]
      refine painted_congr ?_ ?_
      · unfold Sem.encodedPlanes
        simp only
        split <;> try rfl
        split <;> rfl
      · intro i rc g g' hrc hg hg' j hj y hy
        revert hrc hg hg' hd hn hsz hpl
        unfold Sem.encodedPlanes
        simp only
        generalize c.dst_format = df
        rcases df with ⟨pf, cs, n⟩
        simp only
        intro hn hd hsz hpl hrc hg hg'
        cases pf <;> simp only [Spec.isRgb, Bool.true_eq_false] at hd <;>
        simp only [ne_eq, not_true] at hn
        · simp only [dims] at hrc hg hg'
          rcases i with _ | _ | _ | i <;> simp at hrc hg hg' <;> subst hrc hg hg'
          · exact hluma _ _ _ ⟨hj, hy⟩
          · exact hcb _ _ _ ⟨hj, hy⟩
          · exact hcr _ _ _ ⟨hj, hy⟩
        · simp only [dims] at hrc hg hg'
          rcases i with _ | _ | _ | i <;> simp at hrc hg hg' <;> subst hrc hg hg'
          · exact hluma _ _ _ ⟨hj, hy⟩
          · exact hcb' _ _ _ hj hy
          · exact hcr' _ _ _ hj hy
        · simp only [Spec.SizeOk] at hsz
          rcases hpl with hpl | hpl
          · have e : n = 1 := u32_eq_one hpl
            subst e
            rw [hpl] at hrc
            simp only [dims, if_true] at hrc hg hg'
            rcases i with _ | i <;> simp at hrc hg hg'
            subst hrc hg hg'
            simp only at hj hy ⊢
            split
            · rename_i hlt
              exact hluma _ _ _ ⟨hj, hlt⟩
            · exact huv _ _ _ hsz.1 hj (by omega)
          · have e : n ≠ 1 := by rintro rfl; exact absurd hpl (by decide)
            rw [hpl] at hrc
            simp only [dims, Nat.reduceEqDiff, e, if_false] at hrc hg hg'
            rcases i with _ | _ | i <;> simp at hrc hg hg' <;> subst hrc hg hg'
            · exact hluma _ _ _ ⟨hj, hy⟩
            · exact huv _ _ _ hsz.1 hj hy
  | false =>
    obtain ⟨hd, him⟩ := hyuv hs
    simp only [Bool.false_eq_true, if_false, hcs]
    refine hrow _ _ hd ?_
    intro x y hp
    obtain ⟨h1, h2, h3⟩ := him x y hp
    unfold Call.yuvIn at h1 h2 h3
    simp only [Spec.RgbAt, Sem.dec, h1, h2, h3, hB, and_self]

end Verif
