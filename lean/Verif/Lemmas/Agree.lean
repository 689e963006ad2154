import Verif.Lemmas.Runs
import Verif.Lemmas.Ran
/-! # Two arithmetics that agree on an image store the same bytes -/

namespace Verif

open Spec (dims painted)

variable {S S' : Sem} {c : Call}

theorem Sem.out_agree (hl : Spec.Legal c.dst_format c.width c.height)
    (hn : c.dst_format.pixel_format ≠ .i422)
    (hsrc : Spec.isRgb c.src_format.pixel_format = false →
      Spec.isRgb c.dst_format.pixel_format = true)
    (hB : c.Decodes → ∀ x y, c.Pixel x y →
      S.blue c.src_format.pixel_format c.dst_format.pixel_format c.width.toNat x
        (Spec.std c.src_format.color_space) (Spec.val (c.yuvIn.y x y)) (Spec.val (c.yuvIn.cb x y)) =
      S'.blue c.src_format.pixel_format c.dst_format.pixel_format c.width.toNat x
        (Spec.std c.src_format.color_space) (Spec.val (c.yuvIn.y x y)) (Spec.val (c.yuvIn.cb x y)))
    (h444 : c.Encodes → c.dst_format.pixel_format = .i444 → ∀ x y, c.Pixel x y →
      S.cb444 c.src_format.pixel_format c.width.toNat (Spec.std c.dst_format.color_space)
        c.rgbIn x y =
      S'.cb444 c.src_format.pixel_format c.width.toNat (Spec.std c.dst_format.color_space)
        c.rgbIn x y ∧
      S.cr444 c.src_format.pixel_format c.width.toNat (Spec.std c.dst_format.color_space)
        c.rgbIn x y =
      S'.cr444 c.src_format.pixel_format c.width.toNat (Spec.std c.dst_format.color_space)
        c.rgbIn x y)
    (h420 : c.Encodes → c.dst_format.pixel_format ≠ .i444 → ∀ x y, x < c.width.toNat / 2 →
      y < c.height.toNat / 2 →
      S.cb420 c.src_format.pixel_format c.width.toNat (Spec.std c.dst_format.color_space)
        c.rgbIn x y =
      S'.cb420 c.src_format.pixel_format c.width.toNat (Spec.std c.dst_format.color_space)
        c.rgbIn x y ∧
      S.cr420 c.src_format.pixel_format c.width.toNat (Spec.std c.dst_format.color_space)
        c.rgbIn x y =
      S'.cr420 c.src_format.pixel_format c.width.toNat (Spec.std c.dst_format.color_space)
        c.rgbIn x y) : S.out c = S'.out c := by
  unfold Sem.out Sem.resultPlanes
  cases hs : Spec.isRgb c.src_format.pixel_format with
  | true =>
    simp only [if_true]
    cases hd : Spec.isRgb c.dst_format.pixel_format with
    | true => rfl
    | false =>
      simp only [Bool.false_eq_true, if_false]
      have hsz := hl.size
      have hpl := hl.planes
      have h444 := h444 ⟨hs, hd⟩
      have h420 := h420 ⟨hs, hd⟩
      refine painted_congr ?_ ?_
      · unfold Sem.encodedPlanes
        simp only
        split <;> try rfl
        split <;> rfl
      · intro i rc g g' hrc hg hg' j hj y hy
        revert hrc hg hg' hd hn hsz hpl h444 h420
        unfold Sem.encodedPlanes
        simp only
        generalize c.dst_format = df
        rcases df with ⟨pf, cs, n⟩
        simp only
        intro hn hd hsz hpl h444 h420 hrc hg hg'
        cases pf <;> simp only [Spec.isRgb, Bool.true_eq_false] at hd <;>
        simp only [ne_eq, not_true] at hn
        · simp only [dims] at hrc hg hg'
          rcases i with _ | _ | _ | i <;> simp at hrc hg hg' <;> subst hrc hg hg'
          · rfl
          · exact (h444 rfl _ _ ⟨hj, hy⟩).1
          · exact (h444 rfl _ _ ⟨hj, hy⟩).2
        · simp only [dims] at hrc hg hg'
          rcases i with _ | _ | _ | i <;> simp at hrc hg hg' <;> subst hrc hg hg'
          · rfl
          · exact (h420 (by decide) _ _ hj hy).1
          · exact (h420 (by decide) _ _ hj hy).2
        · simp only [Spec.SizeOk] at hsz
          rcases hpl with hpl | hpl
          · have e : n = 1 := u32_eq_one hpl
            subst e
            rw [hpl] at hrc
            simp only [dims, if_true] at hrc hg hg'
            rcases i with _ | i <;> simp at hrc hg hg'
            subst hrc hg hg'
            simp only at hj hy ⊢
            split
            · rfl
            · obtain ⟨h1, h2⟩ := h420 (by decide) (j / 2) (y - c.height.toNat) (by omega) (by omega)
              unfold Spec.interleave
              exact if_congr Iff.rfl h1 h2
          · have e : n ≠ 1 := by rintro rfl; exact absurd hpl (by decide)
            rw [hpl] at hrc
            simp only [dims, Nat.reduceEqDiff, e, if_false] at hrc hg hg'
            rcases i with _ | _ | i <;> simp at hrc hg hg' <;> subst hrc hg hg'
            · rfl
            · simp only at hj hy
              obtain ⟨h1, h2⟩ := h420 (by decide) (j / 2) y (by omega) hy
              unfold Spec.interleave
              exact if_congr Iff.rfl h1 h2
  | false =>
    have hd := hsrc hs
    simp only [Bool.false_eq_true, if_false]
    refine painted_congr rfl ?_
    intro i rc g g' hrc hg hg' j hj y hy
    rw [rgb_dims hd] at hrc
    rcases i with _ | i
    · simp only [List.getElem?_cons_zero, Option.some.injEq] at hrc hg hg'
      subst hrc hg hg'
      have := hB ⟨hs, hd⟩ (j / Spec.bpp c.dst_format.pixel_format) y ⟨Nat.div_lt_of_lt_mul hj, hy⟩
      unfold Call.yuvIn at this
      simp only [Spec.rgbRow, Sem.dec, this]
    · simp at hrc

/-- Two processors whose arithmetics agree on the image give the same outcome. -/
theorem convert_agree {t : Target} {cpu cpu' : Cpu} (hv : Spec.Valid t c)
    (hm : Spec.VectorRoom cpu.set c) (hm' : Spec.VectorRoom cpu'.set c)
    (h : (semOf cpu.set).out c = (semOf cpu'.set).out c) :
    convert t crate cpu c = convert t crate cpu' c := by
  have h1 : convert t crate cpu c = .ok (.ok (), (semOf cpu.set).out c) := (Runs.crate hv hm).stores
  have h2 : convert t crate cpu' c = .ok (.ok (), (semOf cpu'.set).out c) :=
    (Runs.crate hv hm').stores
  rw [h1, h2, h]

end Verif
