import Verif.Model.Crate
import Verif.Spec.Room
import Verif.Spec.Vector
import Verif.Lemmas.Sse2Impl
import Verif.Lemmas.Avx2Impl
import Verif.Lemmas.NeonImpl
import Verif.Lemmas.Relate
import Verif.Lemmas.Ideal
/-! # The kernels of every instruction set, together -/

namespace Verif

/-- The arithmetic of an instruction set. -/
def semOf : InstructionSet → Sem
  | .x86 => Sem.scalar
  | .sse2 => Sse2.sem
  | .avx2 => Avx2.sem
  | .neon => Neon.sem

theorem idealOk (t : Target) (hb : 1 ≤ t.bits) : ∀ set, ImplOk t (idealOf set) (semOf set)
  | .x86 => X86.implOk t hb
  | .sse2 => Sse2.implOk t hb
  | .avx2 => Avx2.implOk t hb
  | .neon => Neon.implOk t hb

section
variable {t : Target} {len stride row rows : Nat}

theorem Near.of_fits (hb : 1 ≤ t.bits) (hf : Spec.PlaneFits len stride row rows)
    (hl : len ≤ t.imax) : Near t len stride :=
  ⟨hf.stride_le, by have := imax_lt t hb; omega⟩

/-- The fourth line of an image that fits begins below `usize`. -/
theorem third_of_fits (hb : 1 ≤ t.bits) (hf : Spec.PlaneFits len stride row rows)
    (hl : len ≤ t.imax) (h4 : 4 ≤ rows) : 3 * stride < 2 ^ t.bits := by
  have := imax_lt t hb
  have h1 := hf.extent
  have h2 : stride * 3 ≤ stride * (rows - 1) := Nat.mul_le_mul_left _ (by omega)
  omega

end


/-- The kernels of the library store the same as those with exact offsets. -/
theorem crateOk (t : Target) (hb : 1 ≤ t.bits) (hB : 256 ≤ 2 ^ t.bits)
    (set : InstructionSet) :
    ImplOk t (crate set) (semOf set) where
  rgb_i444 s c _ _ _ _ _ _ _ _ _ _ hdim hs hr hy hu hv ls ly lu lv := by
    rw [agree_rgb_i444 set s c hdim.w_lt hB
      (.of_fits hb hs ls) (.of_fits hb hy ly) (.of_fits hb hu lu) (.of_fits hb hv lv)]
    exact (idealOk t hb set).rgb_i444 s c hdim hs hr hy hu hv ls ly lu lv
  rgb_i420 s c _ _ _ _ _ _ _ _ _ _ hdim hw hh hs hr hy hu hv ls ly lu lv := by
    rw [agree_rgb_i420 set s c hdim.w_lt hB
      (.of_fits hb hs ls) (.of_fits hb hy ly) (.of_fits hb hu lu) (.of_fits hb hv lv)
      fun _ h4 => ⟨third_of_fits hb hs ls h4, third_of_fits hb hy ly h4⟩]
    exact (idealOk t hb set).rgb_i420 s c hdim hw hh hs hr hy hu hv ls ly lu lv
  rgb_nv12 s c _ _ _ _ _ _ _ _ hdim hw hh hs hr hy hu ls ly lu := by
    rw [agree_rgb_nv12 set s c hdim.w_lt hB
      (.of_fits hb hs ls) (.of_fits hb hy ly) (.of_fits hb hu lu)
      fun _ h4 => ⟨third_of_fits hb hs ls h4, third_of_fits hb hy ly h4⟩]
    exact (idealOk t hb set).rgb_nv12 s c hdim hw hh hs hr hy hu ls ly lu
  i444_rgb c o _ _ _ _ _ _ _ _ _ _ ho hdim hy hu hv hd ly lu lv ld := by
    rw [agree_i444_rgb set c _ _ hdim.w_lt hB
      (.of_fits hb hy ly) (.of_fits hb hu lu) (.of_fits hb hv lv) (.of_fits hb hd ld)]
    exact (idealOk t hb set).i444_rgb c o ho hdim hy hu hv hd ly lu lv ld
  i420_rgb c o _ _ _ _ _ _ _ _ _ _ ho hdim hw hh hy hu hv hd ly lu lv ld := by
    rw [agree_i420_rgb set c _ _ hdim.w_lt hB
      (.of_fits hb hy ly) (.of_fits hb hu lu) (.of_fits hb hv lv) (.of_fits hb hd ld)]
    exact (idealOk t hb set).i420_rgb c o ho hdim hw hh hy hu hv hd ly lu lv ld
  nv12_rgb c o _ _ _ _ _ _ _ _ hdim hw hh hy hu hd ly lu ld := by
    rw [agree_nv12_rgb set c _ _ hdim.w_lt hB
      (.of_fits hb hy ly) (.of_fits hb hu lu) (.of_fits hb hd ld)]
    exact (idealOk t hb set).nv12_rgb c o hdim hw hh hy hu hd ly lu ld
  rgb_bgra hdim hs hd ls ld := by
    rw [agree_rgb_bgra set hdim (Near.of_fits hb hs ls).sum (Near.of_fits hb hd ld).sum]
    exact (idealOk t hb set).rgb_bgra hdim hs hd ls ld
  bgra_rgb hdim hs hd ls ld := by
    rw [agree_bgra_rgb set hdim (Near.of_fits hb hs ls).sum (Near.of_fits hb hd ld).sum]
    exact (idealOk t hb set).bgra_rgb hdim hs hd ls ld
  bgr_rgb hdim hs hd ls ld := by
    rw [agree_bgr_rgb set hdim (Near.of_fits hb hs ls).sum (Near.of_fits hb hd ld).sum]
    exact (idealOk t hb set).bgr_rgb hdim hs hd ls ld

variable {t : Target} {cpu : Cpu} {c : Call} {set : InstructionSet}

theorem room_of_spec (h : Spec.VectorRoom set c) (hb : 0 < c.src_buffers.length)
    (hd : Spec.isRgb c.dst_format.pixel_format = false) :
    (semOf set).room c.src_format.pixel_format c.width.toNat c.height.toNat
      (Spec.strideOf c.src_strides 0 (Spec.bpp c.src_format.pixel_format * c.width.toNat))
      (bufAt c.src_buffers 0).len := by
  have e : c.src_buffers[0]? = some (bufAt c.src_buffers 0) := by
    unfold bufAt
    rw [List.getD_eq_getElem?_getD, List.getElem?_eq_getElem hb]
    rfl
  cases set with
  | x86 => trivial
  | neon => trivial
  | sse2 =>
    intro hs
    rw [hs]
    exact h hs hd _ e
  | avx2 =>
    intro hs
    rw [hs]
    exact h hs hd _ e

/-- The kernels of the library run any valid call whose source has the room they need. -/
theorem Runs.crate (hv : Spec.Valid t c) (hm : Spec.VectorRoom cpu.set c) :
    Runs t crate cpu (semOf cpu.set) c := by
  refine ⟨crateOk t hv.bits_pos (byte_fits hv.bits) _, hv, fun hd => room_of_spec hm ?_ hd⟩
  have h1 := hv.src_fits.bufs_len
  have h2 := hv.src_legal.planes
  revert h2
  cases c.src_format.pixel_format <;> simp only [Spec.PlanesOk] <;> omega

theorem Spec.VectorRoom.of_ne (h : c.src_format.pixel_format ≠ .bgr) : Spec.VectorRoom set c :=
  fun e => absurd e h

theorem Spec.VectorRoom.of_rgb (h : Spec.isRgb c.dst_format.pixel_format = true) :
    Spec.VectorRoom set c := fun _ e => by rw [h] at e; cases e

theorem semOf_srcIndep (set : InstructionSet) : (semOf set).SrcIndep := by
  intro p p' _ _ w x s r g b
  cases set <;> exact ⟨rfl, rfl, rfl, rfl⟩

/-- Chroma is exact on all processors but those with NEON. -/
theorem semOf_chroma (h : set ≠ .neon) (p : PixelFormat) (w x : Nat) :
    (semOf set).cb p w x = Spec.cb ∧ (semOf set).cr p w x = Spec.cr ∧
    (semOf set).cbAvg p w x = Spec.cbAvg ∧ (semOf set).crAvg p w x = Spec.crAvg := by
  cases set
  · exact ⟨rfl, rfl, rfl, rfl⟩
  · exact ⟨rfl, rfl, rfl, rfl⟩
  · exact ⟨rfl, rfl, rfl, rfl⟩
  · exact absurd rfl h

/-- Blue does not depend on the 4:2:0 source format nor on the four-byte destination format. -/
theorem semOf_blue_src (set : InstructionSet) {p p' : PixelFormat} (d : PixelFormat) (w x : Nat)
    (h : p = .i444 ↔ p' = .i444) : (semOf set).blue p d w x = (semOf set).blue p' d w x := by
  cases set
  · rfl
  · show (if x < Sse2.vpart p d w then _ else _) = (if x < Sse2.vpart p' d w then _ else _)
    have : Sse2.vpart p d w = Sse2.vpart p' d w := by
      cases p <;> cases p' <;> first | rfl | simp at h
    rw [this]
  · show (if x < Avx2.vpart p d w then _ else _) = (if x < Avx2.vpart p' d w then _ else _)
    have : Avx2.vpart p d w = Avx2.vpart p' d w := by
      cases p <;> cases p' <;> first | rfl | simp at h
    rw [this]
  · rfl

theorem semOf_blue_dst (set : InstructionSet) (p : PixelFormat) {d d' : PixelFormat} (w x : Nat)
    (h : set = .sse2 → (d = .rgb ↔ d' = .rgb)) :
    (semOf set).blue p d w x = (semOf set).blue p d' w x := by
  cases set
  · rfl
  · show (if x < Sse2.vpart p d w then _ else _) = (if x < Sse2.vpart p d' w then _ else _)
    have : Sse2.vpart p d w = Sse2.vpart p d' w := by
      unfold Sse2.vpart
      simp only [h rfl]
    rw [this]
  · rfl
  · rfl

/-- Blue is exact unless the 16-bit sum overflows. -/
theorem semOf_blue (p d : PixelFormat) (w x : Nat) (s : Spec.Std) (y cb : Int)
    (h : set = .x86 ∨ set = .neon ∨ Spec.blueFix s y cb ≤ 32767) :
    (semOf set).blue p d w x s y cb = Spec.blue s y cb := by
  cases set with
  | x86 => rfl
  | neon => rfl
  | sse2 =>
    have h : Spec.blueFix s y cb ≤ 32767 := by simpa using h
    show (if x < Sse2.vpart p d w then Simd.vblue else Spec.blue) s y cb = _
    split
    · rw [Simd.vblue, if_neg (by omega)]
    · rfl
  | avx2 =>
    have h : Spec.blueFix s y cb ≤ 32767 := by simpa using h
    show (if x < Avx2.vpart p d w then Simd.vblue else Spec.blue) s y cb = _
    split
    · rw [Simd.vblue, if_neg (by omega)]
    · rfl

/-- The NEON chroma lies between the two ways to round a tie. -/
theorem semOf_between (p : PixelFormat) (w x : Nat) :
    ((semOf set).cb p w x = Spec.cb ∨ (semOf set).cb p w x = Spec.cbUp) ∧
    ((semOf set).cr p w x = Spec.cr ∨ (semOf set).cr p w x = Spec.crUp) ∧
    ((semOf set).cbAvg p w x = Spec.cbAvg ∨ (semOf set).cbAvg p w x = Spec.cbAvgUp) ∧
    ((semOf set).crAvg p w x = Spec.crAvg ∨ (semOf set).crAvg p w x = Spec.crAvgUp) := by
  cases set
  · exact ⟨.inl rfl, .inl rfl, .inl rfl, .inl rfl⟩
  · exact ⟨.inl rfl, .inl rfl, .inl rfl, .inl rfl⟩
  · exact ⟨.inl rfl, .inl rfl, .inl rfl, .inl rfl⟩
  · simp only [semOf, Neon.sem]
    refine ⟨?_, ?_, ?_, ?_⟩ <;> split <;> simp

end Verif
