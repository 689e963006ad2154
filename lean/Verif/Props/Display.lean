import Verif.Spec.Names
import Verif.Props.Pixels
import Verif.Props.Sizes
/-!
# C109: the printed names
-/

namespace Verif

open Spec (bytesAt strideOf dims)

variable {t : Target} {cpu : Cpu} {c : Call} {out : List Buf}

/-- **C109.** Different values are printed differently: errors, pixel formats and colour spaces. -/
theorem C109_distinct :
    (∀ a b : ErrorKind, a.display = b.display → a = b) ∧
    (∀ a b : PixelFormat, a.display = b.display → a = b) ∧
    (∀ a b : ColorSpace, a.display = b.display → a = b) := by
  refine ⟨?_, ?_, ?_⟩ <;> intro a b <;> cases a <;> cases b <;> decide

example : PixelFormat.display .rgb = ColorSpace.display .rgb := rfl

/-- The printed names of the pixel formats and the colour spaces do not get mixed up when they are
printed one after the other, with or without a separator. -/
theorem C109_pairs (sep : String) (hs : sep = "" ∨ sep = " " ∨ sep = "/") (p q : PixelFormat)
    (a b : ColorSpace) (h : p.display ++ sep ++ a.display = q.display ++ sep ++ b.display) :
    p = q ∧ a = b := by
  rcases hs with rfl | rfl | rfl <;> revert h <;> cases p <;> cases q <;> cases a <;> cases b <;>
    decide

example : PixelFormat.display .bgr ++ "/" ++ ColorSpace.display .rgb = "bgr/rgb" := by decide

private theorem src_letter (hk : Spec.isRgb c.src_format.pixel_format = true) {x y k : Nat} {l : Char}
    (h : Spec.Letter c.src_format k l) :
    (l = 'r' → c.srcLetter x y k = c.rgbIn.r x y) ∧ (l = 'g' → c.srcLetter x y k = c.rgbIn.g x y) ∧
    (l = 'b' → c.srcLetter x y k = c.rgbIn.b x y) := by
  unfold Spec.Letter at h
  unfold Call.srcLetter Spec.letterByte Call.rgbIn Spec.readRgb Spec.rgbImage
  revert h hk
  cases c.src_format.pixel_format <;> intro hk h <;> cases hk
  all_goals
    rcases k with _ | _ | _ | _ | k <;> simp only [PixelFormat.display] at h ⊢ <;>
      (try cases h) <;> refine ⟨?_, ?_, ?_⟩ <;> intro e <;> first | (exact absurd e (by decide)) | rfl

private theorem dst_letter (hk : Spec.isRgb c.dst_format.pixel_format = true) {x y k : Nat} {l : Char}
    (h : Spec.Letter c.dst_format k l) :
    (l = 'r' → c.dstLetter out x y k = (c.rgbOut out).r x y) ∧
    (l = 'g' → c.dstLetter out x y k = (c.rgbOut out).g x y) ∧
    (l = 'b' → c.dstLetter out x y k = (c.rgbOut out).b x y) := by
  unfold Spec.Letter at h
  unfold Call.dstLetter Spec.letterByte Call.rgbOut Spec.readRgb Spec.rgbImage
  revert h hk
  cases c.dst_format.pixel_format <;> intro hk h <;> cases hk
  all_goals
    rcases k with _ | _ | _ | _ | k <;> simp only [PixelFormat.display] at h ⊢ <;>
      (try cases h) <;> refine ⟨?_, ?_, ?_⟩ <;> intro e <;> first | (exact absurd e (by decide)) | rfl

private theorem alpha_letter (hv : Spec.Valid t c) (hk : Spec.isRgb c.dst_format.pixel_format = true)
    (ho : Stores t crate cpu c out) {x y k : Nat} (hp : c.Pixel x y)
    (hl : Spec.Letter c.dst_format k 'a') : c.dstLetter out x y k = 255 := by
  have hd : c.dst_format.pixel_format = .bgra ∨ c.dst_format.pixel_format = .rgba ∨
      c.dst_format.pixel_format = .rgb := by
    have := hv.supported
    simp only [Spec.Supported, Spec.documented, List.mem_cons, Prod.mk.injEq, List.not_mem_nil,
      or_false] at this
    revert this hk
    cases c.dst_format.pixel_format <;> simp [Spec.isRgb]
  rcases hd with e | e | e
  · have := C24_alpha hv (.inl e) ho hp
    unfold Spec.Letter at hl; rw [e] at hl
    unfold Call.dstLetter Spec.letterByte; rw [e]
    rcases k with _ | _ | _ | _ | k <;> first | exact this | exact absurd hl (by decide) | cases hl
  · have := C24_alpha hv (.inr e) ho hp
    unfold Spec.Letter at hl; rw [e] at hl
    unfold Call.dstLetter Spec.letterByte; rw [e]
    rcases k with _ | _ | _ | _ | k <;> first | exact this | exact absurd hl (by decide) | cases hl
  · unfold Spec.Letter at hl; rw [e] at hl
    rcases k with _ | _ | _ | _ | k <;> first | exact absurd hl (by decide) | cases hl

/-- **C109.** Encoding: the red, green and blue of a source pixel are the bytes with the letters r, g
and b in the printed name of the source format. -/
theorem C109_encode (hv : Spec.Valid t c) (hk : c.Encodes) (ho : Stores t crate cpu c out)
    {x y r g b : Nat} (hp : c.Pixel x y) (hr : Spec.Letter c.src_format r 'r')
    (hg : Spec.Letter c.src_format g 'g') (hb : Spec.Letter c.src_format b 'b') :
    (c.yuvOut out).y x y = Spec.byte (Spec.luma (Spec.std c.dst_format.color_space)
      (Spec.val (c.srcLetter x y r)) (Spec.val (c.srcLetter x y g))
      (Spec.val (c.srcLetter x y b))) := by
  rw [C20_luma hv hk ho hp, (src_letter hk.1 hr).1 rfl, (src_letter hk.1 hg).2.1 rfl,
    (src_letter hk.1 hb).2.2 rfl]

example : Spec.Letter exEncode.src_format 2 'r' ∧ Spec.Letter exEncode.src_format 1 'g' ∧
    Spec.Letter exEncode.src_format 0 'b' ∧ exEncode.Encodes := by decide +kernel

/-- Every RGB format has each of the three letters once, and no others but one `a`. -/
theorem C109_letters (p : PixelFormat) (h : Spec.isRgb p = true) :
    p.display.toList.Nodup ∧ 'r' ∈ p.display.toList ∧ 'g' ∈ p.display.toList ∧
    'b' ∈ p.display.toList ∧ ∀ l ∈ p.display.toList, l = 'r' ∨ l = 'g' ∨ l = 'b' ∨ l = 'a' := by
  revert h; cases p <;> decide

/-- **C109.** Decoding: the letters of the printed name of the destination format tell which byte of
a pixel is red, green, blue and alpha.  (For blue under the condition of `C23_decode_partial`, see
there for what SSE2 and AVX2 compute otherwise.) -/
theorem C109_decode (hv : Spec.Valid t c) (hk : c.Decodes) (ho : Stores t crate cpu c out)
    {x y k : Nat} {l : Char} (hp : c.Pixel x y) (hl : Spec.Letter c.dst_format k l) :
    (l = 'r' → c.dstLetter out x y k = Spec.byte (Spec.red (Spec.std c.src_format.color_space)
      (Spec.val (c.yuvIn.y x y)) (Spec.val (c.yuvIn.cr x y)))) ∧
    (l = 'g' → c.dstLetter out x y k = Spec.byte (Spec.green (Spec.std c.src_format.color_space)
      (Spec.val (c.yuvIn.y x y)) (Spec.val (c.yuvIn.cb x y)) (Spec.val (c.yuvIn.cr x y)))) ∧
    (l = 'b' → cpu.set = .x86 ∨ cpu.set = .neon ∨
        Spec.blueFix (Spec.std c.src_format.color_space)
          (Spec.val (c.yuvIn.y x y)) (Spec.val (c.yuvIn.cb x y)) ≤ 32767 →
      c.dstLetter out x y k = Spec.byte (Spec.blue (Spec.std c.src_format.color_space)
        (Spec.val (c.yuvIn.y x y)) (Spec.val (c.yuvIn.cb x y)))) ∧
    (l = 'a' → c.dstLetter out x y k = 255) := by
  obtain ⟨h1, h2⟩ := C23_red_green hv hk ho hp
  obtain ⟨d1, d2, d3⟩ := dst_letter (out := out) (x := x) (y := y) hk.2 hl
  refine ⟨fun e => (d1 e).trans h1, fun e => (d2 e).trans h2, fun e hb =>
    (d3 e).trans (C23_decode_partial hv hk ho hp hb).2.2, fun e => ?_⟩
  exact alpha_letter hv hk.2 ho hp (e ▸ hl)

example : ∃ out, Stores .x64 crate sse2Cpu exDecode out ∧ exDecode.dstLetter out 1 1 0 = 216 := by
  obtain ⟨out, ho⟩ := valid_stores (cpu := sse2Cpu) exDecode_valid (.of_ne (by decide))
  exact ⟨out, ho, by
    rw [(C109_decode (k := 0) (l := 'r') exDecode_valid (by decide) ho ⟨by decide, by decide⟩
      (by decide)).1 rfl]
    decide +kernel⟩

/-- **C109.** Between RGB formats: a byte of the destination is the byte of the source with the same
letter, and 255 if its letter is `a`. -/
theorem C109_shuffle (hv : Spec.Valid t c) (hk : c.Shuffles) (ho : Stores t crate cpu c out)
    {x y k : Nat} {l : Char} (hp : c.Pixel x y) (hl : Spec.Letter c.dst_format k l) :
    (l = 'a' → c.dstLetter out x y k = 255) ∧
    (l ≠ 'a' → (∃ j, Spec.Letter c.src_format j l) ∧
      ∀ j, Spec.Letter c.src_format j l → c.dstLetter out x y k = c.srcLetter x y j) := by
  refine ⟨fun e => alpha_letter hv hk.2 ho hp (e ▸ hl), fun hne => ?_⟩
  obtain ⟨s1, s2, s3⟩ := C26_shuffle hv hk ho hp
  obtain ⟨d1, d2, d3⟩ := dst_letter (out := out) (x := x) (y := y) hk.2 hl
  obtain ⟨-, m1, m2, m3, -⟩ := C109_letters _ hk.1
  obtain ⟨-, -, -, -, hall⟩ := C109_letters _ hk.2
  have hm := hall l (List.mem_of_getElem? hl)
  rcases hm with rfl | rfl | rfl | rfl
  · exact ⟨List.mem_iff_getElem?.1 m1, fun j hj =>
      (d1 rfl).trans (s1.trans ((src_letter hk.1 hj).1 rfl).symm)⟩
  · exact ⟨List.mem_iff_getElem?.1 m2, fun j hj =>
      (d2 rfl).trans (s2.trans ((src_letter hk.1 hj).2.1 rfl).symm)⟩
  · exact ⟨List.mem_iff_getElem?.1 m3, fun j hj =>
      (d3 rfl).trans (s3.trans ((src_letter hk.1 hj).2.2 rfl).symm)⟩
  · exact absurd rfl hne

example : Spec.Letter exShuffle.dst_format 0 'b' ∧ Spec.Letter exShuffle.src_format 2 'b' ∧
    Spec.Letter exShuffle.dst_format 3 'a' ∧ exShuffle.Shuffles ∧ exShuffle.srcLetter 1 1 2 ≠ 0 := by
  decide +kernel

/-- **C109.** The reported size of a packed RGB image, from the printed name: one byte per letter and
pixel. -/
theorem C109_sizes_rgb {w h : UInt32} {f : ImageFormat} {sizes : List Nat} (hbits : t.bits = 64)
    (hs : Spec.Shape f w h) (hlen : f.num_planes.toNat ≤ sizes.length) (hw : w.toNat < 2 ^ 30)
    (hk : Spec.isRgb f.pixel_format = true) :
    get_buffers_size t w h f none sizes = .ok (.ok (),
      Spec.overwrite [f.pixel_format.display.length * (w.toNat * h.toNat)] sizes) := by
  rw [C08_packed_sizes_64 t w h f sizes hbits hs hlen hw]
  generalize f.num_planes.toNat = np
  revert hk
  cases f.pixel_format <;> intro hk <;> cases hk
  all_goals simp only [Spec.packedSizes, Nat.mul_assoc]; rfl

example : get_buffers_size .x64 6 4 ⟨.bgr, .rgb, 1⟩ none [0] = .ok (.ok (), [72]) ∧
    (PixelFormat.display .bgr).length = 3 := by decide +kernel

/-- **C109.** The reported sizes of a planar image, from the printed name: the digits tell the packed
line and the number of lines of the chroma planes. -/
theorem C109_sizes_planar {w h : UInt32} {f : ImageFormat} {strides : Option (List Nat)}
    {sizes : List Nat} {cw ch : Nat} (hb : 32 ≤ t.bits) (hs : Spec.Shape f w h)
    (ha : Spec.ArraysOk f strides sizes)
    (hfit : ∀ i row, i < 3 → row ≤ w.toNat → strideOf strides i row * h.toNat < 2 ^ t.bits)
    (hn : Spec.chromaDims f.pixel_format.display w.toNat h.toNat = some (cw, ch)) :
    ∃ out, get_buffers_size t w h f strides sizes = .ok (.ok (), out) ∧
      out[0]? = some (strideOf strides 0 w.toNat * h.toNat) ∧
      ∀ i, i = 1 ∨ i = 2 → out[i]? = some (strideOf strides i cw * ch) := by
  have hd : f.num_planes.toNat = 3 ∧ cw ≤ w.toNat ∧ ch ≤ h.toNat ∧
      dims f.pixel_format f.num_planes.toNat w.toNat h.toNat =
        [(w.toNat, h.toNat), (cw, ch), (cw, ch)] := by
    have hpl := hs.planes
    revert hn hpl
    cases f.pixel_format <;> intro hn hpl
    case i444 =>
      have hp : _ = 3 := hpl
      have hc : some (w.toNat * 4 / 4, h.toNat) = some (cw, ch) := hn
      rw [show w.toNat * 4 / 4 = w.toNat by omega] at hc
      obtain ⟨rfl, rfl⟩ := Prod.mk.inj (Option.some.inj hc)
      exact ⟨hp, by omega, by omega, rfl⟩
    case i422 =>
      have hp : _ = 3 := hpl
      have hc : some (w.toNat * 2 / 4, h.toNat) = some (cw, ch) := hn
      rw [show w.toNat * 2 / 4 = w.toNat / 2 by omega] at hc
      obtain ⟨rfl, rfl⟩ := Prod.mk.inj (Option.some.inj hc)
      exact ⟨hp, by omega, by omega, rfl⟩
    case i420 =>
      have hp : _ = 3 := hpl
      have hc : some (w.toNat * 2 / 4, h.toNat / 2) = some (cw, ch) := hn
      rw [show w.toNat * 2 / 4 = w.toNat / 2 by omega] at hc
      obtain ⟨rfl, rfl⟩ := Prod.mk.inj (Option.some.inj hc)
      exact ⟨hp, by omega, by omega, rfl⟩
    all_goals exact absurd hn nofun
  obtain ⟨h3, hcw, hch, hdim⟩ := hd
  obtain ⟨out, ho, hall⟩ := C09_custom_strides t w h f strides sizes hb hs ha (by omega) (by
    intro i rc hrc
    rw [hdim] at hrc
    have le : ∀ i row, i < 3 → row ≤ w.toNat → strideOf strides i row * ch < 2 ^ t.bits :=
      fun i row hi hr => Nat.lt_of_le_of_lt (Nat.mul_le_mul_left _ hch) (hfit i row hi hr)
    rcases i with _ | _ | _ | i <;> cases hrc
    · exact hfit 0 _ (by omega) (Nat.le_refl _)
    · exact le 1 _ (by omega) hcw
    · exact le 2 _ (by omega) hcw)
  rw [hdim] at hall
  refine ⟨out, ho, hall 0 _ rfl, ?_⟩
  rintro i (rfl | rfl)
  · exact hall 1 _ rfl
  · exact hall 2 _ rfl

example : Spec.chromaDims (PixelFormat.display .i422) 6 4 = some (3, 4) ∧
    Spec.chromaDims (PixelFormat.display .i420) 6 4 = some (3, 2) ∧
    get_buffers_size .x64 6 4 ⟨.i420, .bt601, 3⟩ none [0, 0, 0] = .ok (.ok (), [24, 6, 6]) := by
  decide +kernel

end Verif
