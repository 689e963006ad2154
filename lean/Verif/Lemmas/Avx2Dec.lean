import Verif.Model.Avx2
import Verif.Lemmas.SimdOut
import Verif.Lemmas.Avx2Enc
import Verif.Lemmas.Sse2Dec
/-! # AVX2 decoders -/

namespace Verif.Avx2

open Spec (byte val PlaneFits)
open Verif.Simd
open Verif.Sse2 (line_group Terms)

theorem perm_lo (a b : Reg) {j : Nat} (hj : j < 32) :
    permute2x128_si256 a b PACK_LO_DQWORD_2X256 j = if j < 16 then a j else b (j - 16) := by
  interval_cases j <;> rfl

theorem perm_hi (a b : Reg) {j : Nat} (hj : j < 32) :
    permute2x128_si256 a b PACK_HI_DQWORD_2X256 j = if j < 16 then a (16 + j) else b j := by
  interval_cases j <;> rfl

theorem pack_i16x3_16x_emits (rev : Bool) {d : Dst} {i : Nat} {red green blue : Reg}
    {R G B : Nat → UInt8} (hr : Px 16 red R) (hg : Px 16 green G) (hb : Px 16 blue B)
    (hd : i + 64 ≤ d.len) :
    Emits (pack_i16x3_16x rev d i red green blue) () (Row d i 64 (pxBytes (outPf rev) R G B)) := by
  have h1 : Emits (store d i (permute2x128_si256 (packLo rev red green blue)
      (packHi rev red green blue) PACK_LO_DQWORD_2X256) 32) ()
      (Row d i 32 (pxBytes (outPf rev) R G B)) :=
    store_row (by omega) fun j hj => by
      rw [perm_lo _ _ hj]
      show _ = pxBytes (outPf rev) R G B j
      split
      · exact (packLo_byte rev hr hg hb (i := j) (by omega) (by omega)).trans (by congr 1; omega)
      · exact (packHi_byte rev hr hg hb (i := j - 16) (by omega) (by omega)).trans
          (by congr 1; omega)
  have h2 : Emits (store d (i + 32) (permute2x128_si256 (packLo rev red green blue)
      (packHi rev red green blue) PACK_HI_DQWORD_2X256) 32) ()
      (Row d (i + 32) 32 (fun j => pxBytes (outPf rev) R G B (32 + j))) :=
    store_row (by omega) fun j hj => by
      rw [perm_hi _ _ hj]
      show _ = pxBytes (outPf rev) R G B (32 + j)
      split
      · exact (packLo_byte rev hr hg hb (i := 16 + j) (by omega) (by omega)).trans
          (by congr 1; omega)
      · exact (packHi_byte rev hr hg hb (i := j) (by omega) (by omega)).trans
          (by congr 1; omega)
  exact (h1.seq h2).congr fun p => (Row.split (a := 32) (b := 32) p).symm

/-! ## Three-byte pixels -/

/-- Byte `j` of sixteen three-byte pixels whose red and blue are in `x`, and green in `y`. -/
def rgbByte (x y : Reg) (j : Nat) : UInt8 :=
  if j % 3 = 0 then x (16 * (j / 24) + j / 3 % 8)
  else if j % 3 = 1 then y (16 * (j / 24) + j / 3 % 8)
  else x (16 * (j / 24) + 8 + j / 3 % 8)

/-- In each half, the first sixteen bytes of eight packed pixels. -/
theorem compress_lo (x y : Reg) {i : Nat} (hi : i < 32) :
    or_si (slli_si (shuffle_epi8 (unpackhi_epi16 (unpacklo_epi8 x y) (unpackhi_epi8 x y))
        compress_mask) 12)
      (shuffle_epi8 (unpacklo_epi16 (unpacklo_epi8 x y) (unpackhi_epi8 x y)) compress_mask) i =
      rgbByte x y (24 * (i / 16) + i % 16) := by
  interval_cases i <;> first | exact X86.u8_0_or _ | exact X86.u8_or_0 _

/-- In each half, the last eight bytes of eight packed pixels. -/
theorem compress_hi (x y : Reg) {i : Nat} (hi : i < 16) :
    srli_si (shuffle_epi8 (unpackhi_epi16 (unpacklo_epi8 x y) (unpackhi_epi8 x y))
        compress_mask) 4 (16 * (i / 8) + i % 8) =
      rgbByte x y (24 * (i / 8) + 16 + i % 8) := by
  interval_cases i <;> rfl

theorem merge_hi (a c : Reg) {j : Nat} (hj : j < 32) :
    blend_epi32 (permute4x64_epi64 a (mm_shuffle 2 3 1 0))
      (permute4x64_epi64 c (mm_shuffle 3 3 2 2)) 0x3C j =
      if j < 8 then a j else if j < 24 then c (8 + j) else a (j - 8) := by
  interval_cases j <;> rfl

theorem pack_rgb_regs (red green blue : Reg) {j : Nat} (hj : j < 32) :
    (pack_rgb_16x_regs red green blue).1 j =
      rgbByte (packus_epi16 red blue) (packus_epi16 green green) (16 + j) ∧
    (pack_rgb_16x_regs red green blue).2 j =
      rgbByte (packus_epi16 red blue) (packus_epi16 green green) j := by
  have h0 : ∀ j, j < 32 → (pack_rgb_16x_regs red green blue).1 j =
      rgbByte (packus_epi16 red blue) (packus_epi16 green green) (16 + j) := by
    intro j hj
    refine (merge_hi _ _ hj).trans ?_
    split
    · have := compress_hi (packus_epi16 red blue) (packus_epi16 green green) (i := j) (by omega)
      rw [show 16 * (j / 8) + j % 8 = j by omega] at this
      exact this.trans (by congr 1; omega)
    · split
      · exact (compress_lo _ _ (by omega)).trans (by congr 1; omega)
      · have := compress_hi (packus_epi16 red blue) (packus_epi16 green green) (i := j - 16)
          (by omega)
        rw [show 16 * ((j - 16) / 8) + (j - 16) % 8 = j - 8 by omega] at this
        exact this.trans (by congr 1; omega)
  refine ⟨h0 j hj, ?_⟩
  refine (perm_lo _ _ hj).trans ?_
  split
  · exact (compress_lo _ _ hj).trans (by congr 1; omega)
  · exact (h0 (j - 16) (by omega)).trans (by congr 1; omega)

theorem rgbByte_px {red green blue : Reg} {R G B : Nat → UInt8} (hr : Px 16 red R)
    (hg : Px 16 green G) (hb : Px 16 blue B) {j : Nat} (hj : j < 48) :
    rgbByte (packus_epi16 red blue) (packus_epi16 green green) j = pxBytes .rgb R G B j := by
  have hq : 8 * (j / 24) + j / 3 % 8 = j / 3 := by omega
  have er := packus_lo hr (b := blue) (q := j / 24) (m := j / 3 % 8) (by omega) (by omega)
  have eg := packus_lo hg (b := green) (q := j / 24) (m := j / 3 % 8) (by omega) (by omega)
  have eb := packus_hi hb (a := red) (q := j / 24) (m := j / 3 % 8) (by omega) (by omega)
  rw [hq] at er eg eb
  unfold rgbByte
  rw [er, eg, eb]
  show _ = ([R (j / 3), G (j / 3), B (j / 3)] : List UInt8).getD (j % 3) 0
  rcases (by omega : j % 3 = 0 ∨ j % 3 = 1 ∨ j % 3 = 2) with e | e | e <;> rw [e] <;> rfl

theorem pack_rgb_16x_emits {d : Dst} {i : Nat} {red green blue : Reg}
    {R G B : Nat → UInt8} (hr : Px 16 red R) (hg : Px 16 green G) (hb : Px 16 blue B)
    (hd : i + 48 ≤ d.len) :
    Emits (pack_rgb_16x d i red green blue) () (Row d i 48 (pxBytes .rgb R G B)) := by
  have h1 : Emits (store d (i + 16) (pack_rgb_16x_regs red green blue).1 32) () _ :=
    store_row (by omega) fun j hj =>
      ((pack_rgb_regs red green blue hj).1.trans (rgbByte_px hr hg hb (by omega)))
  have h2 : Emits (store d i (pack_rgb_16x_regs red green blue).2 32) () _ :=
    store_row (by omega) fun j hj =>
      ((pack_rgb_regs red green blue hj).2.trans (rgbByte_px hr hg hb (by omega)))
  refine (h1.seq h2).congr fun p => ?_
  constructor
  · rintro (⟨j, hj, rfl⟩ | ⟨j, hj, rfl⟩)
    · exact ⟨16 + j, by omega, by rw [Nat.add_assoc]⟩
    · exact ⟨j, by omega, rfl⟩
  · rintro ⟨j, hj, rfl⟩
    by_cases h : j < 32
    · exact .inr ⟨j, h, rfl⟩
    · refine .inl ⟨j - 16, by omega, ?_⟩
      simp only [show i + 16 + (j - 16) = i + j by omega, show 16 + (j - 16) = j by omega]

/-! ## Blocks -/

/-- Bytes moved to the high half of 16-bit lanes: first sixteen. -/
theorem widen_lo (a : Reg) : Hi 16 (widen a PACK_LO_DQWORD_2X256) (fun k => a k) := by
  intro k hk
  apply hi_lane <;> interval_cases k <;> rfl

/-- Bytes moved to the high half of 16-bit lanes: last sixteen. -/
theorem widen_hi (a : Reg) : Hi 16 (widen a PACK_HI_DQWORD_2X256) (fun k => a (16 + k)) := by
  intro k hk
  apply hi_lane <;> interval_cases k <;> rfl

/-- Lanes duplicated. -/
theorem dup_lanes {a : Reg} {v : Nat → Int} (h : Lanes16 16 a v) :
    Lanes16 16 (i16_to_i16x2_16x a).1 (fun k => v (k / 2)) ∧
    Lanes16 16 (i16_to_i16x2_16x a).2 (fun k => v (8 + k / 2)) := by
  constructor <;> intro k hk
  · have e : w16 (i16_to_i16x2_16x a).1 k = w16 a (k / 2) := by interval_cases k <;> rfl
    rw [e]
    exact h _ (by omega)
  · have e : w16 (i16_to_i16x2_16x a).2 k = w16 a (8 + k / 2) := by interval_cases k <;> rfl
    rw [e]
    exact h _ (by omega)

/-- A routine that stores sixteen pixels. -/
def Puts (pf : PixelFormat) (d : Dst) (put : Nat → Reg → Reg → Reg → K Unit) : Prop :=
  ∀ (i : Nat) (red green blue : Reg) (R G B : Nat → UInt8), Px 16 red R → Px 16 green G →
    Px 16 blue B → i + 16 * Spec.bpp pf ≤ d.len →
    Emits (put i red green blue) () (Row d i (16 * Spec.bpp pf) (pxBytes pf R G B))

theorem puts_bgra (rev : Bool) (d : Dst) : Puts (outPf rev) d (pack_i16x3_16x rev d) := by
  intro i red green blue R G B hr hg hb hd
  rw [X86.outPf_bpp] at hd ⊢
  exact pack_i16x3_16x_emits rev hr hg hb hd

theorem puts_rgb (d : Dst) : Puts .rgb d (pack_rgb_16x d) :=
  fun _ _ _ _ _ _ _ hr hg hb hd => pack_rgb_16x_emits hr hg hb hd

theorem put_16x_emits (c : Colorimetry) {pf : PixelFormat} {d : Dst}
    {put : Nat → Reg → Reg → Reg → K Unit} (hp : Puts pf d put) {i : Nat} {sr sg sb l : Reg}
    {Y U V : Nat → UInt8} (ht : Terms 16 c sr sg sb U V)
    (hl : Lanes16 16 l (fun k => val (Y k) * (Verif.BACKWARD_WEIGHTS c).xxym / 256))
    (hd : i + 16 * Spec.bpp pf ≤ d.len) :
    Emits (put i (srai_epi16 (add_epi16 sr l) FIX6) (srai_epi16 (add_epi16 sg l) FIX6)
      (srai_epi16 (add_epi16 sb l) FIX6)) ()
      (Row d i (16 * Spec.bpp pf) (decRow pf c.std Y U V)) :=
  hp _ _ _ _ _ _ _ (red_px c ht.r hl) (green_px c ht.g hl) (blue_px c ht.b hl) hd

theorem block_32x2_emits (c : Colorimetry) {pf : PixelFormat} {d : Dst}
    {put : Nat → Reg → Reg → Reg → K Unit} (hp : Puts pf d put) {cb cr : Reg} {U V : Nat → UInt8}
    {yb : Buf} {y0 y1 d00 d10 d01 d11 n : Nat} (hn : n = 16 * Spec.bpp pf)
    (hu : Hi 16 cb U) (hv : Hi 16 cr V)
    (hy0 : y0 + 32 ≤ yb.len) (hy1 : y1 + 32 ≤ yb.len) (h00 : d00 + n ≤ d.len)
    (h10 : d10 + n ≤ d.len) (h01 : d01 + n ≤ d.len) (h11 : d11 + n ≤ d.len) :
    Emits (block_32x2 (back c) put cb cr yb (.ok y0) (.ok y1) (.ok d00) (.ok d10) (.ok d01) (.ok d11)) () fun p =>
      Row d d00 n (decRow pf c.std (fun k => yb.bytes (y0 + k)) (fun k => U (k / 2))
        (fun k => V (k / 2))) p ∨
      Row d d10 n (decRow pf c.std (fun k => yb.bytes (y0 + (16 + k)))
        (fun k => U (8 + k / 2)) (fun k => V (8 + k / 2))) p ∨
      Row d d01 n (decRow pf c.std (fun k => yb.bytes (y1 + k)) (fun k => U (k / 2))
        (fun k => V (k / 2))) p ∨
      Row d d11 n (decRow pf c.std (fun k => yb.bytes (y1 + (16 + k)))
        (fun k => U (8 + k / 2)) (fun k => V (8 + k / 2))) p := by
  subst hn
  obtain ⟨tr, tg, tb⟩ := terms_lanes c hu hv
  unfold block_32x2
  simp only [K.liftM_eq, K.lift_ok, pure_bind]
  simp only [load_eq hy0, load_eq hy1, pure_bind]
  have lo := Terms.mk (dup_lanes tr).1 (dup_lanes tg).1 (dup_lanes tb).1
  have hi := Terms.mk (dup_lanes tr).2 (dup_lanes tg).2 (dup_lanes tb).2
  have l0 : ∀ o, Lanes16 16 (mulhi_epu16 (widen
      (fun j => if j < 32 then yb.bytes (o + j) else 0) PACK_LO_DQWORD_2X256) (back c).xxym) _ :=
    fun o => luma_term c ((widen_lo _).congr
      (v := fun k => yb.bytes (o + k)) fun k hk => if_pos (by omega))
  have l1 : ∀ o, Lanes16 16 (mulhi_epu16 (widen
      (fun j => if j < 32 then yb.bytes (o + j) else 0) PACK_HI_DQWORD_2X256) (back c).xxym) _ :=
    fun o => luma_term c ((widen_hi _).congr
      (v := fun k => yb.bytes (o + (16 + k))) fun k hk => if_pos (by omega))
  exact (put_16x_emits c hp lo (l0 y0) h00).seq ((put_16x_emits c hp hi (l1 y0) h10).seq
    ((put_16x_emits c hp lo (l0 y1) h01).seq (put_16x_emits c hp hi (l1 y1) h11)))

/-- The half lines of a block are the image. -/
theorem block_rows {c : Colorimetry} {pf : PixelFormat} {im : Spec.YuvImage} {d : Dst}
    {base x y o n : Nat} (hp : 0 < Spec.bpp pf) (hn : n = 16 * Spec.bpp pf)
    {Y U V : Nat → UInt8}
    (hY : ∀ k, k < 16 → Y k = im.y (16 * x + k) y) (hU : ∀ k, k < 16 → U k = im.cb (16 * x + k) y)
    (hV : ∀ k, k < 16 → V k = im.cr (16 * x + k) y) (ho : o = base + n * x) (p : Write) :
    Row d o n (decRow pf c.std Y U V) p ↔
      Row d (base + n * x) n (fun k => Spec.rgbRow pf (vdec c.std im) (n * x + k) y) p := by
  subst ho
  refine Row.congr (fun j hj => ?_) p
  rw [decRow_eq (im := im) (n := 16) (x := 16 * x) (y := y) hp hY hU hV (by rw [Nat.mul_comm]; omega),
    hn, ← Nat.mul_assoc, Nat.mul_comm (Spec.bpp pf) 16]

theorem i444_to_bgra_avx2_emits (c : Colorimetry) (rev : Bool) {w h ys us vs ds : Nat}
    {yb ub vb : Buf} {d : Dst} (hw : w % 16 = 0)
    (hy : ∀ y, y < h → ys * y + w ≤ yb.len) (hu : ∀ y, y < h → us * y + w ≤ ub.len)
    (hv : ∀ y, y < h → vs * y + w ≤ vb.len) (hd : ∀ y, y < h → ds * y + w * 4 ≤ d.len) :
    Emits (i444_to_bgra_avx2 exactIx c rev w h ys us vs yb ub vb ds d) ()
      (Rect d ds (w * 4) h (Spec.rgbRow (outPf rev) (vdec c.std (X86.img444 yb ub vb ys us vs)))) := by
  obtain ⟨m, hm⟩ : ∃ m, w = 16 * m := ⟨w / 16, by omega⟩
  have hm4 : w * 4 = 64 * m := by omega
  unfold i444_to_bgra_avx2
  simp only [wg_eq, K.liftM_eq, K.lift_ok, pure_bind, YUV_TO_RGB_WAVES, LANE_COUNT, Nat.reduceDiv, Nat.reduceMul,
    show w / 16 = m by omega]
  rw [hm4]
  refine dec444_groups (by omega) fun y hy' x hx => ?_
  have by0 := line_group hy hm hy' hx
  have bu0 := line_group hu hm hy' hx
  have bv0 := line_group hv hm hy' hx
  have bd0 := line_group hd hm4 hy' hx
  simp only [load_eq by0, load_eq bu0, load_eq bv0, pure_bind]
  have hh : ∀ (b : Buf) (o : Nat), Hi 16 (widen (set_m128i setzero
      (fun j => if j < 16 then b.bytes (o + j) else 0)) PACK_LO_DQWORD_2X256)
      (fun k => b.bytes (o + k)) := by
    intro b o
    refine (widen_lo _).congr fun k hk => ?_
    unfold set_m128i
    rw [if_pos hk]
    exact if_pos hk
  obtain ⟨tr, tg, tb⟩ := terms_lanes c (hh ub (us * y + 16 * x)) (hh vb (vs * y + 16 * x))
  have h4 := X86.outPf_bpp rev
  have := put_16x_emits c (puts_bgra rev d) ⟨tr, tg, tb⟩ (luma_term c (hh yb (ys * y + 16 * x)))
    (i := ds * y + 64 * x) (by rw [h4]; exact bd0)
  rw [h4] at this
  refine this.congr fun p => block_rows (im := X86.img444 yb ub vb ys us vs) (by omega)
    (by rw [h4]) ?_ ?_ ?_ rfl p <;>
  · intro k _
    simp only [X86.img444, Spec.i444Image, Spec.plane, Nat.add_assoc]

theorem i420_to_bgra_avx2_emits (c : Colorimetry) (rev : Bool) {w h ys us vs ds : Nat}
    {yb ub vb : Buf} {d : Dst} (hw : w % 32 = 0) (hh : h % 2 = 0)
    (hy : ∀ y, y < h → ys * y + w ≤ yb.len) (hu : ∀ y, y < h / 2 → us * y + w / 2 ≤ ub.len)
    (hv : ∀ y, y < h / 2 → vs * y + w / 2 ≤ vb.len) (hd : ∀ y, y < h → ds * y + w * 4 ≤ d.len) :
    Emits (i420_to_bgra_avx2 exactIx c rev w h ys us vs yb ub vb ds d) ()
      (Rect d ds (w * 4) h (Spec.rgbRow (outPf rev) (vdec c.std (X86.img420 yb ub vb ys us vs)))) := by
  obtain ⟨m, hm⟩ : ∃ m, w = 32 * m := ⟨w / 32, by omega⟩
  have hm2 : w / 2 = 16 * m := by omega
  have hm4 : w * 4 = 64 * (2 * m) := by omega
  have h4 := X86.outPf_bpp rev
  unfold i420_to_bgra_avx2
  simp only [wg_eq, K.liftM_eq, K.lift_ok, pure_bind, YUV_TO_RGB_WAVES, LANE_COUNT, Nat.div_one, Nat.reduceDiv, Nat.reduceMul,
    show w / 32 = m by omega]
  rw [hm4]
  refine dec420_groups (by omega) hh fun y hy' x hx => ?_
  have bu0 := line_group hu hm2 hy' hx
  have bv0 := line_group hv hm2 hy' hx
  unfold unpack_ui8_i16be_16x
  simp only [load_eq bu0, load_eq bv0, pure_bind]
  have hhi : ∀ (b : Buf) (o : Nat), Hi 16 (widen (set_m128i
      (fun j => if j < 16 then b.bytes (o + j) else 0)
      (fun j => if j < 16 then b.bytes (o + j) else 0)) PACK_LO_DQWORD_2X256)
      (fun k => b.bytes (o + k)) := by
    intro b o
    refine (widen_lo _).congr fun k hk => ?_
    unfold set_m128i
    rw [if_pos hk]
    exact if_pos hk
  refine (block_32x2_emits c (puts_bgra rev d) (n := 64) (by rw [h4]) (hhi ub _) (hhi vb _)
    (line_group hy hm (by omega) hx) (line_group hy hm (by omega) hx)
    (line_group hd hm4 (by omega) (by omega)) (line_group hd hm4 (by omega) (by omega))
    (line_group hd hm4 (by omega) (by omega)) (line_group hd hm4 (by omega) (by omega))).congr
    fun p => ?_
  refine or_congr (block_rows (im := X86.img420 yb ub vb ys us vs) ?_ ?_ ?_ ?_ ?_ rfl p)
    (or_congr (block_rows (im := X86.img420 yb ub vb ys us vs) ?_ ?_ ?_ ?_ ?_ rfl p)
    (or_congr (block_rows (im := X86.img420 yb ub vb ys us vs) ?_ ?_ ?_ ?_ ?_ rfl p)
    (block_rows (im := X86.img420 yb ub vb ys us vs) ?_ ?_ ?_ ?_ ?_ rfl p)))
  all_goals try omega
  all_goals
    intro k hk
    simp only [X86.img420, Spec.i420Image, Spec.plane]
    congr 1
    try rw [show (16 * (2 * x) + k) / 2 = 16 * x + k / 2 by omega]
    try rw [show (16 * (2 * x + 1) + k) / 2 = 16 * x + (8 + k / 2) by omega]
    try rw [show 2 * y / 2 = y by omega]
    try rw [show (2 * y + 1) / 2 = y by omega]
    omega

/-- Both decoders of interleaved chroma. -/
theorem nv12_blocks {c : Colorimetry} {pf : PixelFormat} (hp : 0 < Spec.bpp pf)
    {put : Nat → Reg → Reg → Reg → K Unit} {w h ys uvs ds n m : Nat}
    {yb uvb : Buf} {d : Dst} (hput : Puts pf d put) (hn : n = 16 * Spec.bpp pf)
    (hm : w = 32 * m) (hh : h % 2 = 0)
    (hy : ∀ y, y < h → ys * y + w ≤ yb.len) (hu : ∀ y, y < h / 2 → uvs * y + w ≤ uvb.len)
    (hd : ∀ y, y < h → ds * y + n * (2 * m) ≤ d.len) :
    Emits (forK (h / 2) fun y => forK m fun x => do
      let (cb, cr) ← unpack_ui8x2_i16be_16x uvb (uvs * y + 32 * x)
      block_32x2 (back c) put cb cr yb (.ok (ys * (2 * y) + 32 * x))
        (.ok (ys * (2 * y + 1) + 32 * x))
        (.ok (ds * (2 * y) + n * (2 * x))) (.ok (ds * (2 * y) + n * (2 * x + 1)))
        (.ok (ds * (2 * y + 1) + n * (2 * x))) (.ok (ds * (2 * y + 1) + n * (2 * x + 1)))) ()
      (Rect d ds (n * (2 * m)) h (Spec.rgbRow pf (vdec c.std (X86.imgNv12 yb uvb ys uvs)))) := by
  refine dec420_groups (by omega) hh fun y hy' x hx => ?_
  have bu0 := line_group hu hm hy' hx
  unfold unpack_ui8x2_i16be_16x
  simp only [load_eq bu0, pure_bind]
  have h1 := (slli_hi 16 (fun j => if j < 32 then uvb.bytes (uvs * y + 32 * x + j) else 0)).congr
    (v := fun k => uvb.bytes (uvs * y + 32 * x + 2 * k)) fun k hk => if_pos (by omega)
  have h2 := (srli_slli_hi 16
    (fun j => if j < 32 then uvb.bytes (uvs * y + 32 * x + j) else 0)).congr
    (v := fun k => uvb.bytes (uvs * y + 32 * x + (2 * k + 1))) fun k hk => if_pos (by omega)
  refine (block_32x2_emits c hput hn h1 h2
    (line_group hy hm (by omega) hx) (line_group hy hm (by omega) hx)
    (line_group hd rfl (by omega) (by omega)) (line_group hd rfl (by omega) (by omega))
    (line_group hd rfl (by omega) (by omega)) (line_group hd rfl (by omega) (by omega))).congr
    fun p => ?_
  refine or_congr (block_rows (im := X86.imgNv12 yb uvb ys uvs) hp hn ?_ ?_ ?_ rfl p)
    (or_congr (block_rows (im := X86.imgNv12 yb uvb ys uvs) hp hn ?_ ?_ ?_ rfl p)
    (or_congr (block_rows (im := X86.imgNv12 yb uvb ys uvs) hp hn ?_ ?_ ?_ rfl p)
    (block_rows (im := X86.imgNv12 yb uvb ys uvs) hp hn ?_ ?_ ?_ rfl p))) <;>
  · intro k hk
    simp only [X86.imgNv12, Spec.nv12Image, Spec.plane]
    congr 1
    try rw [show (16 * (2 * x) + k) / 2 = 16 * x + k / 2 by omega]
    try rw [show (16 * (2 * x + 1) + k) / 2 = 16 * x + (8 + k / 2) by omega]
    try rw [show 2 * y / 2 = y by omega]
    try rw [show (2 * y + 1) / 2 = y by omega]
    omega

theorem nv12_to_bgra_avx2_emits (c : Colorimetry) (rev : Bool) {w h ys uvs ds : Nat}
    {yb uvb : Buf} {d : Dst} (hw : w % 32 = 0) (hh : h % 2 = 0)
    (hy : ∀ y, y < h → ys * y + w ≤ yb.len) (hu : ∀ y, y < h / 2 → uvs * y + w ≤ uvb.len)
    (hd : ∀ y, y < h → ds * y + w * 4 ≤ d.len) :
    Emits (nv12_to_bgra_avx2 exactIx c rev w h ys uvs yb uvb ds d) ()
      (Rect d ds (w * 4) h (Spec.rgbRow (outPf rev) (vdec c.std (X86.imgNv12 yb uvb ys uvs)))) := by
  obtain ⟨m, hm⟩ : ∃ m, w = 32 * m := ⟨w / 32, by omega⟩
  have hm4 : w * 4 = 64 * (2 * m) := by omega
  have h4 := X86.outPf_bpp rev
  unfold nv12_to_bgra_avx2
  simp only [wg_eq, K.liftM_eq, K.lift_ok, pure_bind, YUV_TO_RGB_WAVES, LANE_COUNT, Nat.div_one, Nat.reduceMul,
    show w / 32 = m by omega]
  rw [hm4] at hd ⊢
  exact nv12_blocks (by omega) (puts_bgra rev d) (n := 64) (by rw [h4]) hm hh hy hu hd

theorem nv12_to_rgb_avx2_emits (c : Colorimetry) {w h ys uvs ds : Nat}
    {yb uvb : Buf} {d : Dst} (hw : w % 32 = 0) (hh : h % 2 = 0)
    (hy : ∀ y, y < h → ys * y + w ≤ yb.len) (hu : ∀ y, y < h / 2 → uvs * y + w ≤ uvb.len)
    (hd : ∀ y, y < h → ds * y + w * 3 ≤ d.len) :
    Emits (nv12_to_rgb_avx2 exactIx c w h ys uvs yb uvb ds d) ()
      (Rect d ds (w * 3) h (Spec.rgbRow .rgb (vdec c.std (X86.imgNv12 yb uvb ys uvs)))) := by
  obtain ⟨m, hm⟩ : ∃ m, w = 32 * m := ⟨w / 32, by omega⟩
  have hm4 : w * 3 = 48 * (2 * m) := by omega
  unfold nv12_to_rgb_avx2
  simp only [wg_eq, K.liftM_eq, K.lift_ok, pure_bind, YUV_TO_RGB_WAVES, LANE_COUNT, Nat.div_one, 
    show w / 32 = m by omega]
  rw [hm4] at hd ⊢
  exact nv12_blocks (by decide) (puts_rgb d) (n := 48) rfl hm hh hy hu hd

end Verif.Avx2
