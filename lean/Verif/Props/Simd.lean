import Verif.Lemmas.Agree
import Verif.Lemmas.Check
import Verif.Props.Numeric
/-!
# C45-C52: the vector kernels against the portable ones

`cpu` is the processor under consideration and `plain` any processor for which the library selects
its portable code.
-/

namespace Verif

open Spec (bytesAt strideOf val byte blueFix)

variable {t : Target} {cpu plain : Cpu} {c : Call}

theorem not_i422 (hv : Spec.Valid t c) : c.dst_format.pixel_format ≠ .i422 := by
  have := hv.supported
  revert this
  cases c.src_format.pixel_format <;> cases c.dst_format.pixel_format <;> decide

/-! ## Rejected calls -/

/-- C45-C51, calls that are answered with an error: every processor gives the same answer and leaves
the same bytes. No condition on the call; holds for all kernels and with the test hook. -/
theorem C45_rejections {impls impls' : InstructionSet → Impl} {hook hook' : Option Int}
    {e : ErrorKind} {out : List Buf}
    (h : convertHook t impls cpu hook c = .ok (.error e, out)) :
    convertHook t impls' plain hook' c = .ok (.error e, out) := by
  obtain ⟨_, tb, hT, e1⟩ := hook_table t impls cpu hook
  obtain ⟨_, tb', hT', e2⟩ := hook_table t impls' plain hook'
  rw [e1] at h
  rw [e2]
  exact error_indep hT hT' h

/-- The same rejection on AVX2 and NEON. -/
example : convert .x64 crate neonCpu { exEncode with src_buffers := [noise 27 1] } =
    .ok (.error .notEnoughData, exEncode.dst_buffers) :=
  C45_rejections (cpu := avx2Cpu) (impls := crate) (hook := none) (hook' := none) rfl

/-! ## C52: reads of the vector kernels -/

/-- C52, exact: a call that meets the documented requirements completes without a fault if and only
if its source has the room `VectorRoom` asks for. (A fault of a valid call is an access outside the
buffers or a panic.) -/
theorem C52_criterion (hv : Spec.Valid t c) :
    (∃ r, convert t crate cpu c = .ok r) ↔ Spec.VectorRoom cpu.set c :=
  ⟨fun ⟨_, h⟩ => room_of_ok hv h, fun hm => ⟨_, (Runs.crate hv hm).stores⟩⟩

example : ∃ r, convert .x64 crate avx2Cpu exBgr = .ok r :=
  (C52_criterion exBgr_valid).2 (exBgr_room _)

/-- C52 for all conversions but encodings of Bgr images, on every processor: no access outside the
buffers. -/
theorem C52_other_sources_partial (hv : Spec.Valid t c)
    (hs : c.src_format.pixel_format ≠ .bgr ∨ Spec.isRgb c.dst_format.pixel_format = true) :
    ∃ out, convert t crate cpu c = .ok (.ok (), out) :=
  ⟨_, (Runs.crate hv (hs.elim .of_ne .of_rgb)).stores⟩

example : ∃ out, convert .x64 crate avx2Cpu exEncode = .ok (.ok (), out) :=
  C52_other_sources_partial exEncode_valid (.inl (by decide))

/-- C52 for encodings of a Bgr image whose buffer ends with its last pixel (packed lines in a buffer
of the reported size are the special case without stride): which widths are safe. -/
theorem C52_bgr_partial (hv : Spec.Valid t c) (hs : c.src_format.pixel_format = .bgr)
    (hd : Spec.isRgb c.dst_format.pixel_format = false) {b : Buf} (hb : c.src_buffers[0]? = some b)
    (hlen : b.len = strideOf c.src_strides 0 (3 * c.width.toNat) * (c.height.toNat - 1) +
      3 * c.width.toNat) :
    (∃ r, convert t crate cpu c = .ok r) ↔
      (cpu.set = .sse2 → c.width.toNat < 12 ∨ 2 ≤ c.width.toNat % 12) ∧
      (cpu.set = .avx2 → c.width.toNat < 24 ∨ 3 ≤ c.width.toNat % 24) := by
  rw [C52_criterion hv]
  unfold Spec.VectorRoom
  have e : (∀ b', c.src_buffers[0]? = some b' → Spec.GroupRoom cpu.set c.width.toNat
      (strideOf c.src_strides 0 (3 * c.width.toNat) * (c.height.toNat - 1)) b'.len) ↔
      Spec.GroupRoom cpu.set c.width.toNat
      (strideOf c.src_strides 0 (3 * c.width.toNat) * (c.height.toNat - 1)) b.len :=
    ⟨fun h => h b hb, fun h b' hb' => by rw [hb] at hb'; cases hb'; exact h⟩
  rw [show (c.src_format.pixel_format = .bgr → Spec.isRgb c.dst_format.pixel_format = false →
      ∀ b', c.src_buffers[0]? = some b' → Spec.GroupRoom cpu.set c.width.toNat
      (strideOf c.src_strides 0 (3 * c.width.toNat) * (c.height.toNat - 1)) b'.len) ↔
      (∀ b', c.src_buffers[0]? = some b' → Spec.GroupRoom cpu.set c.width.toNat
      (strideOf c.src_strides 0 (3 * c.width.toNat) * (c.height.toNat - 1)) b'.len) from
    ⟨fun h => h hs hd, fun h _ _ => h⟩, e, hlen]
  generalize strideOf c.src_strides 0 (3 * c.width.toNat) * (c.height.toNat - 1) = last
  generalize c.width.toNat = w
  cases cpu.set with
  | x86 => simp [Spec.GroupRoom]
  | neon => simp [Spec.GroupRoom]
  | sse2 => simp only [Spec.GroupRoom, forall_const, reduceCtorEq, false_implies, and_true]; omega
  | avx2 => simp only [Spec.GroupRoom, forall_const, reduceCtorEq, false_implies, true_and]; omega

/-- A packed Bgr image of `w` by 1 pixels in a buffer of the reported size. -/
def exTight (w : UInt32) : Call where
  width := w
  height := 1
  src_format := ⟨.bgr, .rgb, 1⟩
  src_strides := none
  src_buffers := [noise (3 * w.toNat) 1]
  dst_format := ⟨.i444, .bt601, 3⟩
  dst_strides := none
  dst_buffers := [noise w.toNat 2, noise w.toNat 3, noise w.toNat 4]

theorem exTight_valid : Spec.Valid .x64 (exTight 12) ∧ Spec.Valid .x64 (exTight 24) ∧
    Spec.Valid .x64 (exTight 14) :=
  ⟨valid_of_check (by decide +kernel), valid_of_check (by decide +kernel),
    valid_of_check (by decide +kernel)⟩

/-- **C52 is false**: on a processor with SSE2 the conversion of a packed 12x1 Bgr image reads behind
its buffer; with AVX2 a 24x1 image. -/
theorem C52_counterexample :
    Spec.Valid .x64 (exTight 12) ∧ (exTight 12).src_buffers[0]?.map Buf.len = some 36 ∧
    get_buffers_size .x64 12 1 (exTight 12).src_format none [0] = .ok (.ok (), [36]) ∧
    (¬ ∃ r, convert .x64 crate sse2Cpu (exTight 12) = .ok r) ∧
    (∃ r, convert .x64 crate plainCpu (exTight 12) = .ok r) ∧
    (¬ ∃ r, convert .x64 crate avx2Cpu (exTight 24) = .ok r) := by
  obtain ⟨h1, h2, -⟩ := exTight_valid
  refine ⟨h1, rfl, by decide +kernel, ?_, ?_, ?_⟩
  · rw [C52_bgr_partial h1 rfl rfl rfl (by decide)]
    intro h; revert h; decide
  · rw [C52_bgr_partial h1 rfl rfl rfl (by decide)]
    decide
  · rw [C52_bgr_partial h2 rfl rfl rfl (by decide)]
    intro h; revert h; decide

/-- The fault is a read outside the source. -/
example : (Sse2.rgb_i444 exactIx .bgr 3 .bt601 12 1 36 (noise 36 1) 12 12 12 ⟨0, 0, 12⟩ ⟨1, 0, 12⟩
    ⟨2, 0, 12⟩).run = .error .oobRead := by rfl

/-- A 14x1 image is converted. -/
example : ∃ r, convert .x64 crate sse2Cpu (exTight 14) = .ok r := by
  rw [C52_bgr_partial exTight_valid.2.2 rfl rfl rfl (by decide)]
  decide

/-! ## C45, C48: encoding -/

/-- Encoding gives the same result on every x86 processor (portable, SSE2 or AVX2 code). -/
theorem encode_same (hv : Spec.Valid t c) (hk : c.Encodes) (h : cpu.set ≠ .neon)
    (hp : plain.set = .x86) (hm : Spec.VectorRoom cpu.set c) :
    convert t crate cpu c = convert t crate plain c := by
  refine convert_agree hv hm (by rw [hp]; exact fun _ _ _ _ => trivial) ?_
  refine Sem.out_agree hv.dst_legal (not_i422 hv) (fun h => ?_) (fun h => ?_) ?_ ?_
  · rw [hk.1] at h; cases h
  · rw [Call.Decodes, hk.1] at h; cases h.1
  · intro _ _ x y _
    unfold Sem.cb444 Sem.cr444
    rw [(semOf_chroma h _ _ _).1, (semOf_chroma h _ _ _).2.1, hp]
    exact ⟨rfl, rfl⟩
  · intro _ _ x y _ _
    unfold Sem.cb420 Sem.cr420
    rw [(semOf_chroma h _ _ _).2.2.1, (semOf_chroma h _ _ _).2.2.2, hp]
    exact ⟨rfl, rfl⟩

/-- C45: with SSE2, encoding gives exactly the portable result, provided that a Bgr source has the
room the vector loads need (C52: without it the SSE2 code reads outside the buffer). -/
theorem C45_encode_partial (hv : Spec.Valid t c) (hk : c.Encodes) (h : cpu.set = .sse2)
    (hp : plain.set = .x86) (hm : Spec.VectorRoom .sse2 c) :
    convert t crate cpu c = convert t crate plain c :=
  encode_same hv hk (by rw [h]; decide) hp (by rw [h]; exact hm)

example : convert .x64 crate sse2Cpu exBgr = convert .x64 crate plainCpu exBgr :=
  C45_encode_partial exBgr_valid (by decide) rfl rfl (exBgr_room _)

/-- C48: with AVX2, encoding gives exactly the portable result, provided that a Bgr source has the
room the vector loads need. -/
theorem C48_encode_partial (hv : Spec.Valid t c) (hk : c.Encodes) (h : cpu.set = .avx2)
    (hp : plain.set = .x86) (hm : Spec.VectorRoom .avx2 c) :
    convert t crate cpu c = convert t crate plain c :=
  encode_same hv hk (by rw [h]; decide) hp (by rw [h]; exact hm)

example : convert .x64 crate avx2Cpu exBgr = convert .x64 crate plainCpu exBgr :=
  C48_encode_partial exBgr_valid (by decide) rfl rfl (exBgr_room _)

/-- Without a condition on the room: whenever both return, they return the same. -/
theorem C45_returns (hv : Spec.Valid t c) (hk : c.Encodes) (h : cpu.set ≠ .neon)
    (hp : plain.set = .x86) {r : Except ErrorKind Unit × List Buf}
    (ho : convert t crate cpu c = .ok r) : convert t crate plain c = .ok r := by
  rw [← encode_same hv hk h hp (room_of_ok hv ho), ho]

example : ∃ r, convert .x64 crate sse2Cpu exBgr = .ok r ∧ convert .x64 crate plainCpu exBgr = .ok r := by
  obtain ⟨out, ho⟩ := valid_stores (cpu := sse2Cpu) exBgr_valid (exBgr_room _)
  exact ⟨_, ho, C45_returns (cpu := sse2Cpu) exBgr_valid (by decide) (by decide) rfl ho⟩

/-- **C45 is false** without the condition on the room: the portable code converts the image of
`C52_counterexample`, the SSE2 code faults. -/
theorem C45_counterexample : Spec.Valid .x64 (exTight 12) ∧
    (∃ out, Stores .x64 crate plainCpu (exTight 12) out) ∧
    ∀ r, convert .x64 crate sse2Cpu (exTight 12) ≠ .ok r :=
  ⟨exTight_valid.1, ⟨_, (Runs.crate (cpu := plainCpu) exTight_valid.1 fun _ _ _ _ => trivial).stores⟩,
    fun _ h => C52_counterexample.2.2.2.1 ⟨_, h⟩⟩

/-- **C48 is false** without the condition on the room. -/
theorem C48_counterexample : Spec.Valid .x64 (exTight 24) ∧
    (∃ out, Stores .x64 crate plainCpu (exTight 24) out) ∧
    ∀ r, convert .x64 crate avx2Cpu (exTight 24) ≠ .ok r :=
  ⟨exTight_valid.2.1, ⟨_, (Runs.crate (cpu := plainCpu) exTight_valid.2.1 fun _ _ _ _ => trivial).stores⟩,
    fun _ h => C52_counterexample.2.2.2.2.2 ⟨_, h⟩⟩

/-- The processors and images exist. -/
example : sse2Cpu.set = .sse2 ∧ avx2Cpu.set = .avx2 ∧ plainCpu.set = .x86 ∧ neonCpu.set = .neon ∧
    exBgr.Encodes ∧ Spec.VectorRoom .sse2 exBgr ∧ Spec.VectorRoom .avx2 exBgr :=
  ⟨rfl, rfl, rfl, rfl, by decide, exBgr_room _, exBgr_room _⟩

/-! ## C47, C50: shuffles -/

/-- RGB to RGB conversions give the same result on every processor. -/
theorem shuffle_same (hv : Spec.Valid t c) (hk : c.Shuffles) :
    convert t crate cpu c = convert t crate plain c := by
  refine convert_agree hv (.of_rgb hk.2) (.of_rgb hk.2) ?_
  unfold Sem.out Sem.resultPlanes
  simp only [hk.1, hk.2, if_true]

/-- C47: Rgb->Bgra, Bgra->Rgb, Bgr->Rgb with SSE2. -/
theorem C47_shuffle (hv : Spec.Valid t c) (hk : c.Shuffles) (_ : cpu.set = .sse2)
    (_ : plain.set = .x86) : convert t crate cpu c = convert t crate plain c := shuffle_same hv hk

example : convert .x64 crate sse2Cpu exShuffle = convert .x64 crate plainCpu exShuffle :=
  C47_shuffle exShuffle_valid (by decide) rfl rfl

/-- C50: Rgb->Bgra, Bgra->Rgb, Bgr->Rgb with AVX2. -/
theorem C50_shuffle (hv : Spec.Valid t c) (hk : c.Shuffles) (_ : cpu.set = .avx2)
    (_ : plain.set = .x86) : convert t crate cpu c = convert t crate plain c := shuffle_same hv hk

example : convert .x64 crate avx2Cpu exShuffle = convert .x64 crate plainCpu exShuffle :=
  C50_shuffle exShuffle_valid (by decide) rfl rfl

example : Spec.Valid .x64 exShuffle ∧ exShuffle.Shuffles := ⟨exShuffle_valid, by decide⟩

/-! ## C46, C49: decoding -/

/-- Columns the vector code decodes. -/
def Spec.vectorColumns (set : InstructionSet) (src dst : PixelFormat) (w : Nat) : Nat :=
  match set, src with
  | .sse2, .i444 => 8 * (w / 8)
  | .sse2, _ => if dst = .rgb then 0 else 16 * (w / 16)
  | .avx2, .i444 => 16 * (w / 16)
  | .avx2, _ => 32 * (w / 32)
  | _, _ => 0

theorem semOf_blue_exact (set : InstructionSet) (p d : PixelFormat) (w x : Nat) (s : Spec.Std)
    (y cb : Int) : (semOf set).blue p d w x s y cb =
      if x < Spec.vectorColumns set p d w ∧ blueFix s y cb > 32767 then 0 else Spec.blue s y cb := by
  have key : ∀ n, (if x < n then Simd.vblue else Spec.blue) s y cb =
      if x < n ∧ blueFix s y cb > 32767 then 0 else Spec.blue s y cb := by
    intro n
    by_cases h : x < n
    · simp only [h, if_true, true_and]; rfl
    · simp only [h, if_false, false_and]
  cases set with
  | x86 => simp [Spec.vectorColumns]; rfl
  | neon => simp [Spec.vectorColumns]; rfl
  | sse2 =>
    refine (key (Sse2.vpart p d w)).trans ?_
    cases p <;> rfl
  | avx2 =>
    refine (key (Avx2.vpart p d w)).trans ?_
    cases p <;> rfl

/-- What every processor stores when decoding: red and green as specified, and blue as specified but
for the pixels of the vector columns whose blue, in units of 1/64, exceeds the 16-bit range: there
zero is stored. -/
theorem C46_exact (hv : Spec.Valid t c) (hk : c.Decodes) {out : List Buf}
    (ho : Stores t crate cpu c out) {x y : Nat} (hp : c.Pixel x y) :
    let s := Spec.std c.src_format.color_space
    let Y := val (c.yuvIn.y x y)
    let Cb := val (c.yuvIn.cb x y)
    let Cr := val (c.yuvIn.cr x y)
    (c.rgbOut out).r x y = byte (Spec.red s Y Cr) ∧
    (c.rgbOut out).g x y = byte (Spec.green s Y Cb Cr) ∧
    (c.rgbOut out).b x y = if x < Spec.vectorColumns cpu.set c.src_format.pixel_format
        c.dst_format.pixel_format c.width.toNat ∧ blueFix s Y Cb > 32767 then 0
      else byte (Spec.blue s Y Cb) := by
  have hm : Spec.VectorRoom cpu.set c := .of_rgb hk.2
  rw [(Runs.crate hv hm).out_eq ho]
  obtain ⟨h1, h2, h3⟩ := (Runs.crate hv hm).decode hk hp
  refine ⟨h1, h2, h3.trans ?_⟩
  show byte ((semOf cpu.set).blue _ _ _ _ _ _ _) = _
  rw [semOf_blue_exact]
  split <;> rfl

/-- Decoding on any two processors, exact criterion: the results are the same if and only if no pixel
in a vector column has a blue value (in units of 1/64) above 32767. -/
theorem decode_same_iff (hv : Spec.Valid t c) (hk : c.Decodes) (hp : plain.set = .x86) :
    convert t crate cpu c = convert t crate plain c ↔
    ∀ x y, c.Pixel x y → x < Spec.vectorColumns cpu.set c.src_format.pixel_format
      c.dst_format.pixel_format c.width.toNat →
      blueFix (Spec.std c.src_format.color_space) (val (c.yuvIn.y x y)) (val (c.yuvIn.cb x y)) ≤
        32767 := by
  have hm : ∀ set, Spec.VectorRoom set c := fun _ => .of_rgb hk.2
  constructor
  · intro he x y hxy hx
    by_contra hbig
    have h1 := C46_exact hv hk (Runs.crate (cpu := cpu) hv (hm _)).stores hxy
    have h2 := C46_exact hv hk (Runs.crate (cpu := plain) hv (hm _)).stores hxy
    have e : (semOf cpu.set).out c = (semOf plain.set).out c := by
      have h3 := (Runs.crate (cpu := cpu) hv (hm _)).stores
      have h4 := (Runs.crate (cpu := plain) hv (hm _)).stores
      unfold Stores at h3 h4
      rw [he] at h3
      rw [h3] at h4
      injection h4 with h4
      injection h4
    rw [e] at h1
    have h5 := h1.2.2.symm.trans h2.2.2
    rw [if_pos ⟨hx, by omega⟩, if_neg (by rw [hp]; rintro ⟨h, -⟩; exact absurd h (Nat.not_lt_zero _))]
      at h5
    have h6 : Spec.blue (Spec.std c.src_format.color_space) (val (c.yuvIn.y x y))
        (val (c.yuvIn.cb x y)) = 255 := by
      unfold Spec.blue Spec.clamp; omega
    rw [h6] at h5
    exact absurd h5 (by decide)
  · intro h
    refine convert_agree hv (hm _) (hm _) ?_
    refine Sem.out_agree hv.dst_legal (not_i422 hv) (fun _ => hk.2) (fun _ x y hxy => ?_)
      (fun h => ?_) (fun h => ?_)
    · rw [semOf_blue_exact, semOf_blue_exact, if_neg, if_neg]
      · rw [hp]; rintro ⟨h, -⟩; exact absurd h (Nat.not_lt_zero _)
      · rintro ⟨h1, h2⟩
        have := h x y hxy h1
        omega
    · rw [Call.Encodes, hk.1] at h; cases h.1
    · rw [Call.Encodes, hk.1] at h; cases h.1

/-- No blue of an image exceeds the 16-bit range: always in full range; in limited range if no luma
exceeds 235 and no Cb exceeds 240. -/
def Spec.LegalCodes (c : Call) : Prop :=
  (Spec.std c.src_format.color_space).fullRange = true ∨
  ∀ x y, c.Pixel x y → c.yuvIn.y x y ≤ 235 ∧ c.yuvIn.cb x y ≤ 240

theorem decode_same (hv : Spec.Valid t c) (hk : c.Decodes) (hp : plain.set = .x86)
    (hl : Spec.LegalCodes c) : convert t crate cpu c = convert t crate plain c := by
  rw [decode_same_iff hv hk hp]
  intro x y hxy _
  refine blueFix_small (val_range _) (val_range _) ?_
  rcases hl with h | h
  · exact .inl h
  · obtain ⟨h1, h2⟩ := h x y hxy
    rw [UInt8.le_iff_toNat_le] at h1 h2
    refine .inr ⟨?_, ?_⟩ <;> unfold val
    · exact_mod_cast h1
    · exact_mod_cast h2

/-- C46: with SSE2, decoding full-range images, and limited-range images whose codes are legal, gives
exactly the portable result. Missing: limited-range images with illegal codes (counterexample). -/
theorem C46_decode_partial (hv : Spec.Valid t c) (hk : c.Decodes) (_ : cpu.set = .sse2)
    (hp : plain.set = .x86) (hl : Spec.LegalCodes c) :
    convert t crate cpu c = convert t crate plain c := decode_same hv hk hp hl

/-- C46, exact criterion. -/
theorem C46_criterion (hv : Spec.Valid t c) (hk : c.Decodes) (h : cpu.set = .sse2)
    (hp : plain.set = .x86) :
    convert t crate cpu c = convert t crate plain c ↔
    ∀ x y, c.Pixel x y → x < Spec.vectorColumns .sse2 c.src_format.pixel_format
      c.dst_format.pixel_format c.width.toNat →
      blueFix (Spec.std c.src_format.color_space) (val (c.yuvIn.y x y)) (val (c.yuvIn.cb x y)) ≤
        32767 := by
  rw [decode_same_iff hv hk hp, h]

/-- C49: with AVX2, decoding full-range images, and limited-range images whose codes are legal, gives
exactly the portable result. Missing: limited-range images with illegal codes (counterexample). -/
theorem C49_decode_partial (hv : Spec.Valid t c) (hk : c.Decodes) (_ : cpu.set = .avx2)
    (hp : plain.set = .x86) (hl : Spec.LegalCodes c) :
    convert t crate cpu c = convert t crate plain c := decode_same hv hk hp hl

/-- C49, exact criterion. -/
theorem C49_criterion (hv : Spec.Valid t c) (hk : c.Decodes) (h : cpu.set = .avx2)
    (hp : plain.set = .x86) :
    convert t crate cpu c = convert t crate plain c ↔
    ∀ x y, c.Pixel x y → x < Spec.vectorColumns .avx2 c.src_format.pixel_format
      c.dst_format.pixel_format c.width.toNat →
      blueFix (Spec.std c.src_format.color_space) (val (c.yuvIn.y x y)) (val (c.yuvIn.cb x y)) ≤
        32767 := by
  rw [decode_same_iff hv hk hp, h]

/-- A 16x1 I444 image, all codes 255, decoded. -/
def exWhite (cs : ColorSpace) : Call where
  width := 16
  height := 1
  src_format := ⟨.i444, cs, 3⟩
  src_strides := none
  src_buffers := [⟨16, fun _ => 255⟩, ⟨16, fun _ => 255⟩, ⟨16, fun _ => 255⟩]
  dst_format := ⟨.bgra, .rgb, 1⟩
  dst_strides := none
  dst_buffers := [noise 64 2]

theorem exWhite_valid : Spec.Valid .x64 (exWhite .bt709) ∧ Spec.Valid .x64 (exWhite .bt709FR) :=
  ⟨valid_of_check (by decide +kernel), valid_of_check (by decide +kernel)⟩

/-- **C46 and C49 are false**: on SSE2 and AVX2 the brightest blue of a limited-range BT.709 image is
decoded as zero. -/
theorem C46_counterexample :
    convert .x64 crate sse2Cpu (exWhite .bt709) ≠ convert .x64 crate plainCpu (exWhite .bt709) ∧
    (∀ out, Stores .x64 crate sse2Cpu (exWhite .bt709) out →
      ((exWhite .bt709).rgbOut out).b 0 0 = 0) ∧
    (∀ out, Stores .x64 crate plainCpu (exWhite .bt709) out →
      ((exWhite .bt709).rgbOut out).b 0 0 = 255) := by
  have hp : (exWhite .bt709).Pixel 0 0 := by unfold Call.Pixel; decide
  have hk : (exWhite .bt709).Decodes := by unfold Call.Decodes; decide
  refine ⟨fun h => ?_, fun out ho => ?_, fun out ho => ?_⟩
  · rw [C46_criterion exWhite_valid.1 hk rfl rfl] at h
    have := h 0 0 hp (by decide)
    revert this; decide
  · rw [(C46_exact exWhite_valid.1 hk ho hp).2.2]
    decide
  · rw [(C46_exact exWhite_valid.1 hk ho hp).2.2]
    decide

/-- The same with AVX2. -/
theorem C49_counterexample :
    convert .x64 crate avx2Cpu (exWhite .bt709) ≠ convert .x64 crate plainCpu (exWhite .bt709) := by
  intro h
  rw [C49_criterion exWhite_valid.1 (by unfold Call.Decodes; decide) rfl rfl] at h
  have := h 0 0 (by unfold Call.Pixel; decide) (by decide)
  revert this; decide

/-- The hypotheses of C46 and C49 are met: the same image in full range. -/
example : Spec.LegalCodes (exWhite .bt709FR) ∧ (exWhite .bt709FR).Decodes :=
  ⟨.inl rfl, by unfold Call.Decodes; decide⟩

/-! ## C51: NEON -/

/-- `t / n` lies exactly between two integers. -/
def Spec.Tie (t n : Int) : Prop := t % n = n / 2

theorem byte_inj {a b : Int} (ha : 0 ≤ a ∧ a ≤ 255) (hb : 0 ≤ b ∧ b ≤ 255) (h : byte a = byte b) :
    a = b := by
  have := congrArg UInt8.toNat h
  unfold byte at this
  rw [UInt8.toNat_ofNat', UInt8.toNat_ofNat', Nat.mod_eq_of_lt (by omega),
    Nat.mod_eq_of_lt (by omega)] at this
  omega

/-- The two ways of rounding differ exactly for ties, by one. -/
theorem round_tie {t : Int} {n : Int} (hn : n = 65536 ∨ n = 262144) :
    Spec.roundUp t n = Spec.roundDown t n + (if t % n = n / 2 then 1 else 0) := by
  unfold Spec.roundUp Spec.roundDown
  rcases hn with rfl | rfl <;> split <;> omega

/-- One chroma sample: NEON and the portable code agree exactly if there is no tie. -/
theorem chroma_same {t n : Int} (hn : n = 65536 ∨ n = 262144)
    (h0 : 0 ≤ 128 + Spec.roundDown t n) (h1 : 128 + Spec.roundUp t n ≤ 255) :
    byte (Spec.clamp (128 + Spec.roundUp t n)) = byte (128 + Spec.roundDown t n) ↔
      ¬ Spec.Tie t n := by
  have := round_tie (t := t) hn
  have e : Spec.clamp (128 + Spec.roundUp t n) = 128 + Spec.roundUp t n := by
    unfold Spec.clamp; split at this <;> omega
  rw [e]
  unfold Spec.Tie
  constructor
  · intro h ht
    rw [if_pos ht] at this
    have := byte_inj (by omega) (by omega) h
    omega
  · intro ht
    rw [if_neg ht] at this
    rw [this, add_zero]

theorem chroma_range (s : Spec.Std) {r g b m : Int} (hm : m = 1 ∨ m = 4)
    (hr : 0 ≤ r ∧ r ≤ 255 * m) (hg : 0 ≤ g ∧ g ≤ 255 * m) (hb : 0 ≤ b ∧ b ≤ 255 * m) :
    0 ≤ 128 + Spec.roundDown (Spec.dot (Spec.cbCoef s) r g b) (m * 65536) ∧
    128 + Spec.roundUp (Spec.dot (Spec.cbCoef s) r g b) (m * 65536) ≤ 255 ∧
    0 ≤ 128 + Spec.roundDown (Spec.dot (Spec.crCoef s) r g b) (m * 65536) ∧
    128 + Spec.roundUp (Spec.dot (Spec.crCoef s) r g b) (m * 65536) ≤ 255 := by
  unfold Spec.roundUp Spec.roundDown Spec.dot
  rcases hm with rfl | rfl <;> cases s <;> simp only [Spec.cbCoef, Spec.crCoef] <;> omega

theorem sum4_range (p : Spec.Plane) (x y : Nat) : 0 ≤ Spec.sum4 p x y ∧ Spec.sum4 p x y ≤ 255 * 4 := by
  unfold Spec.sum4
  have h1 := val_range (p (2 * x) (2 * y))
  have h2 := val_range (p (2 * x + 1) (2 * y))
  have h3 := val_range (p (2 * x) (2 * y + 1))
  have h4 := val_range (p (2 * x + 1) (2 * y + 1))
  omega

/-- No chroma value of the image that the vector code computes is exactly between two codes: in
4:4:4 the pixels of the first `8 * (w / 8)` columns, in 4:2:0 the blocks of the first `4 * (w / 8)`
columns of blocks. -/
def Spec.NoTies (c : Call) : Prop :=
  let s := Spec.std c.dst_format.color_space
  (c.dst_format.pixel_format = .i444 → ∀ x y, c.Pixel x y → x < 8 * (c.width.toNat / 8) →
    ¬ Spec.Tie (Spec.dot (Spec.cbCoef s) (val (c.rgbIn.r x y)) (val (c.rgbIn.g x y))
      (val (c.rgbIn.b x y))) 65536 ∧
    ¬ Spec.Tie (Spec.dot (Spec.crCoef s) (val (c.rgbIn.r x y)) (val (c.rgbIn.g x y))
      (val (c.rgbIn.b x y))) 65536) ∧
  (c.dst_format.pixel_format ≠ .i444 → ∀ x y, x < 4 * (c.width.toNat / 8) →
    y < c.height.toNat / 2 →
    ¬ Spec.Tie (Spec.dot (Spec.cbCoef s) (Spec.sum4 c.rgbIn.r x y) (Spec.sum4 c.rgbIn.g x y)
      (Spec.sum4 c.rgbIn.b x y)) 262144 ∧
    ¬ Spec.Tie (Spec.dot (Spec.crCoef s) (Spec.sum4 c.rgbIn.r x y) (Spec.sum4 c.rgbIn.g x y)
      (Spec.sum4 c.rgbIn.b x y)) 262144)

/-- C51 for encoding, exact criterion: NEON gives the portable result if and only if no chroma value
in the vector part of the image is a tie. -/
theorem C51_encode_criterion (hv : Spec.Valid t c) (hk : c.Encodes) (h : cpu.set = .neon)
    (hp : plain.set = .x86) :
    convert t crate cpu c = convert t crate plain c ↔ Spec.NoTies c := by
  have hm : ∀ {q : Cpu}, q.set = .neon ∨ q.set = .x86 → Spec.VectorRoom q.set c := by
    rintro q (e | e) <;> rw [e] <;> exact fun _ _ _ _ => trivial
  have k1 : ∀ x y, (byte (Spec.cbUp (Spec.std c.dst_format.color_space) (val (c.rgbIn.r x y))
      (val (c.rgbIn.g x y)) (val (c.rgbIn.b x y))) = _ ↔ _) ∧ (byte (Spec.crUp
      (Spec.std c.dst_format.color_space) (val (c.rgbIn.r x y)) (val (c.rgbIn.g x y))
      (val (c.rgbIn.b x y))) = _ ↔ _) := fun x y => by
    have := chroma_range (Spec.std c.dst_format.color_space) (.inl rfl) (val_range (c.rgbIn.r x y))
      (val_range (c.rgbIn.g x y)) (val_range (c.rgbIn.b x y))
    exact ⟨chroma_same (.inl rfl) this.1 this.2.1, chroma_same (.inl rfl) this.2.2.1 this.2.2.2⟩
  have k2 : ∀ x y, (byte (Spec.cbAvgUp (Spec.std c.dst_format.color_space) (Spec.sum4 c.rgbIn.r x y)
      (Spec.sum4 c.rgbIn.g x y) (Spec.sum4 c.rgbIn.b x y)) = _ ↔ _) ∧ (byte (Spec.crAvgUp
      (Spec.std c.dst_format.color_space) (Spec.sum4 c.rgbIn.r x y) (Spec.sum4 c.rgbIn.g x y)
      (Spec.sum4 c.rgbIn.b x y)) = _ ↔ _) := fun x y => by
    have := chroma_range (Spec.std c.dst_format.color_space) (.inr rfl) (sum4_range c.rgbIn.r x y)
      (sum4_range c.rgbIn.g x y) (sum4_range c.rgbIn.b x y)
    exact ⟨chroma_same (.inr rfl) this.1 this.2.1, chroma_same (.inr rfl) this.2.2.1 this.2.2.2⟩
  constructor
  · intro he
    have ho : Stores t crate cpu c _ := (Runs.crate hv (hm (.inl h))).stores
    have ho' : Stores t crate plain c _ := he.symm.trans ho
    refine ⟨fun hd x y hxy hx => ?_, fun hd x y hx hy => ?_⟩
    · obtain ⟨a1, a2⟩ := C22_chroma_444_neon hv hk h hd ho hxy
      obtain ⟨b1, b2⟩ := C22_chroma_444_partial hv hk (by rw [hp]; decide) hd ho' hxy
      rw [if_pos hx] at a1 a2
      exact ⟨(k1 x y).1.1 (a1.symm.trans b1), (k1 x y).2.1 (a2.symm.trans b2)⟩
    · have hd' : c.dst_format.pixel_format = .i420 ∨ c.dst_format.pixel_format = .nv12 :=
        dst_420 hv hk hd
      have hxy : c.Pixel (2 * x) (2 * y) := ⟨by omega, by omega⟩
      obtain ⟨a1, a2⟩ := C21_chroma_420_neon hv hk h hd' ho hxy
      obtain ⟨b1, b2⟩ := C21_chroma_420_partial hv hk (by rw [hp]; decide) hd' ho' hxy
      have ex : 2 * x / 2 = x := by omega
      have ey : 2 * y / 2 = y := by omega
      rw [ex, ey] at a1 a2 b1 b2
      rw [if_pos hx] at a1 a2
      exact ⟨(k2 x y).1.1 (a1.symm.trans b1), (k2 x y).2.1 (a2.symm.trans b2)⟩
  · rintro ⟨n1, n2⟩
    refine convert_agree hv (hm (.inl h)) (hm (.inr hp)) ?_
    rw [h, hp]
    refine Sem.out_agree hv.dst_legal (not_i422 hv) (fun h => ?_) (fun h => ?_) ?_ ?_
    · rw [hk.1] at h; cases h
    · rw [Call.Decodes, hk.1] at h; cases h.1
    · intro _ hd x y hxy
      simp only [Sem.cb444, Sem.cr444, semOf, Neon.sem, Sem.scalar]
      by_cases hx : x < 8 * (c.width.toNat / 8)
      · rw [if_pos hx, if_pos hx]
        exact ⟨(k1 x y).1.2 (n1 hd x y hxy hx).1, (k1 x y).2.2 (n1 hd x y hxy hx).2⟩
      · rw [if_neg hx, if_neg hx]; exact ⟨rfl, rfl⟩
    · intro _ hd x y hx hy
      simp only [Sem.cb420, Sem.cr420, semOf, Neon.sem, Sem.scalar]
      by_cases hx : x < 4 * (c.width.toNat / 8)
      · rw [if_pos hx, if_pos hx]
        exact ⟨(k2 x y).1.2 (n2 hd x y hx hy).1, (k2 x y).2.2 (n2 hd x y hx hy).2⟩
      · rw [if_neg hx, if_neg hx]; exact ⟨rfl, rfl⟩

/-- C51 for encoding: equal results for images without ties. Missing: images with ties (the results
differ: `C51_encode_criterion`, `C51_counterexample`), for which `C51_within_one` bounds the
difference. -/
theorem C51_encode_partial (hv : Spec.Valid t c) (hk : c.Encodes) (h : cpu.set = .neon)
    (hp : plain.set = .x86) (hn : Spec.NoTies c) :
    convert t crate cpu c = convert t crate plain c := (C51_encode_criterion hv hk h hp).2 hn

/-- C51 for decoding and for RGB to RGB conversions. -/
theorem C51_decode (hv : Spec.Valid t c) (hk : c.Decodes ∨ c.Shuffles) (h : cpu.set = .neon)
    (hp : plain.set = .x86) : convert t crate cpu c = convert t crate plain c := by
  rcases hk with hk | hk
  · rw [decode_same_iff hv hk hp, h]
    intro x y _ hx
    exact absurd hx (Nat.not_lt_zero _)
  · exact shuffle_same hv hk

example : convert .x64 crate neonCpu exDecode = convert .x64 crate plainCpu exDecode :=
  C51_decode exDecode_valid (.inl (by decide)) rfl rfl

/-- C51, any encoding: luma is the same, Cb and Cr are the same or one larger with NEON. -/
theorem C51_within_one (hv : Spec.Valid t c) (hk : c.Encodes) (h : cpu.set = .neon)
    (hp : plain.set = .x86) {out out' : List Buf} (ho : Stores t crate cpu c out)
    (ho' : Stores t crate plain c out') {x y : Nat} (hxy : c.Pixel x y) :
    (c.yuvOut out).y x y = (c.yuvOut out').y x y ∧
    (val ((c.yuvOut out).cb x y) = val ((c.yuvOut out').cb x y) ∨
      val ((c.yuvOut out).cb x y) = val ((c.yuvOut out').cb x y) + 1) ∧
    (val ((c.yuvOut out).cr x y) = val ((c.yuvOut out').cr x y) ∨
      val ((c.yuvOut out).cr x y) = val ((c.yuvOut out').cr x y) + 1) := by
  have key : ∀ {T n : Int}, (n = 65536 ∨ n = 262144) → 0 ≤ 128 + Spec.roundDown T n →
      128 + Spec.roundUp T n ≤ 255 → ∀ {p : Prop} [Decidable p],
      val (byte (if p then Spec.clamp (128 + Spec.roundUp T n) else 128 + Spec.roundDown T n)) =
        val (byte (128 + Spec.roundDown T n)) ∨
      val (byte (if p then Spec.clamp (128 + Spec.roundUp T n) else 128 + Spec.roundDown T n)) =
        val (byte (128 + Spec.roundDown T n)) + 1 := by
    intro T n hn h0 h1 p _
    have e := round_tie (t := T) hn
    have vb : ∀ {z : Int}, 0 ≤ z → z ≤ 255 → val (byte z) = z := by
      intro z h0 h1
      unfold val byte
      rw [UInt8.toNat_ofNat', Nat.mod_eq_of_lt (by omega)]
      omega
    by_cases hp : p
    · rw [if_pos hp]
      have e' : Spec.clamp (128 + Spec.roundUp T n) = 128 + Spec.roundUp T n := by
        unfold Spec.clamp; split at e <;> omega
      rw [e', vb (by split at e <;> omega) h1, vb h0 (by split at e <;> omega)]
      split at e <;> omega
    · rw [if_neg hp]; exact .inl rfl
  refine ⟨?_, ?_⟩
  · rw [C20_luma hv hk ho hxy, C20_luma hv hk ho' hxy]
  · by_cases hd : c.dst_format.pixel_format = .i444
    · obtain ⟨a1, a2⟩ := C22_chroma_444_neon hv hk h hd ho hxy
      obtain ⟨b1, b2⟩ := C22_chroma_444_partial hv hk (by rw [hp]; decide) hd ho' hxy
      have := chroma_range (Spec.std c.dst_format.color_space) (.inl rfl)
        (val_range (c.rgbIn.r x y)) (val_range (c.rgbIn.g x y)) (val_range (c.rgbIn.b x y))
      rw [a1, a2, b1, b2]
      exact ⟨key (.inl rfl) this.1 this.2.1, key (.inl rfl) this.2.2.1 this.2.2.2⟩
    · have hd' : c.dst_format.pixel_format = .i420 ∨ c.dst_format.pixel_format = .nv12 :=
        dst_420 hv hk hd
      obtain ⟨a1, a2⟩ := C21_chroma_420_neon hv hk h hd' ho hxy
      obtain ⟨b1, b2⟩ := C21_chroma_420_partial hv hk (by rw [hp]; decide) hd' ho' hxy
      have := chroma_range (Spec.std c.dst_format.color_space) (.inr rfl)
        (sum4_range c.rgbIn.r (x / 2) (y / 2)) (sum4_range c.rgbIn.g (x / 2) (y / 2))
        (sum4_range c.rgbIn.b (x / 2) (y / 2))
      rw [a1, a2, b1, b2]
      exact ⟨key (.inr rfl) this.1 this.2.1, key (.inr rfl) this.2.2.1 this.2.2.2⟩

/-- An 8x1 Rgb image with one colour. -/
def exFlat (r g b : UInt8) : Call where
  width := 8
  height := 1
  src_format := ⟨.bgr, .rgb, 1⟩
  src_strides := none
  src_buffers := [⟨24, fun i => if i % 3 = 0 then b else if i % 3 = 1 then g else r⟩]
  dst_format := ⟨.i444, .bt709FR, 3⟩
  dst_strides := none
  dst_buffers := [noise 8 2, noise 8 3, noise 8 4]

theorem exFlat_valid : Spec.Valid .x64 (exFlat 16 64 0) ∧ Spec.Valid .x64 (exFlat 16 65 0) :=
  ⟨valid_of_check (by decide +kernel), valid_of_check (by decide +kernel)⟩

/-- **C51 is false**: the Cb of r = 16, g = 64, b = 0 (BT.709 full range) is a tie; NEON and the
portable code round it differently. -/
theorem C51_counterexample : Spec.Valid .x64 (exFlat 16 64 0) ∧
    convert .x64 crate neonCpu (exFlat 16 64 0) ≠ convert .x64 crate plainCpu (exFlat 16 64 0) := by
  refine ⟨exFlat_valid.1, fun h => ?_⟩
  rw [C51_encode_criterion exFlat_valid.1 (by unfold Call.Encodes; decide) rfl rfl] at h
  refine (h.1 rfl 0 0 (by unfold Call.Pixel; decide) (by decide)).1 ?_
  unfold Spec.Tie
  decide

/-- The hypotheses of C51 are met: an image without ties. -/
example : Spec.NoTies (exFlat 16 65 0) := by
  refine ⟨fun _ x y hp _ => ?_, fun h => absurd rfl h⟩
  obtain ⟨h1, h2⟩ := hp
  have e : y = 0 := by change y < 1 at h2; omega
  subst e
  change x < 8 at h1
  unfold Spec.Tie
  revert x
  decide

end Verif
