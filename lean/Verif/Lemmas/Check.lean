import Verif.Spec.Valid
import Verif.Lemmas.Convert
/-! # Checking the hypotheses of the theorems on concrete calls -/

namespace Verif

/-- Executable version of `PlaneFits`. -/
def planeFitsB (len stride row rows : Nat) : Bool :=
  decide (row ≤ stride) && decide (stride * (rows - 1) + row ≤ len) && decide (stride ≤ len)

/-- Executable version of `Fits`. -/
def fitsB (f : ImageFormat) (w h : UInt32) (strides : Option (List Nat)) (bufs : List Buf) : Bool :=
  (match strides with
    | none => true
    | some l => decide (f.num_planes.toNat ≤ l.length)) &&
  decide (f.num_planes.toNat ≤ bufs.length) &&
  (List.range 3).all (fun i =>
    match bufs[i]?, (Spec.dims f.pixel_format f.num_planes.toNat w.toNat h.toNat)[i]? with
    | some b, some rc => planeFitsB b.len (Spec.strideOf strides i rc.1) rc.1 rc.2
    | _, _ => true) &&
  (match bufs[0]? with
    | none => true
    | some b => decide (f.pixel_format = .nv12 → f.num_planes.toNat = 1 →
        Spec.strideOf strides 0 w.toNat * (h.toNat + 1) ≤ b.len))

theorem dims_length (pf : PixelFormat) (n w h : Nat) : (Spec.dims pf n w h).length ≤ 3 := by
  cases pf <;> simp only [Spec.dims] <;> try split
  all_goals simp

theorem fits_of_check {f : ImageFormat} {w h : UInt32} {strides : Option (List Nat)}
    {bufs : List Buf} (hc : fitsB f w h strides bufs = true) : Spec.Fits f w h strides bufs := by
  unfold fitsB at hc
  simp only [Bool.and_eq_true, decide_eq_true_eq, List.all_eq_true, List.mem_range] at hc
  obtain ⟨⟨⟨h1, h2⟩, h3⟩, h4⟩ := hc
  refine ⟨?_, h2, ?_, ?_⟩
  · rintro l rfl
    simpa using h1
  · intro i b rc hb hd
    have hi : i < 3 := by
      have := dims_length f.pixel_format f.num_planes.toNat w.toNat h.toNat
      have := (List.getElem?_eq_some_iff.1 hd).1
      omega
    have := h3 i hi
    rw [hb, hd] at this
    simp only [planeFitsB, Bool.and_eq_true, decide_eq_true_eq] at this
    exact ⟨this.1.1, this.1.2, this.2⟩
  · intro b hb
    rw [hb] at h4
    exact of_decide_eq_true h4

/-- Executable version of `Valid`. -/
def validB (t : Target) (c : Call) : Bool :=
  decide (32 ≤ t.bits) && decide (Spec.Legal c.src_format c.width c.height) &&
  decide (Spec.Legal c.dst_format c.width c.height) &&
  decide (Spec.Supported c.src_format.pixel_format c.dst_format.pixel_format) &&
  decide (c.width ≠ 0) && decide (c.height ≠ 0) &&
  fitsB c.src_format c.width c.height c.src_strides c.src_buffers &&
  fitsB c.dst_format c.width c.height c.dst_strides c.dst_buffers &&
  c.src_buffers.all (fun b => decide (b.len ≤ t.imax)) &&
  c.dst_buffers.all (fun b => decide (b.len ≤ t.imax))

theorem valid_of_check {t : Target} {c : Call} (hc : validB t c = true) : Spec.Valid t c := by
  unfold validB at hc
  simp only [Bool.and_eq_true, decide_eq_true_eq, List.all_eq_true] at hc
  obtain ⟨⟨⟨⟨⟨⟨⟨⟨⟨h1, h2⟩, h3⟩, h4⟩, h5⟩, h6⟩, h7⟩, h8⟩, h9⟩, h10⟩ := hc
  exact ⟨h1, h2, h3, h4, h5, h6, fits_of_check h7, fits_of_check h8, h9, h10⟩

/-- Some bytes. -/
def noise (n seed : Nat) : Buf := ⟨n, fun i => UInt8.ofNat (i * 37 + seed)⟩

/-- A 4x2 Bgra image encoded as I420; the second destination buffer is padded. -/
def exEncode : Call where
  width := 4
  height := 2
  src_format := ⟨.bgra, .rgb, 1⟩
  src_strides := some [20]
  src_buffers := [noise 36 1]
  dst_format := ⟨.i420, .bt601, 3⟩
  dst_strides := some [0, 3, 0]
  dst_buffers := [noise 8 2, noise 5 3, noise 2 4]

/-- A 2x2 Nv12 image in one buffer decoded to Rgb. -/
def exDecode : Call where
  width := 2
  height := 2
  src_format := ⟨.nv12, .bt709, 1⟩
  src_strides := none
  src_buffers := [noise 6 1]
  dst_format := ⟨.rgb, .rgb, 1⟩
  dst_strides := some [7]
  dst_buffers := [noise 14 2]

/-- A 3x2 Rgb image converted to Bgra. -/
def exShuffle : Call where
  width := 3
  height := 2
  src_format := ⟨.rgb, .rgb, 1⟩
  src_strides := none
  src_buffers := [noise 18 1]
  dst_format := ⟨.bgra, .rgb, 1⟩
  dst_strides := none
  dst_buffers := [noise 24 2]

/-- A 3x2 Bgr image encoded as I444, full range. -/
def exEncode444 : Call where
  width := 3
  height := 2
  src_format := ⟨.bgr, .rgb, 1⟩
  src_strides := none
  src_buffers := [noise 18 1]
  dst_format := ⟨.i444, .bt709FR, 3⟩
  dst_strides := none
  dst_buffers := [noise 6 2, noise 6 3, noise 6 4]

theorem exEncode_valid : Spec.Valid .x64 exEncode := valid_of_check (by decide +kernel)
theorem exDecode_valid : Spec.Valid .x64 exDecode := valid_of_check (by decide +kernel)
theorem exShuffle_valid : Spec.Valid .x64 exShuffle := valid_of_check (by decide +kernel)
theorem exEncode444_valid : Spec.Valid .x64 exEncode444 := valid_of_check (by decide +kernel)

/-- A processor without CPUID. -/
def plainCpu : Cpu := .x86 fun _ => ⟨0, 0, 0, 0⟩

/-- An x86 processor with SSE2 but not AVX2. -/
def sse2Cpu : Cpu := .x86 fun leaf =>
  if leaf = 0 then ⟨1, 0, 0, 0⟩ else if leaf = 1 then ⟨0, 0, 0, 67108864⟩ else ⟨0, 0, 0, 0⟩

/-- An x86 processor with AVX2. -/
def avx2Cpu : Cpu := .x86 fun leaf =>
  if leaf = 0 then ⟨7, 0, 0, 0⟩ else if leaf = 1 then ⟨0, 0, 0, 67108864⟩
  else if leaf = 7 then ⟨0, 32, 0, 0⟩ else ⟨0, 0, 0, 0⟩

/-- An ARM processor with NEON. -/
def neonCpu : Cpu := .aarch64 true

end Verif
