import Verif.Props.Simd
/-!
# The reference images of the repository's tests

`tests/conversions.rs` contains an 8x8 image and its expected encodings in the four colour spaces.
The model reproduces them, on the portable code by evaluation and with SSE2 and AVX2 by C45 and C48.
This validates the model on samples; it is not the proof of a property.
-/

namespace Verif.Golden

/-- tests/conversions.rs:22-103, `RGB_SRC`: 8x8 pixels r, g, b, a. -/
def rgbSrc : List (List UInt8) := [
  [161, 24, 44, 58, 35, 95, 51, 205, 177, 30, 252, 158, 248, 94, 62, 28, 247, 51, 135, 38, 98,
  147, 200, 127, 68, 103, 20, 124, 233, 227, 165, 0],
  [251, 19, 32, 170, 235, 183, 25, 77, 146, 81, 218, 161, 25, 124, 96, 56, 22, 127, 167, 179,
  247, 34, 40, 53, 164, 193, 159, 24, 96, 158, 17, 223],
  [240, 123, 14, 108, 0, 105, 52, 116, 194, 219, 244, 47, 216, 254, 153, 84, 116, 77, 133, 68,
  190, 96, 190, 133, 118, 4, 170, 115, 218, 145, 23, 50],
  [202, 120, 126, 231, 42, 28, 137, 40, 136, 227, 210, 177, 254, 140, 238, 88, 90, 195, 170, 67,
  125, 242, 148, 88, 1, 91, 190, 245, 31, 100, 190, 225],
  [207, 49, 249, 131, 48, 120, 34, 82, 43, 145, 253, 141, 83, 205, 105, 44, 16, 9, 157, 22, 253,
  131, 178, 148, 142, 236, 98, 6, 246, 190, 15, 213],
  [72, 207, 6, 168, 220, 39, 6, 219, 244, 14, 252, 45, 159, 106, 17, 184, 222, 72, 230, 39, 6,
  185, 30, 35, 101, 223, 30, 14, 40, 71, 16, 244],
  [124, 121, 46, 190, 244, 206, 61, 169, 43, 130, 87, 247, 170, 10, 238, 229, 12, 168, 14, 220,
  96, 60, 226, 235, 206, 93, 122, 117, 126, 168, 203, 39],
  [181, 88, 248, 45, 65, 24, 208, 166, 24, 21, 151, 85, 60, 86, 9, 153, 225, 80, 156, 159, 210,
  181, 6, 214, 17, 142, 255, 163, 189, 137, 72, 87]]

/-- tests/conversions.rs, `Y_*_REF`. -/
def yRef : Colorimetry → List UInt8
  | .bt601 => [
    74, 78, 101, 133, 118, 135, 87, 206, 93, 171, 116, 94, 102, 100, 171, 122, 141, 74, 200, 214,
    98, 132, 65, 147, 141, 54, 186, 175, 154, 185, 81, 93, 118, 92, 125, 151, 40, 164, 181, 176,
    139, 93, 110, 112, 132, 114, 157, 64, 113, 188, 101, 88, 105, 93, 128, 153, 131, 65, 48, 76,
    129, 162, 117, 141]
  | .bt709 => [
    63, 84, 82, 123, 101, 137, 93, 208, 75, 173, 106, 103, 108, 84, 174, 132, 136, 84, 201, 221,
    93, 121, 51, 146, 134, 49, 193, 163, 163, 197, 84, 95, 99, 101, 129, 164, 34, 154, 193, 179,
    157, 80, 85, 111, 115, 133, 173, 68, 116, 191, 109, 68, 122, 84, 118, 155, 118, 56, 43, 80,
    116, 166, 122, 139]
  | .bt601FR => [
    67, 72, 99, 136, 119, 138, 83, 222, 90, 181, 116, 91, 100, 98, 180, 123, 146, 68, 214, 231,
    95, 135, 57, 153, 145, 45, 198, 185, 161, 196, 75, 90, 119, 89, 127, 157, 28, 173, 192, 187,
    144, 89, 110, 112, 135, 114, 165, 55, 113, 201, 99, 84, 104, 90, 130, 159, 134, 57, 37, 69,
    132, 170, 118, 145]
  | .bt709FR => [
    55, 79, 77, 124, 99, 140, 90, 224, 69, 183, 105, 101, 108, 80, 184, 135, 140, 79, 215, 239,
    89, 123, 40, 152, 138, 39, 206, 171, 171, 210, 79, 92, 97, 98, 131, 172, 21, 160, 206, 189,
    164, 75, 80, 111, 115, 136, 183, 60, 116, 204, 108, 60, 124, 80, 119, 162, 119, 46, 31, 75,
    116, 175, 124, 143]

/-- tests/conversions.rs, `CB_*_REF`. -/
def cbRef : Colorimetry → List UInt8
  | .bt601 => [
    116, 118, 204, 91, 136, 159, 97, 100, 99, 51, 179, 130, 161, 99, 117, 75, 63, 120, 143, 89,
    147, 155, 184, 64, 118, 174, 134, 154, 133, 104, 185, 178, 192, 101, 191, 102, 192, 131, 81,
    43, 60, 87, 198, 81, 175, 86, 61, 108, 95, 59, 122, 204, 83, 196, 124, 150, 184, 203, 185,
    98, 140, 47, 196, 92]
  | .bt709 => [
    123, 115, 211, 98, 145, 156, 95, 100, 110, 53, 182, 126, 156, 109, 116, 72, 68, 115, 141, 87,
    149, 160, 189, 67, 122, 174, 130, 160, 128, 98, 181, 174, 200, 97, 186, 96, 192, 136, 77, 45,
    53, 95, 209, 84, 182, 78, 56, 107, 95, 60, 118, 212, 76, 197, 129, 148, 189, 205, 185, 97,
    147, 48, 190, 94]
  | .bt601FR => [
    115, 116, 214, 86, 137, 163, 92, 96, 95, 40, 186, 131, 166, 95, 116, 68, 54, 119, 145, 84,
    149, 159, 192, 55, 117, 180, 135, 158, 133, 101, 193, 185, 201, 97, 199, 99, 201, 131, 75,
    31, 50, 81, 208, 75, 182, 81, 52, 106, 90, 49, 121, 215, 77, 205, 123, 153, 192, 213, 192,
    94, 142, 36, 206, 87]
  | .bt709FR => [
    122, 113, 222, 94, 148, 160, 91, 96, 108, 43, 189, 125, 160, 107, 114, 65, 60, 114, 143, 82,
    152, 164, 198, 59, 122, 181, 130, 164, 128, 94, 188, 181, 210, 93, 194, 92, 201, 138, 70, 34,
    43, 91, 221, 77, 190, 71, 45, 104, 90, 51, 116, 224, 69, 207, 130, 150, 197, 215, 193, 92,
    149, 37, 199, 90]

/-- tests/conversions.rs, `CR_*_REF`. -/
def crRef : Colorimetry → List UInt8
  | .bt601 => [
    187, 105, 177, 198, 208, 103, 119, 135, 229, 162, 147, 87, 79, 221, 118, 111, 187, 86, 115,
    119, 141, 163, 166, 169, 164, 126, 89, 171, 84, 83, 81, 91, 183, 103, 75, 82, 121, 178, 97,
    165, 83, 210, 212, 158, 183, 60, 88, 118, 135, 155, 93, 182, 70, 132, 176, 107, 157, 133,
    120, 122, 186, 153, 65, 155]
  | .bt709 => [
    187, 103, 184, 197, 211, 104, 116, 133, 229, 157, 151, 86, 80, 221, 117, 106, 184, 84, 116,
    115, 143, 166, 171, 165, 164, 130, 89, 174, 83, 80, 84, 94, 189, 100, 79, 78, 125, 180, 92,
    160, 77, 209, 219, 155, 188, 56, 82, 117, 132, 151, 92, 189, 66, 137, 176, 108, 162, 139,
    124, 120, 189, 148, 69, 153]
  | .bt601FR => [
    195, 102, 183, 208, 219, 99, 117, 136, 243, 167, 149, 81, 72, 234, 116, 108, 195, 80, 113,
    117, 143, 167, 172, 174, 169, 126, 84, 177, 78, 77, 75, 86, 191, 99, 68, 75, 119, 185, 92,
    170, 77, 221, 224, 162, 190, 51, 83, 117, 136, 159, 88, 189, 63, 133, 182, 104, 161, 134,
    119, 121, 194, 157, 56, 159]
  | .bt709FR => [
    196, 100, 191, 206, 222, 101, 114, 134, 243, 161, 154, 80, 74, 234, 115, 103, 191, 78, 114,
    114, 145, 171, 177, 170, 169, 130, 83, 181, 77, 74, 78, 89, 198, 96, 72, 72, 125, 187, 87,
    164, 70, 220, 232, 159, 196, 46, 76, 115, 133, 154, 86, 198, 57, 138, 183, 105, 167, 140,
    124, 119, 197, 151, 60, 157]

/-- tests/conversions.rs, `CB2_*_REF`. -/
def cb2Ref : Colorimetry → List UInt8
  | .bt601 => [
    96, 151, 139, 97, 119, 130, 135, 153, 110, 143, 146, 73, 135, 152, 116, 140]
  | .bt709 => [
    100, 154, 142, 96, 120, 130, 134, 153, 112, 144, 147, 71, 137, 153, 117, 140]
  | .bt601FR => [
    92, 154, 140, 93, 118, 130, 136, 156, 107, 145, 149, 66, 136, 156, 115, 142]
  | .bt709FR => [
    97, 158, 144, 91, 119, 130, 134, 156, 109, 146, 150, 63, 138, 156, 116, 142]

/-- tests/conversions.rs, `CR2_*_REF`. -/
def cr2Ref : Colorimetry → List UInt8
  | .bt601 => [
    171, 152, 153, 121, 141, 124, 118, 127, 145, 132, 135, 117, 145, 129, 135, 126]
  | .bt709 => [
    169, 154, 154, 118, 140, 124, 118, 129, 144, 133, 137, 113, 146, 131, 135, 127]
  | .bt601FR => [
    177, 155, 156, 120, 142, 123, 116, 127, 147, 132, 136, 116, 147, 129, 137, 125]
  | .bt709FR => [
    175, 158, 158, 117, 142, 123, 117, 129, 146, 134, 138, 111, 148, 132, 136, 126]
/-- A buffer with given contents. -/
def bufOf (l : List UInt8) : Buf := ⟨l.length, fun i => l.getD i 0⟩

/-- conversions.rs:423-446: pixels stored in order b, g, r, a. -/
def bgra : List UInt8 → List UInt8
  | r :: g :: b :: a :: t => b :: g :: r :: a :: bgra t
  | _ => []

/-- conversions.rs:423-446: pixels stored in order b, g, r. -/
def bgr : List UInt8 → List UInt8
  | r :: g :: b :: _ :: t => b :: g :: r :: bgr t
  | _ => []

/-- conversions.rs:423-446: pixels stored in order a, r, g, b. -/
def argb : List UInt8 → List UInt8
  | r :: g :: b :: a :: t => a :: r :: g :: b :: argb t
  | _ => []

/-- Alternate two lists. -/
def interleave : List UInt8 → List UInt8 → List UInt8
  | a :: l, b :: m => a :: b :: interleave l m
  | _, _ => []

/-- The image converted to `dst`; destination buffers of the given sizes, initially 0. -/
def encode (src : PixelFormat) (data : List UInt8 → List UInt8) (dst : ImageFormat) (sizes : List Nat) :
    Call where
  width := 8
  height := 8
  src_format := ⟨src, .rgb, 1⟩
  src_strides := none
  src_buffers := [bufOf (data rgbSrc.flatten)]
  dst_format := dst
  dst_strides := none
  dst_buffers := sizes.map fun n => ⟨n, fun _ => 0⟩

/-- The bytes stored by a successful call. -/
def output (o : Outcome) : Option (List (List UInt8)) :=
  match o with
  | .ok (.ok (), l) => some (l.map fun b => (List.range b.len).map b.bytes)
  | _ => none

example : output (convert .x64 crate plainCpu (encode .bgra bgra ⟨.i444, .bt601, 3⟩ [64, 64, 64])) =
    some [yRef .bt601, cbRef .bt601, crRef .bt601] := by decide +kernel

example : output (convert .x64 crate plainCpu (encode .bgra bgra ⟨.i444, .bt709, 3⟩ [64, 64, 64])) =
    some [yRef .bt709, cbRef .bt709, crRef .bt709] := by decide +kernel

example : output (convert .x64 crate plainCpu (encode .bgra bgra ⟨.i444, .bt601FR, 3⟩ [64, 64, 64])) =
    some [yRef .bt601FR, cbRef .bt601FR, crRef .bt601FR] := by decide +kernel

example : output (convert .x64 crate plainCpu (encode .bgra bgra ⟨.i444, .bt709FR, 3⟩ [64, 64, 64])) =
    some [yRef .bt709FR, cbRef .bt709FR, crRef .bt709FR] := by decide +kernel

theorem i420_bt601 :
    output (convert .x64 crate plainCpu (encode .bgra bgra ⟨.i420, .bt601, 3⟩ [64, 16, 16])) =
    some [yRef .bt601, cb2Ref .bt601, cr2Ref .bt601] := by decide +kernel

theorem i420_bt709 :
    output (convert .x64 crate plainCpu (encode .argb argb ⟨.i420, .bt709, 3⟩ [64, 16, 16])) =
    some [yRef .bt709, cb2Ref .bt709, cr2Ref .bt709] := by decide +kernel

theorem i420_bt601FR :
    output (convert .x64 crate plainCpu (encode .bgr bgr ⟨.i420, .bt601FR, 3⟩ [64, 16, 16])) =
    some [yRef .bt601FR, cb2Ref .bt601FR, cr2Ref .bt601FR] := by decide +kernel

theorem i420_bt709FR :
    output (convert .x64 crate plainCpu (encode .argb argb ⟨.i420, .bt709FR, 3⟩ [64, 16, 16])) =
    some [yRef .bt709FR, cb2Ref .bt709FR, cr2Ref .bt709FR] := by decide +kernel

example : output (convert .x64 crate plainCpu (encode .argb argb ⟨.nv12, .bt601, 2⟩ [64, 32])) =
    some [yRef .bt601, interleave (cb2Ref .bt601) (cr2Ref .bt601)] := by decide +kernel

example : output (convert .x64 crate plainCpu (encode .bgra bgra ⟨.nv12, .bt709, 2⟩ [64, 32])) =
    some [yRef .bt709, interleave (cb2Ref .bt709) (cr2Ref .bt709)] := by decide +kernel

example : output (convert .x64 crate plainCpu (encode .argb argb ⟨.nv12, .bt601FR, 2⟩ [64, 32])) =
    some [yRef .bt601FR, interleave (cb2Ref .bt601FR) (cr2Ref .bt601FR)] := by decide +kernel

example : output (convert .x64 crate plainCpu (encode .bgr bgr ⟨.nv12, .bt709FR, 2⟩ [64, 32])) =
    some [yRef .bt709FR, interleave (cb2Ref .bt709FR) (cr2Ref .bt709FR)] := by decide +kernel

example : output (convert .x64 crate plainCpu (encode .bgra bgra ⟨.nv12, .bt601, 1⟩ [96])) =
    some [yRef .bt601 ++ interleave (cb2Ref .bt601) (cr2Ref .bt601)] := by decide +kernel

theorem valid_argb : Spec.Valid .x64 (encode .argb argb ⟨.i420, .bt709, 3⟩ [64, 16, 16]) :=
  valid_of_check (by decide +kernel)

/-- With SSE2 and AVX2. -/
example : output (convert .x64 crate sse2Cpu (encode .argb argb ⟨.i420, .bt709, 3⟩ [64, 16, 16])) =
      some [yRef .bt709, cb2Ref .bt709, cr2Ref .bt709] ∧
    output (convert .x64 crate avx2Cpu (encode .argb argb ⟨.i420, .bt709, 3⟩ [64, 16, 16])) =
      some [yRef .bt709, cb2Ref .bt709, cr2Ref .bt709] := by
  rw [C45_encode_partial (cpu := sse2Cpu) (plain := plainCpu) valid_argb (by decide) rfl rfl
      (.of_ne (by decide)),
    C48_encode_partial (cpu := avx2Cpu) (plain := plainCpu) valid_argb (by decide) rfl rfl
      (.of_ne (by decide))]
  exact ⟨i420_bt709, i420_bt709⟩

end Verif.Golden
