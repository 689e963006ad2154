import Verif.Model.Crate
import Verif.Model.Shared
import Verif.Spec.Vector
import Verif.Spec.Result
/-!
Evaluates the conclusions of C19-C26, C45-C52, C101, C103, C104 and "calls with room succeed" (C67) on
some valid calls. This is a test, not a proof: it is run on deliberately wrong copies of the model (see
seeded/LOG.jsonl) to find calls on which the statement of a theorem is false there. It uses only
the model and the specification, no lemma, and reports nothing on the model as it is.
Run in lean/: `lake env lean ../tools/Refute.lean`.
-/
namespace Verif.Refute
open Verif Spec

def cpus : List (String × InstructionSet × Cpu) := [
  ("x86", .x86, .x86 fun _ => ⟨0, 0, 0, 0⟩),
  ("sse2", .sse2, .x86 fun l => if l = 0 then ⟨1, 0, 0, 0⟩ else if l = 1 then ⟨0, 0, 0, 67108864⟩
    else ⟨0, 0, 0, 0⟩),
  ("avx2", .avx2, .x86 fun l => if l = 0 then ⟨7, 0, 0, 0⟩ else if l = 1 then ⟨0, 0, 0, 67108864⟩
    else if l = 7 then ⟨0, 32, 0, 0⟩ else ⟨0, 0, 0, 0⟩),
  ("neon", .neon, .aarch64 true)]

def vcols (set : InstructionSet) (src dst : PixelFormat) (w : Nat) : Nat :=
  match set, src with
  | .sse2, .i444 => 8 * (w / 8)
  | .sse2, _ => if dst = .rgb then 0 else 16 * (w / 16)
  | .avx2, .i444 => 16 * (w / 16)
  | .avx2, _ => 32 * (w / 32)
  | _, _ => 0

def fill (n seed : Nat) (extreme : Bool) : Buf := Id.run do
  let mut a : Array UInt8 := Array.mkEmpty n
  let mut s := seed * 7919 + 12345
  for _ in [0:n] do
    s := (s * 1103515245 + 12345) % 2147483648
    a := a.push (if extreme then (if s / 65536 % 2 = 0 then 0 else 255) else UInt8.ofNat (s / 65536))
  let b := a
  return ⟨n, fun i => b.getD i 0⟩

/-- Strides padded differently for every plane; every buffer has 64 bytes to spare. -/
def image (pf : PixelFormat) (n w h seed : Nat) (extreme : Bool) : List Nat × List Buf :=
  let ds := (dims pf n w h).zipIdx.map fun ((row, rows), i) => (row + 3 + 2 * i, rows)
  (ds.map Prod.fst, ds.zipIdx.map fun ((st, rows), i) => fill (st * (rows + 1) + 64) (seed + i) extreme)

/-- Colours whose chroma is exactly between two codes. -/
def ties : ColorSpace → List (UInt8 × UInt8 × UInt8)
  | .bt601 => [(0, 149, 27), (0, 20, 114)]
  | .bt709 => [(16, 0, 64), (0, 224, 202)]
  | .bt601FR => [(16, 96, 0), (18, 98, 2)]
  | _ => [(16, 64, 0), (0, 32, 152)]

/-- An image made of such colours, in blocks of 2x2 pixels. -/
def tieImage (pf : PixelFormat) (cs : ColorSpace) (w h : Nat) : List Nat × List Buf :=
  let st := bpp pf * w + 5
  let b := Id.run do
    let mut a : Array UInt8 := Array.replicate (st * (h + 1) + 64) 9
    let (ri, gi, bi) := rgbPos pf
    for y in [0:h] do
      for x in [0:w] do
        let (r, g, b) := (ties cs).getD ((x / 2 + y / 2) % 2) (0, 0, 0)
        a := a.set! (st * y + bpp pf * x + ri) r
        a := a.set! (st * y + bpp pf * x + gi) g
        a := a.set! (st * y + bpp pf * x + bi) b
    return a
  ([st], [⟨b.size, fun i => b.getD i 0⟩])

/-- Bgr images without a byte after the last pixel: does the call end as C52 says? -/
def tight : IO Unit := do
  for (name, set, cpu) in cpus do
    let mut bad := false
    for w' in [0:26] do
      let w := 2 * (w' + 1)
      let c : Call := ⟨UInt32.ofNat w, 2, ⟨.bgr, .rgb, 1⟩, none, [fill (6 * w) 3 false],
        ⟨.i420, .bt601, 3⟩, none, [fill (2 * w) 0 false, fill (w / 2) 0 false, fill (w / 2) 0 false]⟩
      let room : Bool := match set with
        | .sse2 => w < 12 || 3 * w + 3 * (12 * (w / 12)) + 4 ≤ 6 * w
        | .avx2 => w < 24 || 3 * w + 3 * (24 * (w / 24)) + 8 ≤ 6 * w
        | _ => true
      let done : Bool := match convert .x64 crate cpu c with
        | .ok (.ok (), _) => true
        | _ => false
      if room != done && !bad then
        bad := true
        IO.println s!"REFUTED C52 on {name}: tight Bgr {w}x2 -> I420"

def planes : PixelFormat → List UInt8
  | .nv12 => [1, 2]
  | .i444 | .i422 | .i420 => [3]
  | _ => [1]

def freeze (bs : List Buf) : List Buf := bs.map fun b =>
  let a := (Array.range b.len).map b.bytes
  ⟨b.len, fun i => a.getD i 0⟩

def same (a b : List Buf) : Bool :=
  a.length == b.length && (a.zip b).all fun (x, y) =>
    x.len == y.len && (List.range x.len).all fun i => x.bytes i == y.bytes i

def inImage (c : Call) (i k : Nat) : Bool :=
  match (dims c.dst_format.pixel_format c.dst_format.num_planes.toNat c.width.toNat
    c.height.toNat)[i]? with
  | none => false
  | some (row, rows) => let st := strideOf c.dst_strides i row
    k / st < rows && k % st < row

/-- Names of the properties whose conclusion fails for an answered call. -/
def violated (set : InstructionSet) (c : Call) (out : List Buf) : List String := Id.run do
  let w := c.width.toNat
  let sp := c.src_format.pixel_format
  let dp := c.dst_format.pixel_format
  let mut bad : List String := []
  for (b, i) in out.zipIdx do
    for k in [0:b.len] do
      if !inImage c i k && b.bytes k != bytesAt c.dst_buffers i k then bad := "C19" :: bad
  let ri := c.rgbIn
  let yi := c.yuvIn
  let ro := c.rgbOut out
  let yo := c.yuvOut out
  for y in [0:c.height.toNat] do
    for x in [0:w] do
      if isRgb sp && !isRgb dp then
        let s := std c.dst_format.color_space
        let (r, g, b) := (val (ri.r x y), val (ri.g x y), val (ri.b x y))
        if yo.y x y != byte (luma s r g b) then bad := "C20" :: bad
        if dp = .i444 then
          let up := set = .neon && x < 8 * (w / 8)
          if yo.cb x y != byte (if up then cbUp s r g b else cb s r g b) ||
             yo.cr x y != byte (if up then crUp s r g b else cr s r g b) then bad := "C22" :: bad
        else
          let (r, g, b) := (sum4 ri.r (x/2) (y/2), sum4 ri.g (x/2) (y/2), sum4 ri.b (x/2) (y/2))
          let up := set = .neon && x / 2 < 4 * (w / 8)
          if yo.cb x y != byte (if up then cbAvgUp s r g b else cbAvg s r g b) ||
             yo.cr x y != byte (if up then crAvgUp s r g b else crAvg s r g b) then
            bad := "C21" :: bad
      else if !isRgb sp then
        let s := std c.src_format.color_space
        let (Y, Cb, Cr) := (val (yi.y x y), val (yi.cb x y), val (yi.cr x y))
        if ro.r x y != byte (red s Y Cr) || ro.g x y != byte (green s Y Cb Cr) then
          bad := "C23" :: bad
        if ro.b x y != (if x < vcols set sp dp w && blueFix s Y Cb > 32767 then 0
            else byte (blue s Y Cb)) then bad := "C46_exact" :: bad
      else if ro.r x y != ri.r x y || ro.g x y != ri.g x y || ro.b x y != ri.b x y then
        bad := "C26" :: bad
      if (dp = .bgra || dp = .rgba) &&
          bytesAt out 0 (strideOf c.dst_strides 0 (4 * w) * y + 4 * x + 3) != 255 then
        bad := "C24" :: bad
  return bad.eraseDups

/-- The same for statements about single writes: all in the image and nothing left out, final values,
places independent of the source. -/
def violatedWrites (cpu : Cpu) (c : Call) (out : List Buf) (sb : List Buf) : List String := Id.run do
  let mut bad : List String := []
  let ws := writesOf .x64 crate cpu c
  let mut seen : Array (Array Bool) := (out.map fun b => Array.replicate b.len false).toArray
  for w in ws do
    if !inImage c w.plane w.idx then bad := "C101" :: bad
    if w.val != bytesAt out w.plane w.idx then bad := "C103" :: bad
    seen := seen.modify w.plane fun a => a.setIfInBounds w.idx true
  for i in [0:seen.size] do
    for k in [0:seen[i]!.size] do
      if inImage c i k && !seen[i]![k]! then bad := "C101" :: bad
  let ws' := writesOf .x64 crate cpu { c with src_buffers := sb }
  if ws.map (fun w => (w.plane, w.idx)) != ws'.map (fun w => (w.plane, w.idx)) then bad := "C104" :: bad
  return bad.eraseDups

def run : IO Unit := do
  let mut seen : List String := []
  let mut calls := 0
  for (sp, dp) in documented do
    for sn in planes sp do
      for dn in planes dp do
        for (w, h, ext, k) in [(38, 4, false, 0), (38, 2, true, 1), (70, 2, false, 2), (6, 2, false, 3),
            (38, 4, false, 4), (38, 2, false, 5), (38, 2, false, 6), (38, 2, false, 7)] do
          if k ≥ 4 && !(isRgb sp && !isRgb dp) then continue
          let cs : ColorSpace := [.bt601, .bt709, .bt601FR, .bt709FR].getD (k % 4) .bt601
          let (ss, sb) := if k ≥ 4 then tieImage sp cs w h else image sp sn.toNat w h (k + 1) ext
          let (ds, db) := image dp dn.toNat w h (k + 51) false
          let c : Call := ⟨UInt32.ofNat w, UInt32.ofNat h, ⟨sp, if isRgb sp then .rgb else cs, sn.toUInt32⟩,
            some ss, sb, ⟨dp, if isRgb dp then .rgb else cs, dn.toUInt32⟩, some ds, db⟩
          let mut plain : Option (List Buf) := none
          for (name, set, cpu) in cpus do
            calls := calls + 1
            let mut bad : List String := []
            match convert .x64 crate cpu c with
            | .ok (.ok (), out) =>
              let out := freeze out
              bad := violated set c out
              if k = 0 || k = 3 then
                bad := violatedWrites cpu c out (image sp sn.toNat w h (k + 101) true).2 ++ bad
              if set = .x86 then plain := some out
              else if isRgb sp && set != .neon then
                match plain with
                | some p => if !same p out then
                    let id := match set, isRgb dp with
                      | .sse2, false => "C45" | .avx2, false => "C48"
                      | .sse2, true => "C47" | _, _ => "C50"
                    bad := id :: bad
                | none => pure ()
            | _ => bad := ["C67"]
            for p in bad do
              let m := s!"{p} {name}"
              if !seen.contains m then
                seen := m :: seen
                IO.println s!"REFUTED {p} on {name}: {repr sp}({sn}) -> {repr dp}({dn}), {repr cs}, {w}x{h}, pattern {k}"
  tight
  IO.println s!"DONE {calls} calls"

#eval run
end Verif.Refute
