import Verif.Model.Crate
import Verif.Model.CApi
import Verif.Model.Global
import Verif.Spec.Verdict
import Verif.Spec.Sizes
import Verif.Spec.Cpu
import Verif.Spec.CArgs
import Verif.Spec.Color
/-!
Evaluates the conclusions of C01-C10, C17, C18, C53, C56-C58, C60, C61, C63 and C76 on pseudo-random
arguments, most of them illegal or with buffers that are hardly large enough. This is a test, not a
proof: it is run on deliberately wrong copies of the model (see seeded/LOG.jsonl) to find arguments
for which the statement of a theorem is false there. It uses only the model and the specification, no
lemma, and reports nothing on the model as it is.
Run in a copy of lean/ prepared by evaluable.py: `lake env lean --stdin < refute2.lean.txt`.
-/
namespace Verif.Refute2
open Verif Spec CApi

abbrev G := StateM Nat

def next : G Nat := do
  let s ← get
  let s := (s * 6364136223846793005 + 1442695040888963407) % 2 ^ 64
  set s
  return s / 2 ^ 33

def upto (n : Nat) : G Nat := do return (← next) % (n + 1)
def pick {α : Type} (l : List α) (d : α) : G α := do return l.getD ((← next) % l.length) d
def chance (n : Nat) : G Bool := do return (← next) % n == 0

def cpuOf (set : InstructionSet) : Cpu := match set with
  | .x86 => .x86 fun _ => ⟨0, 0, 0, 0⟩
  | .sse2 => .x86 fun l => if l = 0 then ⟨1, 0, 0, 0⟩ else if l = 1 then ⟨0, 0, 0, 67108864⟩
    else ⟨0, 0, 0, 0⟩
  | .avx2 => .x86 fun l => if l = 0 then ⟨7, 0, 0, 0⟩ else if l = 1 then ⟨0, 0, 0, 67108864⟩
    else if l = 7 then ⟨0, 32, 0, 0⟩ else ⟨0, 0, 0, 0⟩
  | .neon => .aarch64 true

def sets : List InstructionSet := [.x86, .sse2, .avx2, .neon]
def pfs : List PixelFormat := [.argb, .bgra, .bgr, .rgba, .rgb, .i444, .i422, .i420, .nv12]
def spaces : List ColorSpace := [.rgb, .bt601, .bt709, .bt601FR, .bt709FR]
def targets : List Target := [.x64, .x64r, .x32r, ⟨32, true⟩]

def buf (n seed : Nat) : Buf := ⟨n, fun i => UInt8.ofNat ((i + seed) * (i * 7 + seed * 13 + 3))⟩

/-- A number of planes; mostly a legal one. -/
def planeCount (pf : PixelFormat) : G Nat := do
  if ← chance 12 then return ← pick [0, 1, 2, 3, 4, 5, 4294967295] 0
  match pf with
  | .nv12 => return 1 + (← upto 1)
  | .i444 | .i422 | .i420 => return 3
  | _ => return 1

def format (pf : PixelFormat) : G ImageFormat := do
  let cs ← if ← chance 15 then pick spaces .rgb
    else if isRgb pf then pure .rgb else pick [.bt601, .bt709, .bt601FR, .bt709FR] .bt601
  return ⟨pf, cs, UInt32.ofNat (← planeCount pf)⟩

/-- Strides: none, packed, padded, too small, zero, or huge; now and then too few or too many. -/
def stridesFor (t : Target) (ds : List (Nat × Nat)) : G (Option (List Nat)) := do
  if ← chance 4 then return none
  let mut l : List Nat := []
  for (row, _) in ds do
    let s ← match ← upto 9 with
      | 0 => pure 0
      | 1 => pure (row - 1)
      | 2 => pure (row / 2 + 1)
      | 3 => upto 3
      | 4 => pick [2 ^ (t.bits - 1), 2 ^ t.bits - 1, 2 ^ (t.bits - 2), 2 ^ (t.bits - 1) + row] 0
      | 5 | 6 => pure row
      | _ => do pure (row + (← upto 5))
    l := l ++ [s]
  if ← chance 20 then l := l.dropLast
  if ← chance 10 then l := l ++ [← upto 50]
  return some l

/-- Buffers: around the size tested, the size needed and the packed size; now and then too few. -/
def buffersFor (t : Target) (f : ImageFormat) (w : Nat) (ds : List (Nat × Nat))
    (strides : Option (List Nat)) (seed : Nat) : G (List Buf) := do
  let mut l : List Buf := []
  let mut i := 0
  for (row, rows) in ds do
    let st := strideOf strides i row
    let base ← match ← upto 6 with
      | 0 => pure (row * rows)
      | 1 => pure (st + row * (rows - 1))
      | 2 => pure (st + w * (rows - 1))
      | 3 | 4 => pure (st * (rows - 1) + row)
      | 5 => pure (if f.pixel_format = .nv12 then st * (rows * 2 / 3 + 1) + w * (rows / 3 - 1)
          else st * rows)
      | _ => pure (st * rows + 40)
    let n ← match ← upto 5 with
      | 0 => pure (base - 1)
      | 1 => pure (base + 1)
      | 2 => do pure (base - (← upto 8))
      | _ => pure base
    let n ← if ← chance 40 then upto 10 else pure n
    let n ← if ← chance 40 then pure t.imax else pure n
    l := l ++ [buf (min n t.imax) (seed + i)]
    i := i + 1
  if ← chance 20 then l := l.dropLast
  if ← chance 10 then l := l ++ [buf 5 99]
  return l

def image (t : Target) (f : ImageFormat) (w h seed : Nat) : G (Option (List Nat) × List Buf) := do
  let ds := dims f.pixel_format f.num_planes.toNat w h
  let s ← stridesFor t ds
  return (s, ← buffersFor t f w ds s seed)

def call (t : Target) : G Call := do
  let (sp, dp) ← if ← chance 8 then do pure (← pick pfs .rgb, ← pick pfs .rgb)
    else pick documented (.rgb, .bgra)
  let w ← pick [0, 1, 2, 2, 3, 4, 5, 6, 7, 8, 9, 10, 12, 14, 16, 18, 22, 24, 25, 26, 32, 34, 40] 0
  let h ← pick [0, 1, 2, 2, 3, 4, 4, 6] 0
  let sf ← format sp
  let df ← format dp
  let (ss, sb) ← image t sf w h 1
  let (ds, db) ← image t df w h 11
  return ⟨UInt32.ofNat w, UInt32.ofNat h, sf, ss, sb, df, ds, db⟩

/-- All that is wanted, with buffers that hold the image in every respect. -/
def goodCall : G Call := do
  let (sp, dp) ← pick documented (.rgb, .bgra)
  let w := 2 * (← upto 20) + 2
  let h := 2 * (← upto 1) + 2
  let pl (pf : PixelFormat) : G Nat := match pf with
    | .nv12 => do pure (1 + (← upto 1))
    | .i444 | .i422 | .i420 => pure 3
    | _ => pure 1
  let cs ← pick [.bt601, .bt709, .bt601FR, .bt709FR] ColorSpace.bt601
  let sf : ImageFormat := ⟨sp, if isRgb sp then .rgb else cs, UInt32.ofNat (← pl sp)⟩
  let df : ImageFormat := ⟨dp, if isRgb dp then .rgb else cs, UInt32.ofNat (← pl dp)⟩
  let bufs (f : ImageFormat) (seed : Nat) := (dims f.pixel_format f.num_planes.toNat w h).map
    fun (row, rows) => buf (row * rows + 64) seed
  return ⟨UInt32.ofNat w, UInt32.ofNat h, sf, none, bufs sf 1, df, none, bufs df 11⟩

def showBufs (l : List Buf) : String := toString (l.map Buf.len)
def showCall (c : Call) : String :=
  s!"{c.width}x{c.height}, {repr c.src_format.pixel_format} {repr c.src_format.color_space} {c.src_format.num_planes} {c.src_strides} {showBufs c.src_buffers} -> {repr c.dst_format.pixel_format} {repr c.dst_format.color_space} {c.dst_format.num_planes} {c.dst_strides} {showBufs c.dst_buffers}"

def sameBufs (a b : List Buf) : Bool :=
  a.length == b.length && (a.zip b).all fun (x, y) =>
    x.len == y.len && (List.range (min x.len 2000)).all fun i => x.bytes i == y.bytes i

def sameOutcome : Outcome → Outcome → Bool
  | .ok (.ok (), a), .ok (.ok (), b) => sameBufs a b
  | .ok (.error e, a), .ok (.error e', b) => decide (e = e') && sameBufs a b
  | .error e, .error e' => decide (e = e')
  | _, _ => false

def showVerdict : Verdict → String
  | .done => "done" | .panic => "panic" | .stray => "stray"
  | .rejected e => s!"rejected {repr e}"

/-- Which property is concerned by a call ending differently from what is expected. -/
def endings (want got : Verdict) : List String :=
  "C76" :: match want, got with
    | .rejected .invalidValue, _ => ["C03"]
    | .rejected .invalidOperation, _ => ["C01", "C03"]
    | _, .rejected .invalidValue => ["C03"]
    | _, .rejected .invalidOperation => ["C01", "C03"]
    | .rejected .notEnoughData, _ => ["C66"]
    | _, .rejected .notEnoughData => ["C66", "C67"]
    | .panic, _ | _, .panic => ["C75"]
    | _, _ => ["C67", "C68"]

def legalPairs : List (PixelFormat × ColorSpace) := (pfs.flatMap fun p => spaces.map fun c => (p, c)).filter
  fun (p, c) => isRgb p == decide (c = .rgb)

def stdOf : Colorimetry → Std
  | .bt601 => .bt601 | .bt709 => .bt709 | .bt601FR => .bt601FR | .bt709FR => .bt709FR

/-- What C53 says about the selection. -/
def wantSet : Cpu → InstructionSet
  | .aarch64 true => .neon
  | .aarch64 false => .x86
  | .other => .x86
  | .x86 c => if (c 0).eax = 0 then .x86 else if ¬ ReportsSse2 c then .x86
    else if ReportsAvx2 c ∧ ¬ IsAmd c then .avx2 else .sse2

def reg (s : String) (i : Nat) : UInt32 :=
  UInt32.ofNat ((List.range 4).foldr (fun k a => 256 * a + (ascii s).getD (4 * i + k) 0) 0)

def someCpu : G Cpu := do
  if ← chance 8 then return ← pick [.aarch64 true, .aarch64 false, .other] .other
  let v ← pick ["GenuineIntel", "AuthenticAMD", "AMDisbetter!", "HygonGenuine", "GenuineIntal",
    "AuthenticAMd", "CentaurHauls", "AMDisbettes!", "GenuineIntelGenuine"] ""
  let eax ← pick [0, 1, 6, 7, 13] 0
  let some1 ← pick [0, 67108864, 67108864, 67108864, 33554432, 134217728, 4227858431] 0
  let some7 ← pick [0, 32, 32, 32, 16, 64, 4294967263] 0
  let other ← pick [0, 4294967295] 0
  return .x86 fun l => if l = 0 then ⟨eax, reg v 0, reg v 2, reg v 1⟩
    else if l = 1 then ⟨other, other, other, some1⟩
    else if l = 7 then ⟨other, some7, other, other⟩ else ⟨other, other, other, other⟩

def run : IO Unit := do
  let seen : IO.Ref (List String) ← IO.mkRef []
  let count : IO.Ref Nat ← IO.mkRef 0
  let report (p : String) (m : String) : IO Unit := do
    unless (← seen.get).contains p do
      seen.modify (p :: ·)
      IO.println s!"REFUTED {p} on {m}"
  let ends : IO.Ref (List String) ← IO.mkRef []
  let gen : IO.Ref Nat ← IO.mkRef 2026
  let draw {α : Type} (g : G α) : IO α := do
    let (a, s) := g.run (← gen.get)
    gen.set s
    return a
  -- C76 with C01, C03, C66-C68, C75; C17, C18
  for _ in [0:3000] do
    let t ← draw (pick targets .x64)
    let set ← draw (pick sets .x86)
    let c ← draw (call t)
    count.modify (· + 1)
    let o := convert t crate (cpuOf set) c
    let want := verdict t set c
    let got := verdictOf o
    ends.modify (showVerdict want :: ·)
    if want ≠ got then
      for p in endings want got do
        report p s!"{t.bits} bits{if t.checked then ", checked" else ""}, {repr set}: {showCall c}: {showVerdict got} instead of {showVerdict want}"
    match o with
    | .ok (.error _, out) =>
      if !sameBufs out c.dst_buffers then report "C17" (showCall c)
    | .ok (.ok (), out) =>
      if (c.width = 0 ∨ c.height = 0) ∧ !sameBufs out c.dst_buffers then report "C18" (showCall c)
    | _ => pure ()
  -- C04-C10, C57, C58
  for _ in [0:6000] do
    let t ← draw (pick targets .x64)
    let pf ← draw (pick pfs .rgb)
    let f ← draw (format pf)
    let w ← draw (pick [0, 1, 2, 3, 4, 6, 7, 9, 16, 41, 640, 65534, 65536, 1073741824, 4294967294] 0)
    let h ← draw (pick [0, 1, 2, 3, 4, 5, 6, 480, 32768, 65536, 4294967294] 0)
    let ds := dims pf f.num_planes.toNat w h
    let strides ← draw (stridesFor t ds)
    let n := f.num_planes.toNat
    let k ← draw (pick [0, 1, 2, 3, 4, 5] 0)
    let sizes := (List.range (if n < 5 then n + k - 2 else k)).map fun i => 1000 + i
    let W := UInt32.ofNat w
    let H := UInt32.ofNat h
    let r := get_buffers_size t W H f strides sizes
    let m := s!"{t.bits} bits{if t.checked then ", checked" else ""}: {w}x{h} {repr pf}, {n} planes, strides {strides}, {sizes}"
    count.modify (· + 1)
    let shape := SizeOk pf w h ∧ PlanesOk pf n
    let arrays : Bool := (match strides with | none => true | some l => n ≤ l.length) && n ≤ sizes.length
    let invalid : Bool := match r with | .ok (.error .invalidValue, _) => true | _ => false
    let short : Bool := match r with | .ok (.error .notEnoughData, _) => true | _ => false
    let op : Bool := match r with | .ok (.error .invalidOperation, _) => true | _ => false
    if PlanesOk pf n ∧ invalid ≠ decide (¬ SizeOk pf w h) then report "C04" m
    if SizeOk pf w h ∧ invalid ≠ decide (¬ PlanesOk pf n) then report "C05" m
    if invalid ≠ decide (¬ shape) ∨ short ≠ decide (shape ∧ arrays = false) ∨ op then report "C06" m
    if shape ∧ arrays then
      if ((strides.getD []).sum + 4 * w) * h < 2 ^ t.bits then
        match r with
        | .ok (.ok (), _) => pure ()
        | _ => report "C06" m
      if strides = none ∧ (packedSizes pf n w h).sum < 2 ^ t.bits then
        match r with
        | .ok (.ok (), out) => if out ≠ overwrite (packedSizes pf n w h) sizes then report "C08" m
        | _ => report "C08" m
      if 1 < n ∧ ds.zipIdx.all fun ((row, rows), i) => strideOf strides i row * rows < 2 ^ t.bits then
        match r with
        | .ok (.ok (), out) => if !(ds.zipIdx.all fun ((row, rows), i) =>
            out[i]? = some (strideOf strides i row * rows)) then report "C09" m
        | _ => report "C09" m
      match strides with
      | some [S] =>
        if n = 1 ∧ S ≠ 0 ∧ S * h + 3 * (w * h) < 2 ^ t.bits then
          let extra := match pf with
            | .argb | .bgra | .rgba => 3 * (w * h)
            | .nv12 => w * (h / 2)
            | _ => 2 * (w * h)
          match r with
          | .ok (.ok (), out) => if out ≠ overwrite [S * h + extra] sizes then report "C10" m
          | _ => report "C10" m
      | _ => pure ()
    match r with
    | .ok (.error _, out) => if out ≠ sizes then report "C07" m
    | .ok (.ok (), out) =>
      if out.length ≠ sizes.length ∨ out.drop n ≠ sizes.drop n then report "C07" m
    | _ => pure ()
    -- the C function
    let slot ← draw (pick [none, some ErrorKind.invalidOperation] none)
    let cf := ofFormat f
    let cf : CFormat := { cf with
      pixel_format := ← draw (do if ← chance 5 then pick [9, 10, 255, 4294967295] 0 else pure cf.pixel_format),
      color_space := ← draw (do if ← chance 5 then pick [5, 6, 4294967295] 0 else pure cf.color_space) }
    let fp ← draw (do if ← chance 15 then pure none else pure (some cf))
    let sp ← draw (do if ← chance 15 then pure none else pure (some sizes))
    let good : Bool := cf.pixel_format.toNat < 9 && decide (PlanesOk pf n)
    if !(fp.isSome && good && sp.isSome) then
      match dcp_get_buffers_size t W H fp strides sp slot with
      | .ok o => if o ≠ ⟨.err, slot.map fun _ => .invalidValue, sp⟩ then report "C57" m
      | _ => report "C57" m
    else if arrays then
      match get_buffers_size t W H f (strides.map (·.take n)) (sizes.take n) with
      | .ok (r, out) =>
        match dcp_get_buffers_size t W H fp strides sp slot with
        | .ok o => if o ≠ ⟨cResult r, cError slot r, some (out ++ sizes.drop n)⟩ then report "C58" m
        | _ => report "C58" m
      | _ => pure ()
  -- C57, C58 for dcp_convert_image (without strides)
  for j in [0:400] do
    let c ← draw (if j % 4 = 0 then call .x64 else goodCall)
    let set ← draw (pick sets .x86)
    let c := { c with src_strides := none, dst_strides := none }
    let slot ← draw (pick [none, some ErrorKind.invalidOperation] none)
    let spoil (f : CFormat) : G CFormat := do
      let f ← if ← chance 20 then pure { f with pixel_format := 9 } else pure f
      let f ← if ← chance 20 then pure { f with color_space := 5 } else pure f
      if ← chance 20 then pure { f with num_planes := 0 } else pure f
    let null {α : Type} (a : Option α) : G (Option α) := do if ← chance 20 then pure none else pure a
    let sf ← draw (spoil (ofFormat c.src_format))
    let df ← draw (spoil (ofFormat c.dst_format))
    let sfp ← draw (null (some sf))
    let dfp ← draw (null (some df))
    let sb ← draw (c.src_buffers.mapM fun b => null (some b))
    let db ← draw (c.dst_buffers.mapM fun b => null (some b))
    let sbp ← draw (null (some sb))
    let dbp ← draw (null (some db))
    let okf (f : CFormat) (p : PixelFormat) : Bool :=
      f.pixel_format.toNat < 9 && f.color_space.toNat < 5 && decide (PlanesOk p f.num_planes.toNat)
    let ns := sf.num_planes.toNat
    let nd := df.num_planes.toNat
    let good := sfp.isSome && dfp.isSome && sbp.isSome && dbp.isSome &&
      okf sf c.src_format.pixel_format && okf df c.dst_format.pixel_format
    let readable := (!okf sf c.src_format.pixel_format || ns ≤ sb.length) &&
      (!okf df c.dst_format.pixel_format || nd ≤ db.length)
    let good := good && (sb.take ns).all Option.isSome && (db.take nd).all Option.isSome
    let world : World := ⟨fun _ => 3, fun _ => 5, [buf 7 50, buf 8 51, buf 9 52, buf 9 53],
      [buf 7 60, buf 8 61, buf 9 62, buf 9 63]⟩
    count.modify (· + 1)
    if readable then
      let go := dcp_convert_image .x64 crate (cpuOf set) world ⟨c.width, c.height, sfp, none, sbp, dfp, none, dbp, slot⟩
      if !good then
        match go with
        | .ok o => if o.res ≠ .err ∨ o.error ≠ (slot.map fun _ => .invalidValue) ∨ o.planes.isSome then
            report "C57" (showCall c)
        | _ => report "C57" (showCall c)
      else if j % 4 ≠ 0 then
        match convert .x64 crate (cpuOf set) c, go with
        | .ok (r, out), .ok o =>
          if o.res ≠ cResult r ∨ o.error ≠ cError slot r ∨ !sameBufs (planesAfter c.dst_buffers o) out then
            report "C58" (showCall c)
        | _, _ => report "C58" (showCall c)
  -- C02
  let slots := legalPairs.flatMap fun s => legalPairs.map fun d => ((s, d), slot s d)
  for (k, i) in slots do
    if i ≥ Dispatcher.TABLE_SIZE then report "C02" s!"slot {i}"
    if (slots.filter fun p => p.2 = i).length ≠ 1 then
      report "C02" s!"{repr k.1.1} {repr k.1.2} -> {repr k.2.1} {repr k.2.2}"
  for set in sets do
    match Context.new (cpuOf set) with
    | .ok ctx =>
      for (k, i) in slots do
        match ctx.converters i with
        | none => if Supported k.1.1 k.2.1 then report "C02" s!"{repr set}, slot {i}"
        | some conv => if conv.set ≠ set ∨ conv.routine.key ≠ k ∨ ¬ Supported k.1.1 k.2.1 then
            report "C02" s!"{repr set}, slot {i}"
      if describe_acceleration ctx ≠ "{cpu-manufacturer:" ++ manufacturerName (CpuInfo.get (cpuOf set)).1 ++
          ",instruction-set:" ++ setName set ++ "}" then report "C56" s!"{repr set}"
      match dcp_describe_acceleration ctx with
      | some s =>
        if s.takeWhile (· ≠ 0) ≠ (describe_acceleration ctx).toList.map Char.toNat ∨ s.getLast? ≠ some 0 then
          report "C56" s!"{repr set}"
      | none => report "C56" s!"{repr set}"
    | _ => report "C02" s!"{repr set}"
  -- C53, C56
  for _ in [0:400] do
    let cpu ← draw someCpu
    count.modify (· + 1)
    if (CpuInfo.get cpu).2 ≠ wantSet cpu then
      report "C53" s!"{repr (CpuInfo.get cpu).2} instead of {repr (wantSet cpu)}"
    match cpu with
    | .x86 c => if (CpuInfo.get cpu).1 ≠ (if (c 0).eax ≠ 0 then manufacturerOf c else .unknown) then
        report "C56" "manufacturer"
    | _ => pure ()
  -- C60, C61
  for k in [Colorimetry.bt601, .bt709, .bt601FR, .bt709FR] do
    let w := FORWARD_WEIGHTS k
    match X86.derived w with
    | .ok (yb, zb) =>
      if lumaCoef (stdOf k) ≠ (w.xr, w.xg, w.xb) ∨ cbCoef (stdOf k) ≠ (w.yr, w.yg, yb) ∨
          crCoef (stdOf k) ≠ (yb, w.zg, zb) then
        report "C60" s!"{repr k}"
    | _ => report "C60" s!"{repr k}"
    let w := BACKWARD_WEIGHTS k
    let d := dec (stdOf k)
    if [d.ky, d.kr, d.kgr, d.kgb, d.kb] ≠ [w.xxym, w.rcrm, w.gcrm, w.gcbm, w.bcbm] ∨
        [d.offR, d.offG, d.offB] ≠ [-w.rn, w.gp, -w.bn] then report "C61" s!"{repr k}"
  -- C63
  for set in sets do
    for name in ["x86", "sse2", "avx2", "neon", "", "Avx2", "foo"] do
      unless name = "neon" ∧ set = .avx2 do
        for _ in [0:8] do
          let c ← draw goodCall
          count.modify (· + 1)
          if !sameOutcome (convertHook .x64 crate (cpuOf set) (some (testSetValue name)) c)
              (convert .x64 crate (cpuOf (expectedSet set name)) c) then
            report "C63" s!"{repr set}, {name}: {showCall c}"
  let l ← ends.get
  for e in l.eraseDups do
    IO.println s!"{l.countP (· = e)} calls: {e}"
  IO.println s!"DONE {← count.get} cases"

#eval run
end Verif.Refute2
