/-!
# Execution model

Faults, machine integers, buffers and the monad in which every routine of the crate is modelled.
Nothing in this file depends on the conversions themselves.
-/

namespace Verif

/-- Ways in which an execution can go wrong.
* `oobRead`/`oobWrite`: access outside the slice a raw pointer was taken from (undefined behaviour
  in Rust).
* `overflow`: arithmetic overflow in a build with overflow checks (panic).
* `sliceIndex`: slice or array index out of range (panic).
* `fuel`: a loop of the model did not terminate within its fuel (never happens, excluded by the
  theorems). -/
inductive Fault where
  | oobRead | oobWrite | overflow | sliceIndex | fuel
  deriving DecidableEq, Repr

/-- Build target: width of `usize` and whether overflow checks are compiled in
(`debug_assertions`). -/
structure Target where
  bits : Nat
  checked : Bool
  deriving DecidableEq, Repr

/-- A computation that may fault. -/
abbrev R := Except Fault

namespace Target

/-- `usize::MAX`. -/
def umax (t : Target) : Nat := 2 ^ t.bits - 1

/-- `isize::MAX`: the largest length of a Rust slice of bytes. -/
def imax (t : Target) : Nat := 2 ^ (t.bits - 1) - 1

/-- `a * b` on `usize`: panics with overflow checks, wraps without. -/
def mul (t : Target) (a b : Nat) : R Nat :=
  if a * b < 2 ^ t.bits then .ok (a * b)
  else if t.checked then .error .overflow
  else .ok (a * b % 2 ^ t.bits)

/-- `a + b` on `usize`: panics with overflow checks, wraps without. -/
def add (t : Target) (a b : Nat) : R Nat :=
  if a + b < 2 ^ t.bits then .ok (a + b)
  else if t.checked then .error .overflow
  else .ok ((a + b) % 2 ^ t.bits)

/-- `a - b` on `usize`: panics with overflow checks, wraps without. -/
def sub (t : Target) (a b : Nat) : R Nat :=
  if b ≤ a then .ok (a - b)
  else if t.checked then .error .overflow
  else .ok (2 ^ t.bits + a - b)

end Target

/-- The usual 64-bit build with overflow checks. -/
def Target.x64 : Target := ⟨64, true⟩
/-- 64-bit release build (overflow wraps). -/
def Target.x64r : Target := ⟨64, false⟩
/-- 32-bit release build. -/
def Target.x32r : Target := ⟨32, false⟩

namespace I32

/-- Result of an `i32` operation: faults when the mathematical result does not fit. -/
def chk (x : Int) : R Int :=
  if -2147483648 ≤ x ∧ x ≤ 2147483647 then .ok x else .error .overflow

/-- `i32` addition. -/
def add (a b : Int) : R Int := chk (a + b)
/-- `i32` subtraction. -/
def sub (a b : Int) : R Int := chk (a - b)
/-- `i32` negation. -/
def neg (a : Int) : R Int := chk (-a)
/-- `i32` multiplication. -/
def mul (a b : Int) : R Int := chk (a * b)
/-- `i32 >> n` (arithmetic shift, never overflows for `n < 32`). -/
def shr (a : Int) (n : Nat) : Int := a / 2 ^ n
/-- `x as u8` for an `i32`. -/
def asU8 (x : Int) : UInt8 := UInt8.ofNat (x % 256).toNat

end I32

/-- A byte buffer (`&[u8]`): a length and contents. `bytes i` for `i ≥ len` stands for the
unrelated memory behind the buffer; the routines never see it because every access is checked. -/
structure Buf where
  len : Nat
  bytes : Nat → UInt8

/-- A mutable sub-slice of destination plane `plane`: bytes `off .. off+len`. -/
structure Dst where
  plane : Nat
  off : Nat
  len : Nat
  deriving DecidableEq, Repr

/-- One byte written to a destination plane. -/
structure Write where
  plane : Nat
  idx : Nat
  val : UInt8
  deriving DecidableEq, Repr

/-- A routine that reads source buffers and emits destination writes, in order: its result is a
fault, or a value together with the writes performed.
No routine of the crate reads a destination buffer, so the writes can be applied afterwards. -/
structure K (α : Type) where
  run : Except Fault (α × List Write)

namespace K

/-- Finish with a value and a list of writes. -/
@[reducible] def ok {α : Type} (a : α) (w : List Write) : K α := ⟨.ok (a, w)⟩

/-- Abort with a fault. -/
@[reducible] def throw {α : Type} (e : Fault) : K α := ⟨.error e⟩

/-- Sequencing: the writes of the second part follow those of the first. -/
protected def bind {α β : Type} (x : K α) (f : α → K β) : K β :=
  match x.run with
  | .error e => K.throw e
  | .ok (a, w) =>
    match (f a).run with
    | .error e => K.throw e
    | .ok (b, w') => K.ok b (w ++ w')

instance : Monad K where
  pure a := K.ok a []
  bind := K.bind

/-- Use a pure computation that may fault. -/
def lift {α : Type} (x : R α) : K α :=
  match x with
  | .error e => K.throw e
  | .ok a => K.ok a []

instance : MonadLift R K := ⟨lift⟩

end K

/-- `*p` where `p = s.as_ptr().add(i)`. -/
def rd (s : Buf) (i : Nat) : K UInt8 :=
  if i < s.len then pure (s.bytes i) else K.throw .oobRead

/-- `*p = v` where `p = d.as_mut_ptr().add(i)`. -/
def wr (d : Dst) (i : Nat) (v : UInt8) : K Unit :=
  if i < d.len then K.ok () [⟨d.plane, d.off + i, v⟩] else K.throw .oobWrite

/-- `&s[n..]` -/
def Buf.from (s : Buf) (n : Nat) : R Buf :=
  if n ≤ s.len then .ok ⟨s.len - n, fun i => s.bytes (n + i)⟩ else .error .sliceIndex

/-- `&s[..n]`, first half of `split_at`. -/
def Buf.upto (s : Buf) (n : Nat) : R Buf :=
  if n ≤ s.len then .ok ⟨n, s.bytes⟩ else .error .sliceIndex

/-- `&mut d[n..]` -/
def Dst.from (d : Dst) (n : Nat) : R Dst :=
  if n ≤ d.len then .ok ⟨d.plane, d.off + n, d.len - n⟩ else .error .sliceIndex

/-- `&mut d[..n]` -/
def Dst.upto (d : Dst) (n : Nat) : R Dst :=
  if n ≤ d.len then .ok ⟨d.plane, d.off, n⟩ else .error .sliceIndex

/-- `a[i]` on a slice: panics when out of range. -/
def idx {α : Type} (a : List α) (i : Nat) : R α :=
  match a[i]? with
  | some x => .ok x
  | none => .error .sliceIndex

/-- `for i in lo..lo+n { f(i) }` -/
def forFrom : (lo n : Nat) → (Nat → K Unit) → K Unit
  | _, 0, _ => pure ()
  | lo, n + 1, f => do f lo; forFrom (lo + 1) n f

/-- `for i in 0..n { f(i) }` -/
def forK (n : Nat) (f : Nat → K Unit) : K Unit := forFrom 0 n f

/-- `for _ in 0..n { s = f(s) }` with loop-carried variables `s`. -/
def iterK {σ : Type} : (n : Nat) → (σ → K σ) → σ → K σ
  | 0, _, s => pure s
  | n + 1, f, s => do let s' ← f s; iterK n f s'

/-- `while cond(s) { s = f(s) }` with fuel. -/
def whileK {σ : Type} (fuel : Nat) (cond : σ → Bool) (f : σ → K σ) (s : σ) : K σ :=
  match fuel with
  | 0 => if cond s then K.throw .fuel else pure s
  | n + 1 => if cond s then do let s' ← f s; whileK n cond f s' else pure s

/-- Contents of all destination planes: plane number, byte index. -/
abbrev Mem := Nat → Nat → UInt8

/-- Perform one write. -/
def Mem.set (m : Mem) (w : Write) : Mem :=
  fun p i => if p = w.plane ∧ i = w.idx then w.val else m p i

/-- Perform writes in order. -/
def Mem.apply (m : Mem) (ws : List Write) : Mem := ws.foldl Mem.set m

/-- Contents of a list of destination buffers. -/
def memOf (bufs : List Buf) : Mem :=
  fun p i => match bufs[p]? with
    | some b => b.bytes i
    | none => 0

/-- Destination buffers with new contents. -/
def withMem (bufs : List Buf) (m : Mem) : List Buf :=
  bufs.mapIdx fun p b => ⟨b.len, m p⟩

end Verif
