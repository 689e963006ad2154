import Verif.Model.Api
/-!
# Global state: one-time initialisation, the test hook, threads

`Context::global()` (lib.rs:521-524) is a `OnceLock`.  Its contract, as documented by the standard
library, is modelled as three states: nobody has called `get_or_init` yet, one thread is running
the initialiser (others block), the value is there.  Simplification: memory ordering is not
modelled, the `OnceLock` and the `AtomicI32` `TEST_SET` (lib.rs:507-508) are sequentially
consistent objects.  A thread is a list of API calls; the interleaving of the atomic steps of the
threads is arbitrary.  The conversion itself is one step here (its arguments belong to the calling
thread); interleavings of the individual memory accesses of several conversions are the subject of
`Verif/Model/Shared.lean`.
-/

namespace Verif

/-- An API call. -/
inductive Op where
  | convert (c : Call)
  | describe
  /-- `initialize_with_instruction_set` (lib.rs:976-982) -/
  | testSet (name : String)

/-- What the caller observes. -/
inductive Result where
  | converted (o : Outcome)
  | described (s : String)
  | unit

/-- State of `INSTANCE` (lib.rs:522). -/
inductive Once where
  | empty
  | running (tid : Nat)
  | ready (ctx : Context)

/-- Where a thread is: between calls, about to call `get_or_init`, inside `Context::new`, past
`Context::global()`. -/
inductive Pc where
  | idle
  | waiting (op : Op)
  | initialising (op : Op)
  | working (op : Op) (ctx : Context)

/-- A thread: where it is and the calls it still makes. -/
structure Thread where
  pc : Pc
  todo : List Op

/-- A completed call: thread, call, result. -/
structure Event where
  tid : Nat
  op : Op
  res : Result

/-- State of the process. `inits` counts the executions of `Context::new`; `history` lists the
completed calls in the order in which they took effect (both are ghost variables). -/
structure Sys where
  once : Once
  /-- `TEST_SET`; `none` when the feature `test_instruction_sets` is disabled -/
  hook : Option Int
  inits : Nat
  threads : Nat → Thread
  history : List Event

/-- lib.rs:906-928: the checks made before the context is needed. -/
def validated (c : Call) : R Bool :=
  let sp := c.src_format.pixel_format.toU32
  let dp := c.dst_format.pixel_format.toU32
  if (Dispatcher.get_pixel_format_mode sp ^^
        Dispatcher.get_color_space_mode c.src_format.color_space.toU32) ||
      (Dispatcher.get_pixel_format_mode dp ^^
        Dispatcher.get_color_space_mode c.dst_format.color_space.toU32) then
    .ok false
  else do
    if !(← PixFmt.is_compatible sp c.width c.height (c.src_format.num_planes - 1)) then
      return false
    else
      PixFmt.is_compatible dp c.width c.height (c.dst_format.num_planes - 1)

/-- lib.rs:976-982: value stored in `TEST_SET`. -/
def testSetValue (name : String) : Int :=
  if name = "x86" then 0
  else if name = "sse2" ∨ name = "neon" then 1
  else 2

/-- What a call does once it has the context (lib.rs:600-607, 931-972). -/
def Op.exec (t : Target) (impls : InstructionSet → Impl) (hook : Option Int) (ctx : Context) :
    Op → Result
  | .convert c => .converted (convert_image t impls (select_table ctx hook) c.width c.height
      c.src_format c.src_strides c.src_buffers c.dst_format c.dst_strides c.dst_buffers)
  | .describe => .described (describe_acceleration ctx)
  | .testSet _ => .unit

/-- Replace the state of one thread. -/
def Sys.setThread (s : Sys) (tid : Nat) (th : Thread) : Sys :=
  { s with threads := fun i => if i = tid then th else s.threads i }

/-- One atomic step of thread `tid`. -/
inductive Step (t : Target) (impls : InstructionSet → Impl) (cpu : Cpu) : Sys → Sys → Prop
  /-- `convert_image` returns `InvalidValue` before it needs the context (lib.rs:906-928). -/
  | reject {s : Sys} (tid : Nat) (c : Call) (rest : List Op)
      (h : s.threads tid = ⟨.idle, .convert c :: rest⟩) (hv : validated c = .ok false) :
      Step t impls cpu s { s.setThread tid ⟨.idle, rest⟩ with
        history := s.history ++
          [⟨tid, .convert c, .converted (.ok (.error .invalidValue, c.dst_buffers))⟩] }
  /-- `convert_image` has checked its arguments and calls `Context::global()` (lib.rs:934). -/
  | enter {s : Sys} (tid : Nat) (c : Call) (rest : List Op)
      (h : s.threads tid = ⟨.idle, .convert c :: rest⟩) (hv : validated c = .ok true) :
      Step t impls cpu s (s.setThread tid ⟨.waiting (.convert c), rest⟩)
  /-- `describe_acceleration` calls `Context::global()` (lib.rs:601). -/
  | ask {s : Sys} (tid : Nat) (rest : List Op)
      (h : s.threads tid = ⟨.idle, .describe :: rest⟩) :
      Step t impls cpu s (s.setThread tid ⟨.waiting .describe, rest⟩)
  /-- `get_or_init` finds the cell empty and starts the initialiser. -/
  | claim {s : Sys} (tid : Nat) (op : Op) (rest : List Op)
      (h : s.threads tid = ⟨.waiting op, rest⟩) (ho : s.once = .empty) :
      Step t impls cpu s { s.setThread tid ⟨.initialising op, rest⟩ with once := .running tid }
  /-- The initialiser returns and its value is published. -/
  | publish {s : Sys} (tid : Nat) (op : Op) (rest : List Op) (ctx : Context)
      (h : s.threads tid = ⟨.initialising op, rest⟩) (ho : s.once = .running tid)
      (hc : Context.new cpu = .ok ctx) :
      Step t impls cpu s { s.setThread tid ⟨.working op ctx, rest⟩ with
        once := .ready ctx, inits := s.inits + 1 }
  /-- `get_or_init` finds the value. -/
  | get {s : Sys} (tid : Nat) (op : Op) (rest : List Op) (ctx : Context)
      (h : s.threads tid = ⟨.waiting op, rest⟩) (ho : s.once = .ready ctx) :
      Step t impls cpu s (s.setThread tid ⟨.working op ctx, rest⟩)
  /-- The rest of the call. -/
  | run {s : Sys} (tid : Nat) (op : Op) (rest : List Op) (ctx : Context)
      (h : s.threads tid = ⟨.working op ctx, rest⟩) :
      Step t impls cpu s { s.setThread tid ⟨.idle, rest⟩ with
        history := s.history ++ [⟨tid, op, op.exec t impls s.hook ctx⟩] }
  /-- `TEST_SET.store` (lib.rs:976-982); does nothing without the feature. -/
  | testSet {s : Sys} (tid : Nat) (name : String) (rest : List Op)
      (h : s.threads tid = ⟨.idle, .testSet name :: rest⟩) :
      Step t impls cpu s { s.setThread tid ⟨.idle, rest⟩ with
        hook := s.hook.map fun _ => testSetValue name
        history := s.history ++ [⟨tid, .testSet name, .unit⟩] }

/-- Start of the process: thread `i` is going to make the calls `prog i`; `feature` tells whether
`test_instruction_sets` is enabled (`TEST_SET` starts at -1). -/
def Sys.init (feature : Bool) (prog : Nat → List Op) : Sys :=
  ⟨.empty, if feature then some (-1) else none, 0, fun i => ⟨.idle, prog i⟩, []⟩

/-- Executions: any number of steps in any order. -/
inductive Steps (t : Target) (impls : InstructionSet → Impl) (cpu : Cpu) : Nat → Sys → Sys → Prop
  | refl (s : Sys) : Steps t impls cpu 0 s s
  | tail {n : Nat} {s s' s'' : Sys} : Steps t impls cpu n s s' → Step t impls cpu s' s'' →
      Steps t impls cpu (n + 1) s s''

end Verif
