import Mathlib.Data.List.Basic

/-!
# The Python binding layer: first use of a library function (property C104)

A function of the compiled library is declared with `Lib.wrap_func` and is set up lazily, the
first time somebody evaluates `Lib.<name>`.  Several Python threads can do that at the same time:
there is no lock around the set-up.  This file models the set-up as a small-step machine, one
step per operation on an object that the threads share, for any number of threads and any
schedule.

Trusted facts about CPython (not in /repo): attribute reads and writes, `list.append` and one
`ctypes` call are each atomic; assigning `func.argtypes = seq` keeps a reference to `seq` and
computes one converter for each entry it has at that moment (a later `append` to `seq` adds no
converter); a foreign function called with fewer arguments than it has converters raises
`TypeError`, one called with more passes the extra ones on; `ctypes.CDLL.__getattr__` looks the
symbol up, makes a new function object and stores it as an attribute of the library handle.
-/

namespace Verif.Python.Wrap

/-- What `Lib.wrap_func(name, restype=…, argtypes=[…], check_errcode=…)` is given.
/repo/src/ska_sdp_func/utility/lib.py L104-L131: the tuple stored in `_wrap_function_args`.
Simplified: only the number of entries of `argtypes` matters here. -/
structure Decl where
  /-- number of entries of `argtypes`: the number of arguments the binding passes -/
  args : Nat
  /-- `check_errcode` -/
  check : Bool

/-- A `ctypes` function object.
/repo/src/ska_sdp_func/utility/lib.py L139 and L156-L157. -/
structure Func where
  /-- number of argument converters; `none` before `argtypes` is assigned -/
  conv : Option Nat
  /-- whether `restype` was assigned -/
  res : Bool
deriving DecidableEq

/-- The objects all threads share.
/repo/src/ska_sdp_func/utility/lib.py L64-L69 and L131. -/
structure Shared where
  /-- present length of the list `argtypes` stored by `wrap_func` (`append` changes it) -/
  entries : Nat
  /-- all function objects made so far -/
  objs : List Func
  /-- the attribute `<name>` of the library handle -/
  cached : Option Nat
  /-- the attribute `<name>` of the class `Lib`: the function object it calls -/
  attr : Option Nat

/-- Where a thread is.
/repo/src/ska_sdp_func/utility/lib.py L42-L43 and L134-L167. -/
inductive Pc
  /-- about to evaluate `Lib.<name>` -/
  | idle
  /-- in `_wrap_func`, about to evaluate `getattr(Lib.handle(), func_name)` (L139) -/
  | fetch
  /-- in `CDLL.__getattr__`: a function object was made, about to store it in the handle -/
  | keep (f : Nat)
  /-- about to run `func.restype = restype` (L156) -/
  | setRes (f : Nat)
  /-- about to run `func.argtypes = argtypes` (L157) -/
  | setArgs (f : Nat)
  /-- about to run `if check_errcode: func.argtypes.append(…)` (L158-L159) -/
  | grow (f : Nat)
  /-- about to run `setattr(Lib, func_name, func)` (L161) -/
  | publish (f : Nat)
  /-- about to run `return getattr(Lib, func_name)` (L167) -/
  | again
  /-- holds the function and is about to call it -/
  | call (f : Nat)
deriving DecidableEq

/-- What one call of a library function did. -/
inductive Outcome
  /-- the C function ran: number of arguments that went through a declared converter, and whether
  the declared return type was used -/
  | ran (converted : Nat) (res : Bool)
  /-- Python raised `TypeError` and the C function did not run -/
  | typeError
deriving DecidableEq

/-- State of all threads. -/
structure State where
  mem : Shared
  pcs : Nat → Pc
  /-- outcomes of the calls so far, the latest first: thread and outcome -/
  log : List (Nat × Outcome)

/-- The state after the module that declares the function was imported.
/repo/src/ska_sdp_func/utility/lib.py L131. -/
def start (d : Decl) : State :=
  { mem := { entries := d.args, objs := [], cached := none, attr := none }
    pcs := fun _ => .idle
    log := [] }

/-- Number of arguments of a call: those of the binding and, with `check_errcode`, the error code.
/repo/src/ska_sdp_func/utility/error_checking.py L37-L39 (`lib_func(*args, ctypes.byref(code))`);
/repo/src/ska_sdp_func/utility/lib.py L158-L160. -/
def passed (d : Decl) : Nat := d.args + if d.check then 1 else 0

/-- One call of a function object with the arguments of the binding (CPython's rule, see above).
/repo/src/ska_sdp_func/utility/error_checking.py L37-L39. -/
def callFunc (d : Decl) (f : Func) : Outcome :=
  let c := f.conv.getD 0
  if passed d < c then .typeError else .ran c f.res

/-- Move one thread on, leaving the shared objects alone. -/
def State.goto (s : State) (i : Nat) (pc : Pc) : State :=
  { s with pcs := Function.update s.pcs i pc }

/-- One step of thread `i`.
/repo/src/ska_sdp_func/utility/lib.py L42-L43 (`LibMeta.__getattr__`), L134-L161 (`_wrap_func`),
L164-L167 (`_get_func`). Simplified: `Lib.handle()` succeeds and the symbol exists in the
library; the name was declared. -/
def step (d : Decl) (s : State) (i : Nat) : State :=
  match s.pcs i with
  | .idle =>
    match s.mem.attr with
    | some f => s.goto i (.call f)
    | none => s.goto i .fetch
  | .fetch =>
    match s.mem.cached with
    | some f => s.goto i (.setRes f)
    | none =>
      { s.goto i (.keep s.mem.objs.length) with
        mem := { s.mem with objs := s.mem.objs ++ [⟨none, false⟩] } }
  | .keep f =>
    { s.goto i (.setRes f) with mem := { s.mem with cached := some f } }
  | .setRes f =>
    { s.goto i (.setArgs f) with
      mem := { s.mem with objs := s.mem.objs.modify f (fun o => { o with res := true }) } }
  | .setArgs f =>
    { s.goto i (.grow f) with
      mem := { s.mem with
        objs := s.mem.objs.modify f (fun o => { o with conv := some s.mem.entries }) } }
  | .grow f =>
    { s.goto i (.publish f) with
      mem := { s.mem with entries := s.mem.entries + if d.check then 1 else 0 } }
  | .publish f =>
    { s.goto i .again with mem := { s.mem with attr := some f } }
  | .again =>
    match s.mem.attr with
    | some f => s.goto i (.call f)
    | none => s.goto i .fetch
  | .call f =>
    { s.goto i .idle with
      log := (i, match s.mem.objs[f]? with
        | some o => callFunc d o
        | none => .typeError) :: s.log }

/-- A schedule: which thread moves next. -/
def run (d : Decl) (s : State) (sched : List Nat) : State := sched.foldl (step d) s

/-- Specification: the call went through with every argument of the binding converted as declared
and with the declared return type. -/
def Fine (d : Decl) : Outcome → Prop
  | .ran c r => d.args ≤ c ∧ r = true
  | .typeError => False

end Verif.Python.Wrap
