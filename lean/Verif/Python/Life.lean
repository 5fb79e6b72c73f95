import Mathlib.Data.List.Basic
import Mathlib.Data.List.Nodup

/-!
# The Python binding layer: lifetimes (property C105)

Python objects that stand for C structures (`Mem`, `Fft`, the gridders, …), the arrays they are
made from, and the order in which a program makes, uses, forgets and collects them.

Trusted facts about Python (not in /repo): an object that something refers to is not collected;
`weakref.finalize` runs its callback once, when the object is collected or, for the objects that
are still alive, when the interpreter exits; the arguments of a call stay alive until it returns.
-/

namespace Verif.Python.Life

/-- The kinds of Python object. -/
inductive Kind
  /-- a NumPy or CuPy array with its buffer -/
  | array
  /-- `Mem(array)`: a C structure that holds the address of the buffer of array number `buf`.
  /repo/src/ska_sdp_func/utility/mem.py L60-L72: the address is taken with `ctypes.data_as` and
  handed to C; the Python object keeps no reference to the array -/
  | mem (buf : Nat)
  /-- any other `StructWrapper`: a plan -/
  | plan
deriving DecidableEq

/-- What a C creation function did. -/
inductive Made
  /-- a structure, and no error -/
  | ok
  /-- a null pointer, with or without an error code -/
  | null
  /-- a structure and an error code as well: for example
  /repo/src/ska-sdp-func/grid_data/sdp_gridder_wtower_uvw.cpp L683-L722 (`plan` is returned
  whatever `*status` became in L699-L720), /repo/src/ska-sdp-func/fourier_transforms/sdp_fft.cpp
  L841-L849 and L879 -/
  | failed

/-- State of the program. Objects are numbered in the order in which they are made. -/
structure St where
  kinds : List Kind
  /-- references the program holds to each object -/
  refs : Nat → Nat
  /-- objects that were collected, the latest first: the buffer of an array was released, the C
  structure of a wrapper was freed -/
  gone : List Nat
  /-- C structures that exist and that no Python object stands for -/
  lost : Nat
  /-- the interpreter has exited -/
  over : Bool

/-- What a program can do next. -/
inductive Event
  /-- make an array -/
  | newArray
  /-- `m = Mem(array)`, kept by the program -/
  | wrap (a : Nat)
  /-- construct a plan from arrays -/
  | create (arrays : List Nat) (r : Made)
  /-- call a function of the bindings with wrappers (plans, or `Mem`s the program keeps) and
  arrays, which the binding wraps in temporary `Mem`s -/
  | use (wrappers arrays : List Nat)
  /-- take one more reference to an object -/
  | hold (x : Nat)
  /-- forget one reference -/
  | drop (x : Nat)
  /-- the garbage collector collects an object that nothing refers to -/
  | collect (x : Nat)
  /-- the interpreter exits -/
  | exit

def start : St := { kinds := [], refs := fun _ => 0, gone := [], lost := 0, over := false }

/-- The program can name this object: it holds a reference. -/
def St.held (s : St) (x : Nat) : Prop := x < s.kinds.length ∧ 0 < s.refs x

/-- A C function that is given the structure of this object, and reads through it, touches only
memory that exists: the structure is not freed and, for a `Mem`, neither is the buffer. -/
def St.usable (s : St) (x : Nat) : Prop :=
  x ∉ s.gone ∧ ∀ b, s.kinds[x]? = some (.mem b) → b ∉ s.gone

/-- Make an object with `n` references. -/
def St.add (s : St) (k : Kind) (n : Nat) : St :=
  { s with kinds := s.kinds ++ [k], refs := Function.update s.refs s.kinds.length n }

/-- The temporary `Mem`s of one call, made for the call and forgotten when it returns (so that
they have no references afterwards).
/repo/src/ska_sdp_func/fourier_transforms/fft.py L34-L40 and L51: `Mem(input_data)` is written in
the argument list; the same in all bindings. -/
def St.temps (s : St) (arrays : List Nat) : St :=
  arrays.foldl (fun s a => s.add (.mem a) 0) s

open Classical in
/-- One event: the new state, `none` when a C function reads freed memory. An event the program
cannot perform (it does not hold the objects; the object is still referred to; the program is
over) leaves the state alone.
/repo/src/ska_sdp_func/utility/struct_wrapper.py L64-L79 (`__init__`: create, test the handle,
register the finalizer); /repo/src/ska_sdp_func/utility/error_checking.py L40-L43 (an error code
raises before the handle is returned); /repo/src/ska_sdp_func/utility/mem.py L45-L73.
Simplified: a C creation function keeps none of the arrays it is given. -/
noncomputable def step (s : St) (e : Event) : Option St :=
  if s.over then some s else
  match e with
  | .newArray => some (s.add .array 1)
  | .wrap a =>
    if s.held a ∧ s.kinds[a]? = some .array then some (s.add (.mem a) 1) else some s
  | .create arrays r =>
    if ∀ a ∈ arrays, s.held a ∧ s.kinds[a]? = some .array then
      if ∀ a ∈ arrays, a ∉ s.gone then
        match r with
        | .ok => some ((s.temps arrays).add .plan 1)
        | .null => some (s.temps arrays)
        | .failed => some { s.temps arrays with lost := s.lost + 1 }
      else none
    else some s
  | .use wrappers arrays =>
    if (∀ w ∈ wrappers, s.held w ∧ s.kinds[w]? ≠ some .array) ∧
        ∀ a ∈ arrays, s.held a ∧ s.kinds[a]? = some .array then
      if (∀ w ∈ wrappers, s.usable w) ∧ ∀ a ∈ arrays, a ∉ s.gone then
        some (s.temps arrays)
      else none
    else some s
  | .hold x =>
    if s.held x then some { s with refs := Function.update s.refs x (s.refs x + 1) } else some s
  | .drop x =>
    if s.held x then some { s with refs := Function.update s.refs x (s.refs x - 1) } else some s
  | .collect x =>
    if x < s.kinds.length ∧ s.refs x = 0 ∧ x ∉ s.gone then some { s with gone := x :: s.gone }
    else some s
  | .exit =>
    some { s with
      gone := ((List.range s.kinds.length).filter fun x =>
        decide (x ∉ s.gone ∧ s.kinds[x]? ≠ some .array)) ++ s.gone
      over := true }

/-- A whole program. -/
noncomputable def run (s : St) : List Event → Option St
  | [] => some s
  | e :: es => (step s e).bind fun s' => run s' es

/-- Specification: the events of a program that leaves wrapping to the bindings. -/
def Event.plain : Event → Prop
  | .wrap _ => False
  | _ => True

/-- Specification: object `x` stands for a C structure. -/
def IsWrapper (s : St) (x : Nat) : Prop := ∃ k, s.kinds[x]? = some k ∧ k ≠ .array

end Verif.Python.Life
