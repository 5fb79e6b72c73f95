import Mathlib.Data.List.Basic

/-!
# Calls of C functions from Python (property C118)

What `ctypes` does with the arguments of a call.  Trusted facts about `ctypes`
(not in /repo): the conversions of `convert`; too few arguments, or an argument
that cannot be converted, raise an exception before the C function runs; an
integer loses its high bits without an error; a C function that does not get
arguments of its parameters' types has undefined behaviour.
-/

namespace Verif.Python.Bind

/-- Types of C parameters, and the types of `ctypes` for them.  `int`, `int32_t`
and the enumerations are `i32`; `handle` is a pointer to a structure; `err` is
the pointer to the error code. -/
inductive Ty
  | i32 | i64 | f32 | f64 | handle (cls : String) | pi32 | pi64 | pf64 | voidp | str | err
deriving DecidableEq

/-- A C function (its prototype in the header) and how Python declares it
(`Lib.wrap_func`: src/ska_sdp_func/utility/lib.py:104-131; the methods of
`Swiftly`: src/ska_sdp_func/fourier_transforms/swiftly.py:51-87). -/
structure Func where
  name : String
  params : List (Ty × String)
  ret : Option Ty
  argtypes : List Ty
  restype : Option Ty
  checkErrcode : Bool
deriving DecidableEq

/-- An argument of a call: an expression, or the array `x` in `Mem(x)`. -/
inductive Arg
  | val (x : String)
  | mem (x : String)
deriving DecidableEq

/-- A call: the Python function that makes it, the C function, the arguments. -/
structure Site where
  method : String
  func : Func
  args : List Arg
deriving DecidableEq

/-- Python values; `F` are the floating-point numbers.  `object` is an object that
wraps the C structure at an address (`StructWrapper`); `ref` is the address of
a number or an array of numbers of that type. -/
inductive Val (F : Type)
  | int (n : Int)
  | float (x : F)
  | object (cls : String) (address : Nat)
  | array (id : Nat)
  | none
  | ref (t : Ty) (address : Nat)
  | other

/-- Values in C. -/
inductive CVal (F : Type)
  | int (n : Int)
  | float (x : F)
  | ptr (address : Option Nat)

/-- Integers as floating-point numbers (`none` if too large) and rounding to
single precision. -/
structure Floats (F : Type) where
  ofInt : Int → Option F
  single : F → F

/-- The state of the program at a call: the values of expressions, and what
`Mem(v)` gives: the address of a new structure, or `none` for an exception
(`Verif.Python.Array.memInit`). -/
structure Env (F : Type) where
  value : String → Val F
  mem : Val F → Option Nat

/-- The low bits of an integer, read as a signed number. -/
def low (bits : Nat) (n : Int) : Int := (n + 2 ^ (bits - 1)) % 2 ^ bits - 2 ^ (bits - 1)

/-- The conversion of a Python value to a type of `ctypes`; `none` raises an exception. -/
def convert {F : Type} (fl : Floats F) : Ty → Val F → Option (CVal F)
  | .i32, .int n => some (.int (low 32 n))
  | .i64, .int n => some (.int (low 64 n))
  | .f64, .int n => (fl.ofInt n).map .float
  | .f64, .float x => some (.float x)
  | .f32, .int n => (fl.ofInt n).map fun x => .float (fl.single x)
  | .f32, .float x => some (.float (fl.single x))
  | .handle c, .object d a => if c = d then some (.ptr (some a)) else none
  | .handle _, .none => some (.ptr none)
  | .pi32, .ref t a => if t = .i32 then some (.ptr (some a)) else none
  | .pi32, .none => some (.ptr none)
  | .pi64, .ref t a => if t = .i64 then some (.ptr (some a)) else none
  | .pi64, .none => some (.ptr none)
  | .pf64, .ref t a => if t = .f64 then some (.ptr (some a)) else none
  | .pf64, .none => some (.ptr none)
  | .err, .ref t a => if t = .i32 then some (.ptr (some a)) else none
  | _, _ => none

/-- The value of an argument; `none` raises an exception. -/
def Arg.eval {F : Type} (env : Env F) : Arg → Option (Val F)
  | .val x => some (env.value x)
  | .mem x => (env.mem (env.value x)).map (.object "Mem")

/-- How a call goes. -/
inductive Outcome (F : Type)
  /-- an exception; the C function does not run -/
  | raised
  /-- undefined behaviour -/
  | undefined
  /-- the C function runs with these values of its parameters -/
  | called (got : List (String × CVal F))

/-- Convert the arguments one by one. -/
def convertAll {F : Type} (fl : Floats F) : List Ty → List (Val F) → Option (List (CVal F))
  | t :: ts, v :: vs =>
    match convert fl t v with
    | none => none
    | some c => (convertAll fl ts vs).map (c :: ·)
  | _, _ => some []

/-- A call.  With `check_errcode` the address `code` of an error code is passed
as well: src/ska_sdp_func/utility/error_checking.py:37-44 and
src/ska_sdp_func/utility/lib.py:156-161. -/
def call {F : Type} (fl : Floats F) (env : Env F) (code : Nat) (s : Site) : Outcome F :=
  match s.args.mapM (Arg.eval env) with
  | none => .raised
  | some given =>
    let vs := if s.func.checkErrcode then given ++ [.ref .i32 code] else given
    let types := if s.func.checkErrcode then s.func.argtypes ++ [.err] else s.func.argtypes
    if vs.length < types.length then .raised
    else
      match convertAll fl types vs with
      | none => .raised
      | some cs =>
        if vs.length = types.length ∧ types = s.func.params.map Prod.fst then
          .called ((s.func.params.map Prod.snd).zip cs)
        else .undefined

end Verif.Python.Bind
