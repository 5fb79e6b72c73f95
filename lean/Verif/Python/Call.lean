import Mathlib.Data.List.Basic

/-!
# The Python binding layer: error codes and keyword arguments (property C104)

`error_checking` turns error codes of the C library into Python exceptions;
`auto_wrap_method` makes the methods of the Python class `Swiftly`.
Trusted facts about Python (not in /repo): the rules that bind positional and keyword arguments
to the parameters of a function, and `inspect.Signature.bind`, which follows the same rules.
-/

namespace Verif.Python.Call

/-- How a Python call ends. -/
inductive Result (R : Type)
  | value (r : R)
  /-- `CError` with the error code -/
  | cError (code : Int)
  /-- `TypeError` raised by Python itself -/
  | typeError
deriving DecidableEq

/-- A C function with an error code in last place: it takes the state of the program, its
arguments and the code it finds, and gives the new state, its return value and the code it
leaves. -/
abbrev CFunc (S A R : Type) := S → A → Int → S × R × Int

/-- The decorator `error_checking` around a C function.
/repo/src/ska_sdp_func/utility/error_checking.py L37-L44 (`wrapped`). -/
def checked {S A R : Type} (f : CFunc S A R) (s : S) (args : A) : S × Result R :=
  let out := f s args 0
  if out.2.2 ≠ 0 then (out.1, .cError out.2.2) else (out.1, .value out.2.1)

/-- A whole Python program that makes the given calls one after another and catches every
exception. -/
def session {S A R : Type} (s : S) : List (CFunc S A R × A) → S × List (Result R)
  | [] => (s, [])
  | (f, a) :: rest =>
    let r := checked f s a
    let q := session r.1 rest
    (q.1, r.2 :: q.2)

/-- Python's binding of a call to a function whose parameters all take either form and have no
defaults (every method made by `auto_wrap_method`): the values in the order of the parameters, or
`none` for `TypeError`: too many positional arguments, an unknown or repeated keyword, a keyword
for a parameter that a positional argument already fills, or a parameter without a value. -/
def bindArgs {V : Type} (params : List String) (pos : List V) (kw : List (String × V)) :
    Option (List V) :=
  if pos.length ≤ params.length ∧
      kw.all (fun k => decide (k.1 ∈ params.drop pos.length)) ∧ (kw.map Prod.fst).Nodup
  then ((params.drop pos.length).mapM fun p => (kw.find? (fun k => k.1 == p)).map Prod.snd).map
    (pos ++ ·)
  else none

/-- A method of `Swiftly` made by `auto_wrap_method(…)` with a handle and an error status.
/repo/src/ska_sdp_func/fourier_transforms/swiftly.py L75-L106 (`wrapped_fn`): bind the call
(L89), wrap the values in the order of the parameters (L90-L96), call the C function (L99-L100),
then call the decorated function with the *wrapped* positional arguments and with the caller's
keyword arguments (L106); the decorated functions have an empty body and return `None`.
`params` are the parameters after `self`; `wrap` is the conversion of a value (L95).
Simplified: the conversion of a value does not fail; the first argument stands for `self` in
the first binding and for the handle in the second one. -/
def method {S V : Type} (params : List String) (wrap : V → V) (f : CFunc S (V × List V) Unit)
    (handle : V) (s : S) (pos : List V) (kw : List (String × V)) : S × Result Unit :=
  match bindArgs ("self" :: params) (handle :: pos) kw with
  | none => (s, .typeError)
  | some vals =>
    let args := vals.tail.map wrap
    match checked f s (handle, args) with
    | (s', .value _) =>
      match bindArgs ("self" :: params) (handle :: args) kw with
      | none => (s', .typeError)
      | some _ => (s', .value ())
    | (s', .cError c) => (s', .cError c)
    | (s', .typeError) => (s', .typeError)

end Verif.Python.Call
