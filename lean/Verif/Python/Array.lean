import Verif.Mem.Model

/-!
# Arrays of Python programs as the C library sees them (property C118)

`Mem(array)`, /repo/src/ska_sdp_func/utility/mem.py.  `sdp_mem_create_wrapper`
is the model of property C01.  Trusted facts about NumPy and CuPy (not in
/repo): an array has an element type, a shape, strides in bytes and the address
of its first element; `==` of element types also compares the byte order.
-/

namespace Verif.Python.Array

open Sdp (Ptr Mem MemType MemLocation Status createWrapper)

/-- Element types of NumPy.  `byte` is another name of `int8`; `other` is every
other one: unsigned and 64-bit integers, booleans, swapped byte order,
structures, ... -/
inductive DType
  | int8 | int32 | float32 | float64 | complex64 | complex128 | other (itemsize : Nat)
deriving DecidableEq

/-- An array. -/
structure NdArray where
  dtype : DType
  shape : List Nat
  strides : List Int
  data : Ptr
  writeable : Bool

/-- What a Python program may give to `Mem`. -/
inductive Obj
  | numpy (a : NdArray)
  | cupy (a : NdArray)
  | none
  | anything

/-- The tests of `obj.dtype`: src/ska_sdp_func/utility/mem.py:46-59 (NumPy) and 76-89 (CuPy). -/
def memType : DType → Option MemType
  | .int8 => some .char
  | .int32 => some .int
  | .float32 => some .float
  | .float64 => some .double
  | .complex64 => some .complexFloat
  | .complex128 => some .complexDouble
  | .other _ => Option.none

/-- How making a `Mem` ends. -/
inductive Made
  | mem (m : Mem)
  | typeError
  | cError (s : Status)

/-- `sdp_mem_set_read_only`: src/ska-sdp-func/utility/sdp_mem.cpp:825-829. -/
def setReadOnly (m : Mem) (value : Bool) : Mem := { m with isReadOnly := value }

/-- Call `sdp_mem_create_wrapper`, raise the error if there is one, and set the
flag: src/ska_sdp_func/utility/mem.py:70-73 and 100-104. -/
def wrap (data : Option Ptr) (t : MemType) (l : MemLocation) (shape strides : List Int)
    (readOnly : Bool) : Made :=
  let r := createWrapper data t l shape (some strides) .success
  if r.2 ≠ .success then .cError r.2 else .mem (setReadOnly r.1 readOnly)

/-- `Mem.__init__`: src/ska_sdp_func/utility/mem.py:38-121. -/
def memInit (args : List Obj) : Made :=
  let obj := match args with
    | [o] => o
    | _ => .none
  match obj with
  | .numpy a =>
    match memType a.dtype with
    | some t => wrap (some a.data) t .cpu (a.shape.map Int.ofNat) a.strides (!a.writeable)
    | Option.none => .typeError
  | .cupy a =>
    match memType a.dtype with
    | some t => wrap (some a.data) t .gpu (a.shape.map Int.ofNat) a.strides false
    | Option.none => .typeError
  | .none => wrap Option.none .void .cpu [] [] false
  | .anything => .typeError

end Verif.Python.Array
