import Verif.Width.Vis

/-
Filling, scaling and random filling of arrays, with loops and thread indices in
the integer types of the code (property C121).
-/
namespace Sdp.Width

/-- The element types of an array, src/ska-sdp-func/utility/sdp_mem.h:73-99. -/
inductive Elem where
  | char | int | float | double | complexFloat | complexDouble
deriving DecidableEq, Repr

/-- What these functions look at in an `sdp_Mem`: the location (CPU or GPU), the
element type, the flags, and each dimension with its stride in elements. -/
structure Target where
  gpu : Bool
  elem : Elem
  readOnly : Bool
  contiguous : Bool
  dims : List (Nat × Int)

/-- How a call ends: with an error and nothing written, or with success after
elements of the stated type were accessed. -/
inductive Filled where
  | error
  | done (type : Elem) (t : Trace)

/-- A kernel launch: one that is refused is an error. -/
def Launched.filled (type : Elem) : Launched → Filled
  | .refused => .error
  | .ran t => .done type t

/-- The element type an array is filled as: the switch statements of
sdp_mem_set_value, src/ska-sdp-func/utility/sdp_mem.cpp:840-861, 865-886, 890-911,
927-985, 994-1052 and 1063-1121, which all have the same cases. -/
def fillType : Elem → Option Elem
  | .complexDouble => some .complexDouble
  | .complexFloat => some .complexFloat
  | .double => some .double
  | .float => some .float
  | .int => some .int
  | .char => none

/-- Element of a view of one dimension,
src/ska-sdp-func/utility/sdp_mem_view.h:128-132. -/
def view1 (s0 : Int) (i0 : Num) : Trace :=
  touch "mem" (lit .i64 s0 * as .i64 i0)

/-- Of two dimensions, src/ska-sdp-func/utility/sdp_mem_view.h:146-150. -/
def view2 (s0 s1 : Int) (i0 i1 : Num) : Trace :=
  touch "mem" (lit .i64 s0 * as .i64 i0 + lit .i64 s1 * as .i64 i1)

/-- Of three dimensions, src/ska-sdp-func/utility/sdp_mem_view.h:165-169. -/
def view3 (s0 s1 s2 : Int) (i0 i1 i2 : Num) : Trace :=
  touch "mem" (lit .i64 s0 * as .i64 i0 + lit .i64 s1 * as .i64 i1 +
    lit .i64 s2 * as .i64 i2)

/-- set_value_1d, src/ska-sdp-func/utility/sdp_mem.cpp:105-116. -/
def fill1 (n0 : Nat) (s0 : Int) : Trace :=
  let shape0 := as .i32 (longDim n0)
  loop .i32 shape0 fun i => view1 s0 i

/-- set_value_2d, src/ska-sdp-func/utility/sdp_mem.cpp:120-135. -/
def fill2 (n0 n1 : Nat) (s0 s1 : Int) : Trace :=
  let shape0 := as .i32 (longDim n0)
  let shape1 := as .i32 (longDim n1)
  loop .i32 shape0 fun i =>
  loop .i32 shape1 fun j => view2 s0 s1 i j

/-- set_value_3d, src/ska-sdp-func/utility/sdp_mem.cpp:139-158. -/
def fill3 (n0 n1 n2 : Nat) (s0 s1 s2 : Int) : Trace :=
  let shape0 := as .i32 (longDim n0)
  let shape1 := as .i32 (longDim n1)
  let shape2 := as .i32 (longDim n2)
  loop .i32 shape0 fun i =>
  loop .i32 shape1 fun j =>
  loop .i32 shape2 fun k => view3 s0 s1 s2 i j k

/-- Kernel sdp_mem_set_value_1d, src/ska-sdp-func/utility/sdp_mem.cu:20-26,
launched with 256 threads per block (sdp_mem.cpp:924-926). -/
def fillGpu1 (n0 : Nat) (s0 : Int) : Launched :=
  launch1 n0 256 fun x =>
    let i := as .i64 x
    whenLt i (longDim n0) (view1 s0 i)

/-- Kernel sdp_mem_set_value_2d, src/ska-sdp-func/utility/sdp_mem.cu:29-36,
launched with 16 x 16 threads (sdp_mem.cpp:989-993). -/
def fillGpu2 (n0 n1 : Nat) (s0 s1 : Int) : Launched :=
  launch3 n0 n1 1 16 16 1 fun x y _ =>
    let i := as .i64 x
    let j := as .i64 y
    whenLt i (longDim n0) (whenLt j (longDim n1) (view2 s0 s1 i j))

/-- Kernel sdp_mem_set_value_3d, src/ska-sdp-func/utility/sdp_mem.cu:39-47,
launched with 16 x 8 x 4 threads (sdp_mem.cpp:1056-1062). -/
def fillGpu3 (n0 n1 n2 : Nat) (s0 s1 s2 : Int) : Launched :=
  launch3 n0 n1 n2 16 8 4 fun x y z =>
    let i := as .i64 x
    let j := as .i64 y
    let k := as .i64 z
    whenLt i (longDim n0) (whenLt j (longDim n1) (whenLt k (longDim n2)
      (view3 s0 s1 s2 i j k)))

/-- sdp_mem_set_value, src/ska-sdp-func/utility/sdp_mem.cpp:832-1129, on an array
without a pending error.  sdp_mem_check_and_view fails if the array is
read-only (src/ska-sdp-func/utility/sdp_mem_view.h:353-359); the types and the
number of dimensions agree by then.  On the GPU this holds with CUDA support;
without it every launch is refused. -/
def setValueWidth (b : Target) : Filled :=
  match b.dims with
  | [(n0, s0)] => match fillType b.elem with
    | none => .error
    | some ty => if b.readOnly then .error
      else if b.gpu then (fillGpu1 n0 s0).filled ty else .done ty (fill1 n0 s0)
  | [(n0, s0), (n1, s1)] => match fillType b.elem with
    | none => .error
    | some ty => if b.readOnly then .error
      else if b.gpu then (fillGpu2 n0 n1 s0 s1).filled ty
      else .done ty (fill2 n0 n1 s0 s1)
  | [(n0, s0), (n1, s1), (n2, s2)] => match fillType b.elem with
    | none => .error
    | some ty => if b.readOnly then .error
      else if b.gpu then (fillGpu3 n0 n1 n2 s0 s1 s2).filled ty
      else .done ty (fill3 n0 n1 n2 s0 s1 s2)
  | _ => .error

/-- The element type an array is scaled as: the switch statements of
sdp_mem_scale_real, src/ska-sdp-func/utility/sdp_mem.cpp:767-785 and 793-812. -/
def scaleType : Elem → Option Elem
  | .complexDouble => some .complexDouble
  | .complexFloat => some .complexFloat
  | .double => some .double
  | .float => some .float
  | .int => none
  | .char => none

/-- The number of elements an `sdp_Mem` stores,
src/ska-sdp-func/utility/sdp_mem.cpp:206-217 (products that an `int64_t` cannot hold
are C26's subject). -/
def elements (b : Target) : Nat := b.dims.foldl (fun a d => a * d.1) 1

/-- The loop of scale_real, src/ska-sdp-func/utility/sdp_mem.cpp:91-101. -/
def scaleCpu (n : Nat) : Trace := loop .i64 (longDim n) fun i => touch "mem" i

/-- Kernel sdp_mem_scale_real, src/ska-sdp-func/utility/sdp_mem.cu:11-17, launched
with 256 threads per block (sdp_mem.cpp:790-792). -/
def scaleGpu (n : Nat) : Launched :=
  launch1 n 256 fun x =>
    let i := as .i64 x
    whenLt i (longDim n) (touch "mem" i)

/-- sdp_mem_scale_real, src/ska-sdp-func/utility/sdp_mem.cpp:755-822; it does not look
at the read-only flag. -/
def scaleRealWidth (b : Target) : Filled :=
  if b.contiguous = false then .error
  else match scaleType b.elem with
  | none => .error
  | some ty =>
    if b.gpu then (scaleGpu (elements b)).filled ty
    else .done ty (scaleCpu (elements b))

/-- sdp_mem_random_fill, src/ska-sdp-func/utility/sdp_mem.cpp:708-738: positions in
real numbers, of which a complex element has two.  It looks neither at strides
nor at the read-only flag. -/
def randomFill (b : Target) : Filled :=
  if b.gpu then .error
  else
    let n := longDim (elements b)
    match b.elem with
    | .char => .done .char skip
    | .int => .done .int skip
    | .float => .done .float (loop .i64 n fun i => touch "mem" i)
    | .double => .done .double (loop .i64 n fun i => touch "mem" i)
    | .complexFloat => .done .float (loop .i64 (n * num 2) fun i => touch "mem" i)
    | .complexDouble => .done .double (loop .i64 (n * num 2) fun i => touch "mem" i)

/-- The value of a real number after random filling, from the result `r` of rand():
`(T) r / (T) RAND_MAX`, src/ska-sdp-func/utility/sdp_mem.cpp:726 and 735, each operation
rounded by `rnd`. -/
def randomValue (rnd : Rat → Rat) (max r : Nat) : Rat := rnd (rnd r / rnd max)

end Sdp.Width
