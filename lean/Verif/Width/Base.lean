/-
C integer arithmetic, loops and kernel launches, for property C115.

Every other model of this project computes array indices with unbounded
integers.  This one computes them as the compiled program does, in `int`,
`unsigned int`, `int64_t` and `uint64_t`.

Trusted rules of the languages (ISO C++ and the CUDA programming guide), not
code of the library:
* binary operators convert both operands to a common type (`Ty.join`);
* signed overflow is undefined behaviour, unsigned arithmetic is modular;
* a conversion to a narrower type keeps the low bits;
* a launch whose grid is empty or larger than (2^31-1, 65535, 65535) blocks is
  refused, and `sdp_launch_cuda_kernel` then sets an error.
-/
namespace Sdp.Width

/-- The integer types the index arithmetic of the library uses. -/
inductive Ty where
  | i32 | u32 | i64 | u64
deriving DecidableEq, Repr

/-- Largest value of a type. -/
def Ty.hi : Ty → Int
  | .i32 => 2147483647
  | .u32 => 4294967295
  | .i64 => 9223372036854775807
  | .u64 => 18446744073709551615

/-- Smallest value of a type. -/
def Ty.lo : Ty → Int
  | .i32 => -2147483648
  | .u32 => 0
  | .i64 => -9223372036854775808
  | .u64 => 0

/-- Is overflow in this type undefined (signed) or modular (unsigned)? -/
def Ty.signed : Ty → Bool
  | .i32 => true
  | .u32 => false
  | .i64 => true
  | .u64 => false

/-- Conversion to a type: the value of that type that is equal modulo 2^32
(or 2^64). -/
def Ty.wrap (t : Ty) (v : Int) : Int :=
  (v - t.lo) % (t.hi - t.lo + 1) + t.lo

/-- The type two operands are converted to (ISO C++ [expr.arith.conv]). -/
def Ty.join : Ty → Ty → Ty
  | .u64, _ => .u64
  | _, .u64 => .u64
  | .i64, _ => .i64
  | _, .i64 => .i64
  | .u32, _ => .u32
  | _, .u32 => .u32
  | .i32, .i32 => .i32

/-- A value of a C integer type. -/
structure V where
  ty : Ty
  val : Int
deriving DecidableEq, Repr

/-- The value of a C integer expression; `none`: evaluating it is undefined
behaviour. -/
abbrev Num := Option V

/-- A variable, parameter or literal. -/
def lit (t : Ty) (v : Int) : Num := some ⟨t, v⟩

/-- The literals that occur in the code have type `int`. -/
def num (v : Int) : Num := lit .i32 v

/-- A result in type `t`: undefined if a signed type cannot hold it. -/
def fit (t : Ty) (x : Int) : Num :=
  if t.signed then (if t.lo ≤ x ∧ x ≤ t.hi then some ⟨t, x⟩ else none)
  else some ⟨t, t.wrap x⟩

/-- A binary operator: convert both operands to the common type, calculate
there. -/
def arith (f : Int → Int → Int) (a b : Num) : Num :=
  a.bind fun x => b.bind fun y =>
    fit (x.ty.join y.ty)
      (f ((x.ty.join y.ty).wrap x.val) ((x.ty.join y.ty).wrap y.val))

instance : Add Num := ⟨arith (· + ·)⟩
instance : Sub Num := ⟨arith (· - ·)⟩
instance : Mul Num := ⟨arith (· * ·)⟩

/-- Division, which truncates towards zero and is undefined for divisor 0. -/
instance : Div Num :=
  ⟨fun a b => b.bind fun y =>
    if y.val = 0 then none else arith Int.tdiv a (some y)⟩

/-- Remainder, with the sign of the dividend. -/
instance : Mod Num :=
  ⟨fun a b => b.bind fun y =>
    if y.val = 0 then none else arith Int.tmod a (some y)⟩

/-- Initialising a variable of type `t`, or an explicit cast to `t`. -/
def as (t : Ty) (a : Num) : Num := a.bind fun x => some ⟨t, t.wrap x.val⟩

/-- An access of element `2nd` of the array named `1st`. -/
abbrev Acc := String × Int

/-- The accesses a piece of code makes, in order; `none`: undefined
behaviour. -/
abbrev Trace := Option (List Acc)

/-- Access element `i` of array `a`. -/
def touch (a : String) (i : Num) : Trace := i.bind fun x => some [(a, x.val)]

/-- Nothing. -/
def skip : Trace := some []

/-- One piece of code after the other. -/
def seq (a b : Trace) : Trace := a.bind fun x => b.bind fun y => some (x ++ y)

infixr:60 " ;; " => seq

/-- The first `n` iterations of a loop body. -/
def iters (body : Nat → Trace) : Nat → Trace
  | 0 => skip
  | n + 1 => iters body n ;; body n

/-- `for (t i = 0; i < limit; ++i) body`.  If the limit is larger than every
value of the counter's type the counter overflows before the loop can end
(`int`: undefined; `unsigned`: the loop never ends; both are `none` here). -/
def loop (t : Ty) (limit : Num) (body : Num → Trace) : Trace :=
  limit.bind fun n =>
    if n.val ≤ t.hi then iters (fun i => body (lit t i)) n.val.toNat else none

/-- `for (t x = start, i = 0; x < limit; x++, i++) body`, under the same rule. -/
def loopFrom (t : Ty) (start limit : Num) (body : Num → Num → Trace) : Trace :=
  (as t start).bind fun s => limit.bind fun n =>
    if n.val ≤ t.hi ∧ n.val - s.val ≤ t.hi then
      iters (fun i => body (lit t (s.val + i)) (lit t i)) (n.val - s.val).toNat
    else none

/-- `if (a < b) body`, comparing in the common type. -/
def whenLt (a b : Num) (body : Trace) : Trace :=
  a.bind fun x => b.bind fun y =>
    if (x.ty.join y.ty).wrap x.val < (x.ty.join y.ty).wrap y.val then body
    else skip

/-- INDEX_2D, src/ska-sdp-func/clean/sdp_ms_clean_cornwell.cpp:25-25. -/
def INDEX_2D (_N2 N1 I2 I1 : Num) : Num := N1 * I2 + I1

/-- INDEX_3D, src/ska-sdp-func/visibility/sdp_dft.cpp:12-12. -/
def INDEX_3D (_N3 N2 N1 I3 I2 I1 : Num) : Num := N1 * (N2 * I3 + I2) + I1

/-- INDEX_4D, src/ska-sdp-func/visibility/sdp_dft.cpp:13-14. -/
def INDEX_4D (_N4 N3 N2 N1 I4 I3 I2 I1 : Num) : Num :=
  N1 * (N2 * (N3 * I4 + I3) + I2) + I1

/-- What a kernel launch does: refused (an error is set and no thread runs), or
the threads run. -/
inductive Launched where
  | refused
  | ran (t : Trace)

/-- `(n + num_threads - 1) / num_threads` in `uint64_t`, then stored into a
`dim3`, whose members are `unsigned int`
(src/ska-sdp-func/utility/sdp_device_wrapper.cpp:48-49). -/
def gridDim (n T : Nat) : Nat := (n + T - 1) / T % 4294967296

/-- A thread's index `blockDim * blockIdx + threadIdx`: all three are
`unsigned int`. -/
def threadIndex (g : Nat) : Num := lit .u32 (Ty.u32.wrap g)

/-- A launch over one dimension (src/ska-sdp-func/utility/sdp_device_wrapper.cpp:16-80),
`T` threads per block.  Threads run concurrently: the order of the trace means
nothing. -/
def launch1 (n T : Nat) (body : Num → Trace) : Launched :=
  if gridDim n T = 0 ∨ 2147483647 < gridDim n T then .refused
  else .ran (iters (fun g => body (threadIndex g)) (gridDim n T * T))

/-- A launch over three dimensions. -/
def launch3 (nx ny nz Tx Ty Tz : Nat) (body : Num → Num → Num → Trace) :
    Launched :=
  if gridDim nx Tx = 0 ∨ 2147483647 < gridDim nx Tx ∨
      gridDim ny Ty = 0 ∨ 65535 < gridDim ny Ty ∨
      gridDim nz Tz = 0 ∨ 65535 < gridDim nz Tz then .refused
  else .ran
    (iters (fun gz => iters (fun gy => iters (fun gx =>
      body (threadIndex gx) (threadIndex gy) (threadIndex gz))
      (gridDim nx Tx * Tx)) (gridDim ny Ty * Ty)) (gridDim nz Tz * Tz))

end Sdp.Width
