import Verif.Mem.Model

/-!
# Model of the remaining CPU operations of utility/sdp_mem.cpp

Scaling and precision conversion.  Elements are abstract values at flat positions; `none`
is undefined behaviour (an access outside the storage or through a NULL pointer).
-/

namespace Sdp

/-- Typed element storage of a contiguous array: `n` elements. -/
structure Store (α : Type) where
  n : Nat
  get : Nat → α

/-- `scale_real`, sdp_mem.cpp:91-101, and the CPU branch of `sdp_mem_scale_real`,
sdp_mem.cpp:755-783; the GPU branch (sdp_mem.cpp:784-818) ends in an error in a build without CUDA:
`SDP_ERR_MEM_LOCATION` from `sdp_mem_gpu_buffer` unless it is a GPU or void array, then
`SDP_ERR_RUNTIME` from the launcher.  Here any non-CPU array gives an error and no change.
There is no test of the read-only flag. -/
def scaleReal {α : Type} (mul : α → α) (m : Mem) (s : Store α) (status : Status) :
    Option (Store α × Status) :=
  if status ≠ .success then some (s, status)
  else if !m.queryCContiguous then some (s, .invalidArgument)
  else match m.location with
    | .cpu =>
      if m.type = .complexDouble ∨ m.type = .complexFloat ∨ m.type = .double ∨
          m.type = .float then
        if m.queryNumElements ≤ s.n then
          some (⟨s.n, fun i => if (i : Int) < m.queryNumElements then mul (s.get i) else s.get i⟩,
            status)
        else none
      else some (s, .dataType)
    | .gpu => if m.type = .complexDouble ∨ m.type = .complexFloat ∨ m.type = .double ∨
          m.type = .float then some (s, .runtime) else some (s, .dataType)
    | .other => if m.type = .complexDouble ∨ m.type = .complexFloat ∨ m.type = .double ∨
          m.type = .float then some (s, .memLocation) else some (s, .dataType)

/-- The four supported conversions, sdp_mem.cpp:393-435. -/
def convertible (a b : MemType) : Bool :=
  decide ((a = .complexDouble ∧ b = .complexFloat) ∨ (a = .complexFloat ∧ b = .complexDouble) ∨
    (a = .double ∧ b = .float) ∨ (a = .float ∧ b = .double))

/-- `sdp_mem_convert_precision`, sdp_mem.cpp:365-442, for a CPU source and a type different
from its own (equal types are `sdp_mem_create_copy`, sdp_mem.cpp:379-382).  The result is the
returned descriptor (`none` = NULL), its elements and the status; an outer `none` is a store
through the NULL data pointer of an array whose allocation failed.  `cast` is the element
conversion of the pair of types. -/
def convertPrecision {α : Type} (cast : α → α) (zero : α) (h : Heap) (allocOk : Bool) (src : Mem)
    (s : Store α) (outType : MemType) (status : Status) :
    Option (Option (Mem × Store α) × Status) :=
  if status ≠ .success then some (none, status)
  else if !src.queryCContiguous then some (none, .invalidArgument)
  else
    let r := memCreate h allocOk outType .cpu src.shape status
    let n := src.queryNumElements
    if convertible src.type outType then
      if n ≤ 0 then some (some (r.2.1, ⟨0, fun _ => zero⟩), r.2.2)
      else match r.2.1.data with
        | none => none
        | some _ => if n ≤ s.n then
            some (some (r.2.1, ⟨n.toNat, fun i => cast (s.get i)⟩), r.2.2)
          else none
    else some (some (r.2.1, ⟨n.toNat, fun _ => zero⟩), .dataType)

end Sdp
