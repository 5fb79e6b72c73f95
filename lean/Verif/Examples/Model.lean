import Verif.Mem.Model
import Verif.Common.Loops

/-!
# Example functions: model

`/repo/src/ska-sdp-func/examples/sdp_vector_add.cpp` and `sdp_function_example_a.cpp`, build
without CUDA.  Arithmetic is in any type with the operations used.
-/

namespace Sdp.Examples

variable {R : Type}

/-- A vector argument: its descriptor and the index of its first element in the memory that all
arguments live in (so arguments may overlap). -/
structure Vec where
  desc : Mem
  base : Nat

/-- The loop of `sdp_vector_add<T>` (sdp_vector_add.cpp L8-20). -/
def addLoop [Add R] (n : Nat) (a b o : Nat) (mem : Arr R) : Option (Arr R) :=
  loop (fun m (i : Nat) => (m.read ((a + i : Nat) : Int)).bind fun x =>
    (m.read ((b + i : Nat) : Int)).bind fun y =>
    m.write ((o + i : Nat) : Int) (x + y)) mem (List.range n)

/-- `sdp_launch_cuda_kernel` without CUDA (utility/sdp_device_wrapper.cpp L16-86): status after
the call; `named` = the kernel name is not NULL. -/
def launch (named : Bool) (status : Status) : Status :=
  if status ≠ .success then status
  else if ¬ named then .invalidArgument
  else .runtime

/-- `sdp_vector_add` (sdp_vector_add.cpp L23-116).  One memory `mem` of elements of the output
type.  `sdp_mem_gpu_buffer` does not fail here: all locations are GPU in that branch. -/
def vectorAdd [Add R] (mem : Arr R) (a b o : Vec) (status : Status) : Option (Arr R × Status) :=
  if status ≠ .success then some (mem, status)
  else if o.desc.queryReadOnly then some (mem, .runtime)
  else if a.desc.type ≠ o.desc.type ∨ b.desc.type ≠ o.desc.type then some (mem, .dataType)
  else if a.desc.location ≠ o.desc.location ∨ b.desc.location ≠ o.desc.location then
    some (mem, .memLocation)
  else if a.desc.queryNumElements ≠ o.desc.queryNumElements ∨
      b.desc.queryNumElements ≠ o.desc.queryNumElements then some (mem, .runtime)
  else match o.desc.location with
  | .cpu =>
    if o.desc.type = .double ∨ o.desc.type = .float then
      (addLoop o.desc.queryNumElements.toNat a.base b.base o.base mem).map fun m => (m, status)
    else some (mem, .dataType)
  | .gpu =>
    if o.desc.type = .double ∨ o.desc.type = .float then some (mem, launch true status)
    else some (mem, launch false .dataType)
  | .other => some (mem, status)

/-- `struct sdp_FunctionExampleA` (sdp_function_example_a.cpp L9-15). -/
structure Plan (R : Type) where
  a : Int
  b : Int
  c : R
  workarea : Arr R

/-- `sdp_function_example_a_create_plan` (L18-43).  `calloc` succeeds for non-negative counts; a
negative count is a huge `size_t`, for which it fails (work area without elements). -/
def createPlan [Zero R] (a b : Int) (c : R) (status : Status) : Option (Plan R) × Status :=
  if status ≠ .success then (none, status)
  else if a = 10 then (none, .invalidArgument)
  else (some ⟨a, b, c, ⟨(a * b).toNat, fun _ => 0⟩⟩, status)

/-- One iteration of the loop (L81-90). -/
def execStep [Zero R] [Add R] [Mul R] [NatCast R] (c : R) (s : Arr R × Arr R) (f : Nat) :
    Option (Arr R × Arr R) :=
  (s.1.write (f : Int) (c * f)).bind fun w =>
  (loop (fun acc (i : Nat) => (w.read (i : Int)).map fun x => acc + x) (0 : R)
    (List.range f)).bind fun t =>
  (s.2.write (f : Int) t).map fun o => (w, o)

/-- `sdp_function_example_a_exec` (L46-92); `none` plan = NULL pointer. -/
def exec [Zero R] [Add R] [Mul R] [NatCast R] (plan : Option (Plan R)) (d : Mem) (out : Arr R)
    (status : Status) : Option (Option (Plan R) × Arr R × Status) :=
  match plan with
  | none => some (none, out, status)
  | some p =>
    if status ≠ .success then some (some p, out, status)
    else if d.type ≠ .float then some (some p, out, .dataType)
    else if d.location ≠ .cpu then some (some p, out, .memLocation)
    else if d.queryReadOnly then some (some p, out, .runtime)
    else if d.queryNumElements < p.a * p.b then some (some p, out, .runtime)
    else (loop (execStep p.c) (p.workarea, out) (List.range d.queryNumElements.toNat)).map
      fun s => (some { p with workarea := s.1 }, s.2, status)

end Sdp.Examples
