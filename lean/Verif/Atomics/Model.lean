import Mathlib.Order.Lattice

/-!
# Model of utility/sdp_cuda_atomics.h: compare-and-swap loops

One memory cell, updated by any number of threads.  The atomic steps of a thread are the load of the
cell and each `atomicCAS`; steps of different threads interleave arbitrarily.  Exact values (equality
of bit patterns is equality of values).
-/

namespace Sdp.Atomics

/-- Position of a thread in its loop: before the first load; holding a value of the cell; returned. -/
inductive Pc (B : Type) where
  | start
  | loaded (ret : B)
  | done
  deriving DecidableEq

/-- The cell and the positions of all threads. -/
structure St (B : Type) where
  cell : B
  pc : Nat → Pc B

section
variable {B : Type} [DecidableEq B]

/-- One step of thread `i`, sdp_cuda_atomics.h:25-36 (`sdp_atomic_add`), 43-51 (`sdp_atomic_min`), 58-66
(`sdp_atomic_max`).  `op i v` is the value thread `i` tries to put in place of `v`; `none` if the loop
condition is false for `v`.  A failing `atomicCAS` returns the value found. -/
def step (op : Nat → B → Option B) (s : St B) (i : Nat) : St B :=
  match s.pc i with
  | .done => s
  | .start => ⟨s.cell, Function.update s.pc i (.loaded s.cell)⟩
  | .loaded ret =>
    match op i ret with
    | none => ⟨s.cell, Function.update s.pc i .done⟩
    | some b =>
      if s.cell = ret then ⟨b, Function.update s.pc i .done⟩
      else ⟨s.cell, Function.update s.pc i (.loaded s.cell)⟩

/-- Before the call. -/
def init (v : B) : St B := ⟨v, fun _ => .start⟩

/-- State after a schedule, a list of the threads that take the successive steps. -/
def run (op : Nat → B → Option B) (s : St B) (sched : List Nat) : St B := sched.foldl (step op) s

/-- State after `k` steps of an infinite schedule. -/
def runN (op : Nat → B → Option B) (s : St B) (sched : Nat → Nat) : Nat → St B
  | 0 => s
  | k + 1 => step op (runN op s sched k) (sched k)

/-- Number of steps of a schedule taken by threads that have not returned. -/
def effective (op : Nat → B → Option B) : St B → List Nat → Nat
  | _, [] => 0
  | s, i :: l => (if s.pc i = .done then 0 else 1) + effective op (step op s i) l

/-- `sdp_atomic_add`, sdp_cuda_atomics.h:18-38: always tries to swap in the sum. -/
def addOp [Add B] (val : Nat → B) (i : Nat) (v : B) : Option B := some (val i + v)

/-- `sdp_atomic_min`, sdp_cuda_atomics.h:41-53. -/
def minOp [LinearOrder B] (val : Nat → B) (i : Nat) (v : B) : Option B := if val i < v then some (val i) else none

/-- `sdp_atomic_max`, sdp_cuda_atomics.h:56-68. -/
def maxOp [LinearOrder B] (val : Nat → B) (i : Nat) (v : B) : Option B := if v < val i then some (val i) else none

end
end Sdp.Atomics
