import Verif.Common.Race
import Verif.GridUtil.Bounds
import Mathlib.Algebra.BigOperators.Intervals

/-!
# Model of the GPU reduction of grid_data/sdp_gridder_utils.{cpp,cu} (`sdp_gridder_sum_diff`)

Eight blocks of 512 threads, each with its own shared array of 512 values.  Between two
`__syncthreads` the threads of a block interleave at every access.  Sums do not overflow `int`.
-/

namespace Sdp.GridUtil
open Sdp.Race

/-- `a(i) - b(i)`. -/
def diffAt (a b : Arr Int) (i : Int) : Option Int :=
  (a.read i).bind fun x => (b.read i).bind fun y => some (x - y)

/-- The `while` loop of thread `t`, sdp_gridder_utils.cu:267-275, from row `i`; at most `fuel`
iterations. -/
def gatherGo (a b : Arr Int) (endRow : Int) (t : Nat) : Nat → Int → Prog Int
  | 0, _ => .fault
  | f + 1, i =>
    if i < endRow then
      .need (diffAt a b i) fun x =>
      .read t fun v => .write t (v + x) (
        if i + 512 < endRow then
          .need (diffAt a b (i + 512)) fun y =>
          .read t fun v => .write t (v + y) (gatherGo a b endRow t f (i + 8192))
        else gatherGo a b endRow t f (i + 8192))
    else .done

/-- First phase of thread `t` of block `k`, sdp_gridder_utils.cu:263-275 (`gridDim.x` is 8). -/
def gather (a b : Arr Int) (startRow endRow : Int) (k t : Nat) : Prog Int :=
  .write t 0 (gatherGo a b endRow t ((endRow - startRow).toNat + 1) (1024 * k + t + startRow))

/-- A halving step between two barriers, sdp_gridder_utils.cu:277-291. -/
def halve (h t : Nat) : Prog Int :=
  if t < h then .read ((t + h : Nat) : Int) fun v => .read t fun u => .write t (u + v) .done else .done

/-- `warp_reduce`, sdp_gridder_utils.cu:241-250: no synchronisation between the additions. -/
def warpGo (t : Nat) : List Nat → Prog Int
  | [] => .done
  | h :: hs => .read ((t + h : Nat) : Int) fun v => .read t fun u => .write t (u + v) (warpGo t hs)

/-- Last phase, sdp_gridder_utils.cu:292. -/
def warp (t : Nat) : Prog Int := if t < 32 then warpGo t [32, 16, 8, 4, 2, 1] else .done

/-- The threads of a block have run `prog` to the end, in some interleaving. -/
def Ran (prog : Nat → Prog Int) (m r : Arr Int) : Prop :=
  ∃ sched : List Nat, (∀ t ∈ sched, t ∈ List.range 512) ∧
    ∃ s, run (⟨m, prog⟩ : St Int Nat) sched = some s ∧ (∀ t ∈ List.range 512, s.prog t = .done) ∧ s.mem = r

/-- The same, with the 32 threads of the warp in lockstep: every access is made by all of them before any
of them makes its next one. -/
def RanLockstep (m r : Arr Int) : Prop :=
  ∃ rounds : List (List Nat), rounds.length = 18 ∧ (∀ x ∈ rounds, x.Perm (List.range 32)) ∧
    ∃ s, run (⟨m, warp⟩ : St Int Nat) rounds.flatten = some s ∧ s.mem = r

/-- Block `k` adds `v` to the result, sdp_gridder_utils.cu:262-293; `m` is what its shared array held. -/
def BlockRun (last : Arr Int → Arr Int → Prop) (a b : Arr Int) (startRow endRow : Int) (k : Nat) (m : Arr Int)
    (v : Int) : Prop :=
  ∃ m0 m1 m2 m3 m4, Ran (gather a b startRow endRow k) m m0 ∧ Ran (halve 256) m0 m1 ∧
    Ran (halve 128) m1 m2 ∧ Ran (halve 64) m2 m3 ∧ last m3 m4 ∧ v = m4.get 0

/-- The kernel launched by `sdp_gridder_sum_diff`, sdp_gridder_utils.cpp:1929-1933, 1950-1982, leaves `v` in
the result, which was zero: the eight blocks add their parts atomically in some order; their shared arrays
start with any contents. -/
def SumDiffGpu (last : Arr Int → Arr Int → Prop) (a b : Arr Int) (startRow endRow : Int) (v : Int) : Prop :=
  let rr : Int × Int := if startRow < 0 ∨ endRow < 0 then (0, a.size) else (startRow, endRow)
  ∃ (m : Nat → Arr Int) (order : List Nat) (val : Nat → Int), order.Perm (List.range 8) ∧
    (∀ k < 8, (m k).size = 512 ∧ BlockRun last a b rr.1 rr.2 k (m k) (val k)) ∧
    v = order.foldl (fun acc k => acc + val k) 0

/-- The host side, sdp_gridder_utils.cpp:1948-1990: after any error the host copy of the result has no data
(sdp_mem.cpp), and is read (`none`).  (`types`: both arrays hold `int`; `cuda`: a kernel can be launched;
`v`: what the kernel leaves.) -/
def sumDiffHost (types cuda : Bool) (v : Int) : Option Int := if types ∧ cuda then some v else none

end Sdp.GridUtil
