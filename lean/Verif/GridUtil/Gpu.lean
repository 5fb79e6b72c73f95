import Verif.Common.Race
import Verif.Common.Launch
import Verif.GridUtil.Subgrid
import Verif.GridUtil.Bounds
import Verif.Direct.Model

/-!
# Model of the GPU kernels of grid_data/sdp_gridder_utils.cu

Every thread is a program of single reads and writes of the array the kernel changes; the schedule is
arbitrary.  The atomic helpers are single steps (C80).  Exact arithmetic; `int` does not overflow.
-/

namespace Sdp.GridUtil
open Sdp.Race

section
variable {R : Type} [CommSemiring R]

/-- Thread `(i, j)` of `sdp_gridder_subgrid_add`, sdp_gridder_utils.cu:171-203. -/
def addProg (gu gv su sv : Nat) (offU offV : Int) (sub : Arr R) (factor : R) (p : Nat × Nat) : Prog R :=
  if p.1 ≥ su ∨ p.2 ≥ sv then .done
  else
    .need (wrap gu (place gu su (-offU) p.1)) fun i1 =>
    .need (wrap gv (place gv sv (-offV) p.2)) fun j1 =>
    .need (sub.read (index2 sv p.1 p.2)) fun x =>
    .read (index2 gv i1 j1) fun y => .write (index2 gv i1 j1) (y + x * factor) .done

/-- Thread `(i, j)` of `sdp_gridder_subgrid_cut_out`, sdp_gridder_utils.cu:207-238. -/
def cutProg (gu gv su sv : Nat) (offU offV : Int) (grid : Arr R) (p : Nat × Nat) : Prog R :=
  if p.1 ≥ su ∨ p.2 ≥ sv then .done
  else
    .need (wrap gu (place gu su offU p.1)) fun i1 =>
    .need (wrap gv (place gv sv offV p.2)) fun j1 =>
    .need (grid.read (index2 gv i1 j1)) fun x => .write (index2 sv p.1 p.2) x .done

/-- The threads of both launches, sdp_gridder_utils.cpp:1779-1783 and 1874-1878 (blocks of 16 x 16). -/
def subThreads (su sv : Nat) : List (Nat × Nat) := nest2 (blocks su 16 * 16) (blocks sv 16 * 16)
end

/-- Loop over planes of a thread, sdp_gridder_utils.cu:163-166: `c` iterations from plane `k`. -/
def shiftGo {M : Type} (n nx j i : Nat) : Nat → Nat → Prog M
  | 0, _ => .done
  | c + 1, k => .read (index3 n nx (k + 1 : Nat) j i) fun v =>
      .write (index3 n nx k j i) v (shiftGo n nx j i c (k + 1))

/-- Thread `(i, j)` of `sdp_gridder_shift_subgrids`, sdp_gridder_utils.cu:154-167. -/
def shiftProg {M : Type} (planes n nx : Nat) (p : Nat × Nat) : Prog M :=
  if p.1 ≥ n ∨ p.2 ≥ n then .done else shiftGo n nx p.2 p.1 (planes - 1) 0

/-- The threads of its launch, sdp_gridder_utils.cpp:1693-1697 (blocks of 32 x 8). -/
def shiftThreads (n nx : Nat) : List (Nat × Nat) := nest2 (blocks n 32 * 32) (blocks nx 8 * 8)

section
variable {K : Type} [Field K] [LinearOrder K] [IsStrictOrderedRing K]

/-- Change one of the three coordinates. -/
def upd (j : Nat) (f : MinMax K → MinMax K) (b : MinMax K × MinMax K × MinMax K) :
    MinMax K × MinMax K × MinMax K :=
  if j = 0 then (f b.1, b.2.1, b.2.2) else if j = 1 then (b.1, f b.2.1, b.2.2) else (b.1, b.2.1, f b.2.2)

/-- One atomic operation of `sdp_gridder_uvw_bounds_all`, sdp_gridder_utils.cu:298-332; `x` is (row,
coordinate, 0 for the minimum and 1 for the maximum). -/
def boundOp (c0 f0 df : K) (uvw : Arr K) (numRows : Nat) (startCh endCh : Arr Int)
    (b : MinMax K × MinMax K × MinMax K) (x : Nat × Nat × Nat) :
    Option (MinMax K × MinMax K × MinMax K) :=
  if x.1 ≥ numRows then some b
  else
    (startCh.read x.1).bind fun s =>
    (endCh.read x.1).bind fun e =>
    if e ≤ s then some b
    else
      (uvw.read ((3 * x.1 + x.2.1 : Nat) : Int)).bind fun u =>
        let u0 := f0 * u / c0
        let du := df * u / c0
        let first := u0 + s * du
        let last := u0 + ((e - 1 : Int) : K) * du
        some (upd x.2.1 (fun m =>
          if x.2.2 = 0 then ⟨min (((if 0 ≤ u then first else last : K) : WithTop K)) m.mn, m.mx⟩
          else ⟨m.mn, max (((if 0 ≤ u then last else first : K) : WithBot K)) m.mx⟩) b)

/-- The atomic operations of the launch, sdp_gridder_utils.cpp:2054-2056 (blocks of 256). -/
def boundOps (numRows : Nat) : List (Nat × Nat × Nat) := nest3 (blocks numRows 256 * 256) 3 2

/-- `sdp_gridder_uvw_bounds_all` on the GPU, sdp_gridder_utils.cpp:2036-2097, for supported types and a
launch that succeeds; `order` is the order of the atomic operations. -/
def uvwBoundsGpu (c0 f0 df : K) (uvw : Arr K) (numRows : Nat) (startCh endCh : Arr Int)
    (order : List (Nat × Nat × Nat)) : Option (MinMax K × MinMax K × MinMax K) :=
  loop (boundOp c0 f0 df uvw numRows startCh endCh) (MinMax.init, MinMax.init, MinMax.init) order
end

section
noncomputable section

/-- Thread `(il, im)` of `sdp_gridder_idft`, sdp_gridder_utils.cu:60-128.  The loops over visibilities are
those of the CPU function. -/
def idftProg (o : Direct.Obs) (n : Nat) (vis : Arr ℂ) (lmn : Arr ℝ) (taper : Option (Arr ℝ))
    (p : Nat × Nat) : Prog ℂ :=
  if p.1 ≥ n ∨ p.2 ≥ n then .done
  else
    .need (Direct.visSum o vis lmn (n * p.1 + p.2)) fun x =>
    .need (Direct.taperVal taper p) fun t =>
    .read (index2 n p.1 p.2) fun y => .write (index2 n p.1 p.2) (y + x * (t : ℂ)) .done

/-- The threads of its launch, sdp_gridder_utils.cpp:1159-1163 (blocks of 16 x 16). -/
def idftThreads (n : Nat) : List (Nat × Nat) := nest2 (blocks n 16 * 16) (blocks n 16 * 16)

end
end

end Sdp.GridUtil
