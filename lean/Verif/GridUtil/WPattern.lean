import Verif.GridUtil.Residual

/-!
# Model of `sdp_gridder_make_w_pattern` (grid_data/sdp_gridder_utils.cpp)

Whole call on a descriptor, in the manner of `GridUtil/Scale`.  Exact arithmetic; an element is `none` if it is
not a number.  All sizes are below 2^31.
-/

namespace Sdp.GridUtil
open Sdp.Race
noncomputable section

/-- `lm_to_n`, sdp_gridder_utils.h:397-416; the root of a negative number is not a number. -/
def nCoord (hu hv l m : ℝ) : Option ℝ :=
  if hu = 0 ∧ hv = 0 then
    if 1 - l * l - m * m < 0 then none else some (√(1 - l * l - m * m) - 1)
  else
    let a := hu * l + hv * m - 1
    let b := hu * hu + hv * hv + 1
    if a * a - b * (l * l + m * m) < 0 then none
    else some ((√(a * a - b * (l * l + m * m)) + a) / b)

/-- Coordinate of row or column `i`, sdp_gridder_utils.cpp:1373-1374. -/
def patternCoord (size : Int) (theta : ℝ) (i : Nat) : ℝ := ((i : Int) - size.tdiv 2 : Int) * theta / size

/-- Body of the loops, sdp_gridder_utils.cpp:1373-1377; `p` is (row, column). -/
def patternBody (size : Int) (theta hu hv wStep : ℝ) (v : View) (p : Nat × Nat) : Prog (Option ℂ) :=
  let n := nCoord hu hv (patternCoord size theta p.1) (patternCoord size theta p.2)
  .write (addr v p) (n.map fun n =>
    let phase := 2 * Real.pi * wStep * n
    ⟨Real.cos phase, Real.sin phase⟩) .done

/-- `sdp_gridder_make_w_pattern`, sdp_gridder_utils.cpp:1353-1380: one thread per element, which includes the
schedules of the OpenMP loop over rows. -/
def patternCall (size : Int) (theta hu hv wStep : ℝ) (m : Mem) (st : Status) : Run (Option ℂ) :=
  if st ≠ .success then Run.none st
  else
    let v := checkAndView m .complexDouble 2 .cpu st
    if v.2 ≠ .success then Run.none v.2
    else ⟨.success, nest2 size.toNat size.toNat, patternBody size theta hu hv wStep v.1⟩

end
end Sdp.GridUtil
