import Mathlib.Algebra.Order.Field.Basic
import Mathlib.Order.WithBot
import Verif.Common.Loops

/-!
# uvw bounding box and sum of differences: model

`/repo/src/ska-sdp-func/grid_data/sdp_gridder_utils.cpp` L650-722 and the CPU parts of
the public wrappers L1919-1938, L1992-2034.  Exact arithmetic; `⊤` / `⊥` stand for
`INFINITY` / `-INFINITY`; GPU kernels not modelled.
-/

namespace Sdp.GridUtil

variable {K : Type} [Field K] [LinearOrder K] [IsStrictOrderedRing K]

/-- `uvw_min[j]`, `uvw_max[j]` for one coordinate. -/
structure MinMax (K : Type) where
  mn : WithTop K
  mx : WithBot K

/-- Initial values (L2006-2007). -/
def MinMax.init : MinMax K := ⟨⊤, ⊥⟩

/-- Body of the loop over coordinates (L705-717): coordinate value `x` in metres,
channel range `[s, e)`; `c0` is `C_0`. -/
def boundStep (c0 f0 df : K) (x : K) (s e : Int) (b : MinMax K) : MinMax K :=
  let u0 := f0 * x / c0
  let du := df * x / c0
  if 0 ≤ x then
    ⟨min (((u0 + s * du : K) : WithTop K)) b.mn,
      max (((u0 + ((e - 1 : Int) : K) * du : K) : WithBot K)) b.mx⟩
  else
    ⟨min (((u0 + ((e - 1 : Int) : K) * du : K) : WithTop K)) b.mn,
      max (((u0 + s * du : K) : WithBot K)) b.mx⟩

/-- Body of the loop over rows (L695-718). -/
def boundRow (c0 f0 df : K) (uvw : Arr K) (startCh endCh : Arr Int)
    (b : MinMax K × MinMax K × MinMax K) (i : Nat) : Option (MinMax K × MinMax K × MinMax K) :=
  (startCh.read i).bind fun s =>
  (endCh.read i).bind fun e =>
  if e ≤ s then some b
  else
    (uvw.read (3 * i)).bind fun u =>
    (uvw.read (3 * i + 1)).bind fun v =>
    (uvw.read (3 * i + 2)).bind fun w =>
    some (boundStep c0 f0 df u s e b.1, boundStep c0 f0 df v s e b.2.1,
      boundStep c0 f0 df w s e b.2.2)

/-- `sdp_gridder_uvw_bounds_all` (L682-720, L1992-2034), CPU, `uvw` of shape
`[numRows, 3]`, status clear.  Result: bounds for u, v, w. -/
def uvwBounds (c0 f0 df : K) (uvw : Arr K) (numRows : Nat) (startCh endCh : Arr Int) :
    Option (MinMax K × MinMax K × MinMax K) :=
  loop (boundRow c0 f0 df uvw startCh endCh)
    (MinMax.init, MinMax.init, MinMax.init) (List.range numRows)

/-- `sdp_gridder_sum_diff` (L650-678, L1919-1938), CPU, `int` arrays of equal length,
status clear.  A negative `startRow` or `endRow` selects all rows. -/
def sumDiff (a b : Arr Int) (startRow endRow : Int) : Option Int :=
  let rr : Int × Int := if startRow < 0 ∨ endRow < 0 then (0, a.size) else (startRow, endRow)
  loop (fun acc (k : Nat) =>
    (a.read (rr.1 + k)).bind fun x =>
    (b.read (rr.1 + k)).bind fun y => some (acc + (x - y))) 0
    (List.range (rr.2 - rr.1).toNat)

end Sdp.GridUtil
