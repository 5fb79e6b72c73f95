import Mathlib.Algebra.Order.Floor.Defs
import Mathlib.Algebra.Field.Defs
import Verif.Common.Loops

/-!
# Model of visibility/sdp_weighting.cpp (CPU path)

Exact arithmetic over an ordered field `F`; no overflow of `int64_t` casts.
Arrays are flat (the wrapper does not check contiguity); accesses are bounds-checked.
-/

namespace Sdp.Weighting

/-- Extents seen by the kernels, sdp_weighting.cpp:20-25: times, baselines, channels
and polarisations of the output weights, and the grid side. -/
structure Dims where
  times : Nat
  baselines : Nat
  channels : Nat
  pols : Nat
  grid : Nat
  deriving DecidableEq

section
variable {F : Type} [Field F] [LinearOrder F] [FloorRing F]

/-- `C_0`, sdp_weighting.cpp:10. -/
def c0 : F := 299792458

/-- `half_grid_size`, sdp_weighting.cpp:33. -/
def half (D : Dims) : Nat := D.grid / 2

/-- `(int64_t)(floor(uv * freq/C_0 / max_abs_uv * half_grid_size) + half_grid_size)`,
sdp_weighting.cpp:44-52. -/
def cellIdx (D : Dims) (maxUv uv freq : F) : Int :=
  ⌊uv * (freq / c0) / maxUv * (half D : F)⌋ + (half D : Int)

/-- Grid cell of a visibility, with the reads of `freq_hz` and `uvw`,
sdp_weighting.cpp:38-52 (same at 97-114, 169-186, 233-250). -/
def cell (D : Dims) (maxUv : F) (uvw freq : Arr F) (t b c : Nat) : Option (Int × Int) := do
  let f ← freq.read c
  let u ← uvw.read (index3 D.baselines 3 t b 0)
  let v ← uvw.read (index3 D.baselines 3 t b 0 + 1)
  pure (cellIdx D maxUv u f, cellIdx D maxUv v f)

/-- Index into the weight arrays, sdp_weighting.cpp:62-65. -/
def visIdx (D : Dims) (t b c p : Nat) : Int :=
  index4 D.baselines D.channels D.pols t b c 0 + p

/-- Index into the weights grid, sdp_weighting.cpp:54-61, 68. -/
def gridIdx (D : Dims) (cell : Int × Int) (p : Nat) : Int :=
  index3 D.grid D.pols cell.1 cell.2 0 + p

/-- The in-grid test of the code, sdp_weighting.cpp:53: upper bounds only. -/
def tested (D : Dims) (cell : Int × Int) : Bool :=
  decide (cell.1 < D.grid ∧ cell.2 < D.grid)

/-- Innermost body of `weights_grid_write`, sdp_weighting.cpp:38-70. -/
def writeBody (D : Dims) (maxUv : F) (uvw freq win : Arr F) (g : Arr F)
    (x : Nat × Nat × Nat × Nat) : Option (Arr F) :=
  (cell D maxUv uvw freq x.1 x.2.1 x.2.2.1).bind fun k =>
    if tested D k then
      (win.read (visIdx D x.1 x.2.1 x.2.2.1 x.2.2.2)).bind fun w =>
        g.addAt (gridIdx D k x.2.2.2) w
    else some g

/-- `weights_grid_write`, sdp_weighting.cpp:18-75. -/
def gridWrite (D : Dims) (maxUv : F) (uvw freq win grid : Arr F) : Option (Arr F) :=
  loop (writeBody D maxUv uvw freq win) grid (nest4 D.times D.baselines D.channels D.pols)

/-- Innermost body of `sum_weights_calc`, sdp_weighting.cpp:97-126. -/
def sumBody (D : Dims) (maxUv : F) (uvw freq grid : Arr F) (s : F × F)
    (x : Nat × Nat × Nat × Nat) : Option (F × F) :=
  (cell D maxUv uvw freq x.1 x.2.1 x.2.2.1).bind fun k =>
    if tested D k then
      (grid.read (gridIdx D k x.2.2.2)).bind fun w => some (s.1 + w, s.2 + w * w)
    else some s

/-- `sum_weights_calc`, sdp_weighting.cpp:78-131. -/
def sumWeights (D : Dims) (maxUv : F) (uvw freq grid : Arr F) : Option (F × F) :=
  loop (sumBody D maxUv uvw freq grid) (0, 0) (nest4 D.times D.baselines D.channels D.pols)

/-- `robustness_calc`, sdp_weighting.cpp:134-144; `tenPow` is `pow(10.0, robust_param)`. -/
def robustness (sum2 sum tenPow : F) : F := (5 * 1 / tenPow) ^ 2 / (sum2 / sum)

/-- Innermost body of `uniform_weights_grid_read`, sdp_weighting.cpp:168-200. -/
def uniformBody (D : Dims) (maxUv : F) (uvw freq grid : Arr F) (o : Arr F)
    (x : Nat × Nat × Nat × Nat) : Option (Arr F) :=
  (cell D maxUv uvw freq x.1 x.2.1 x.2.2.1).bind fun k =>
    if tested D k then
      (grid.read (gridIdx D k x.2.2.2)).bind fun w =>
        o.write (visIdx D x.1 x.2.1 x.2.2.1 x.2.2.2) (1 / w)
    else some o

/-- `uniform_weights_grid_read`, sdp_weighting.cpp:147-204. -/
def uniformRead (D : Dims) (maxUv : F) (uvw freq grid out : Arr F) : Option (Arr F) :=
  loop (uniformBody D maxUv uvw freq grid) out (nest4 D.times D.baselines D.channels D.pols)

/-- Innermost body of `briggs_weights_grid_read`, sdp_weighting.cpp:232-268. -/
def briggsBody (D : Dims) (maxUv rob : F) (uvw freq grid win : Arr F) (o : Arr F)
    (x : Nat × Nat × Nat × Nat) : Option (Arr F) :=
  (cell D maxUv uvw freq x.1 x.2.1 x.2.2.1).bind fun k =>
    if tested D k then
      (win.read (visIdx D x.1 x.2.1 x.2.2.1 x.2.2.2)).bind fun wi =>
        (grid.read (gridIdx D k x.2.2.2)).bind fun w =>
          o.write (visIdx D x.1 x.2.1 x.2.2.1 x.2.2.2) (wi / (1 + rob * w))
    else some o

/-- `briggs_weights_grid_read`, sdp_weighting.cpp:207-272. -/
def briggsRead (D : Dims) (maxUv rob : F) (uvw freq grid win out : Arr F) : Option (Arr F) :=
  loop (briggsBody D maxUv rob uvw freq grid win) out (nest4 D.times D.baselines D.channels D.pols)

/-- The CPU branch of `sdp_weighting_uniform`, sdp_weighting.cpp:339-368: returns grid
and output weights. -/
def uniform (D : Dims) (maxUv : F) (uvw freq win grid out : Arr F) :
    Option (Arr F × Arr F) :=
  (gridWrite D maxUv uvw freq win grid).bind fun g =>
    (uniformRead D maxUv uvw freq g out).bind fun o => some (g, o)

/-- The CPU branch of `sdp_weighting_briggs`, sdp_weighting.cpp:570-623. -/
def briggs (D : Dims) (maxUv tenPow : F) (uvw freq win grid out : Arr F) :
    Option (Arr F × Arr F) :=
  (gridWrite D maxUv uvw freq win grid).bind fun g =>
    (sumWeights D maxUv uvw freq g).bind fun s =>
      (briggsRead D maxUv (robustness s.2 s.1 tenPow) uvw freq g win out).bind fun o =>
        some (g, o)

end
end Sdp.Weighting
