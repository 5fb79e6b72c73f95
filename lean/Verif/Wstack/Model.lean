import Verif.Clamp.Model
import Verif.GridUtil.Bounds
import Verif.Wstack.Tasks

/-!
# W-stacking with w-towers, visibility selection: model

`/repo/src/ska-sdp-func/grid_data/sdp_grid_wstack_wtower.cpp`: box geometry, index
ranges, selection per w-plane, task creation and the work on one task, as used both by
`sdp_grid_wstack_wtower_degrid_all` (L218-472) and `..._grid_all` (L475-720).  The image
arithmetic (FFTs, correction, the kernels themselves) is not part of this model; a
visibility "handled" is one passed to `sdp_gridder_wtower_uvw_degrid` / `_grid`, i.e. a
row in `[start_row, end_row)` and a channel in `[start_ch, end_ch)` of that row.
Exact arithmetic, CPU memory, status clear, `int64_t` overflow not modelled.
-/

namespace Sdp.Wstack

open Sdp.Clamp Sdp.GridUtil

variable {K : Type} [Field K] [LinearOrder K] [IsStrictOrderedRing K] [FloorRing K]

/-- Inputs and derived parameters: `dUv` is `eff_sg_dist`, `dW` is `w_stack_dist`
(L312-314), `vpc` is `num_vis_per_chunk` (L91-93). -/
structure Cfg (K : Type) where
  c0 : K
  f0 : K
  df : K
  uvw : Arr K
  numRows : Nat
  numChan : Nat
  dUv : K
  dW : K
  vpc : Int

/-- `iu * eff_sg_dist - eff_sg_dist / 2` (L106, L406; w: L355). -/
def boxLo (d : K) (i : Int) : K := i * d - d / 2

/-- `(iu + 1) * eff_sg_dist - eff_sg_dist / 2` (L107, L407; w: L356). -/
def boxHi (d : K) (i : Int) : K := ((i + 1 : Int) : K) * d - d / 2

/-- Minimum and maximum box index of one coordinate (L317-327).  Converting an infinite
bound (no visibilities) to an integer is undefined. -/
def idxRange (b : MinMax K) (d : K) : Option (Int × Int) :=
  match b.mn, b.mx with
  | some lo, some hi => some (⌊lo / d + 1 / 2 - 1 / 100000⌋, ⌊hi / d + 1 / 2 + 1 / 100000⌋)
  | _, _ => none

/-- `start_ch` and `end_ch`: all channels (L264-271). -/
def allStart (cfg : Cfg K) : Arr Int := ⟨cfg.numRows, fun _ => 0⟩
def allEnd (cfg : Cfg K) : Arr Int := ⟨cfg.numRows, fun _ => (cfg.numChan : Int)⟩

/-- Index ranges `(iw, iu, iv)` (L318-327). -/
def indices (cfg : Cfg K) : Option ((Int × Int) × (Int × Int) × (Int × Int)) :=
  (uvwBounds cfg.c0 cfg.f0 cfg.df cfg.uvw cfg.numRows (allStart cfg) (allEnd cfg)).bind fun b =>
  (idxRange b.1 cfg.dUv).bind fun iu =>
  (idxRange b.2.1 cfg.dUv).bind fun iv =>
  (idxRange b.2.2 cfg.dW).bind fun iw =>
  some (iw, iu, iv)

/-- "Select visibilities on w-plane" (L354-360): new contents of `start_ch_w`,
`end_ch_w`, whose old contents are `out`. -/
def selectW (cfg : Cfg K) (iw : Int) (out : Arr Int × Arr Int) : Option (Arr Int × Arr Int) :=
  clampSingle cfg.c0 cfg.uvw cfg.numRows 2 cfg.f0 cfg.df ⟨allStart cfg, allEnd cfg, false⟩
    (boxLo cfg.dW iw) (boxHi cfg.dW iw) out (-1) (-1)

/-- "Select visibilities in sub-grid" (L105-113, L405-414). -/
def selectUv (cfg : Cfg K) (w : Arr Int × Arr Int) (iu iv : Int) (buf : Arr Int × Arr Int)
    (startRow endRow : Int) : Option (Arr Int × Arr Int) :=
  clampUv cfg.c0 cfg.uvw cfg.numRows cfg.f0 cfg.df ⟨w.1, w.2, false⟩
    (boxLo cfg.dUv iu) (boxHi cfg.dUv iu) (boxLo cfg.dUv iv) (boxHi cfg.dUv iv)
    buf startRow endRow

/-- Boxes in task-list order (L97-101, L117). -/
def boxes (iu iv : Int × Int) : List (Int × Int) :=
  (rowsOf iu.1 (iu.2 + 1)).flatMap fun a => (rowsOf iv.1 (iv.2 + 1)).map fun b => (a, b)

/-- Task for one box (L102-121). -/
def taskFor (cfg : Cfg K) (w buf : Arr Int × Arr Int) (p : Int × Int) : Option Task :=
  (selectUv cfg w p.1 p.2 buf (-1) (-1)).bind fun b =>
  (sumDiff b.2 b.1 (-1) (-1)).bind fun v =>
  some (mkTask p.1 p.2 v cfg.numRows cfg.vpc)

/-- `count_visibilities` (L65-135).  The OpenMP loop is run in order with one scratch
buffer; every call rewrites the whole buffer, see `taskFor_spec`. -/
def countTasks (cfg : Cfg K) (w buf : Arr Int × Arr Int) (iu iv : Int × Int) :
    Option (List Task) :=
  (boxes iu iv).mapM (taskFor cfg w buf)

/-- Visibilities `(row, channel)` handled by the kernel call on rows `[a, b)`
(L430-434 / L678-682) with channel ranges `r`. -/
def visOf (r : Arr Int × Arr Int) (a b : Int) : List (Int × Int) :=
  (rowsOf a b).flatMap fun i =>
    (rowsOf (r.1.get i.toNat) (r.2.get i.toNat)).map fun ch => (i, ch)

/-- Work on one task (L401-438): select, count, skip if empty, add to the count, run
the kernel. -/
def workOn (cfg : Cfg K) (w : Arr Int × Arr Int) (buf : Arr Int × Arr Int) (t : Task) :
    Option ((Arr Int × Arr Int) × Int × List (Int × Int)) :=
  (selectUv cfg w t.iu t.iv buf t.rowStart t.rowEnd).bind fun b =>
  (sumDiff b.2 b.1 t.rowStart t.rowEnd).bind fun v =>
  some (b, v, if v = 0 then [] else visOf b t.rowStart t.rowEnd)

/-- One w-plane (L350-448) with private buffers `bufs`, ending normally in a state
where all workers have left the parallel region: number of visibilities expected,
number counted, visibilities handled.  The program exits if the two numbers differ
(L442-448). -/
inductive PlaneRun (cfg : Cfg K) (iu iv : Int × Int) (iw : Int) (out : Arr Int × Arr Int)
    (bufs : List (Arr Int × Arr Int)) : Int → Int → List (Int × Int) → Prop
  | skip (w : Arr Int × Arr Int) (hw : selectW cfg iw out = some w)
      (hv : sumDiff w.2 w.1 (-1) (-1) = some 0) : PlaneRun cfg iu iv iw out bufs 0 0 []
  | run (w scratch : Arr Int × Arr Int) (numVis : Int) (tasks : List Task) (m : Nat)
      (s : Par (Arr Int × Arr Int) (Int × Int)) (hw : selectW cfg iw out = some w)
      (hv : sumDiff w.2 w.1 (-1) (-1) = some numVis) (hne : numVis ≠ 0)
      (hs : scratch ∈ bufs)
      (ht : countTasks cfg w scratch iu iv = some tasks)
      (hr : Run (workOn cfg w) m (Par.start tasks bufs) s) (hf : s.final) :
      PlaneRun cfg iu iv iw out bufs numVis s.count s.handled

end Sdp.Wstack
