import Verif.WTower.Sweep
import Verif.WTower.Gpu
import Verif.WTower.GpuProps
import Verif.GridUtil.Gpu
import Verif.GridUtil.Scale
import Verif.Fft.Gpu
import Verif.Fft.Backend
import Verif.EsFft.Call

/-!
# W-towers on the GPU: the whole calls, model

`/repo/src/ska-sdp-func/grid_data/sdp_gridder_wtower_uvw.cpp` L726-909 and L935-1123 for arrays in device memory.
Every call of a kernel may have several outcomes; all of them run on the default stream, one after the other, so that a
step starts when the previous one has ended.  The result of a call is its status, the array it changes, and what it adds
to the counter of planes; `none` is undefined behaviour.  Exact arithmetic.

Not modelled: failure of device allocations and launches other than those of zero blocks, the CUDA attributes of the
FFT plan, `int` overflow, and strides of the visibilities and coordinates (row-major).  The descriptors of the
internal arrays are those `sdp_mem_create` makes.
-/

namespace Sdp.WTower
open Sdp.Fft Sdp.GridUtil Sdp.Race

noncomputable section

/-- Array made by `sdp_mem_create` or `sdp_mem_create_copy` on the device (L802-804, L820-822, L1009-1024). -/
def devMem (t : MemType) (shape : List Int) : Mem := (createWrapper (some ⟨0, 0⟩) t .gpu shape none .success).1

/-- The arrays of the caller. -/
structure CallArgs where
  vis : Mem
  img : Mem
  uvw : Mem
  startChs : Mem
  endChs : Mem

/-- All arrays are where the visibilities are (L746-754, L955-963). -/
def CallArgs.together (A : CallArgs) : Bool :=
  decide (A.img.location = A.vis.location ∧ A.uvw.location = A.vis.location ∧
    A.startChs.location = A.vis.location ∧ A.endChs.location = A.vis.location)

/-- Checks of `sdp_gridder_uvw_bounds_all` on the device (sdp_gridder_utils.cpp:2057-2079), and the launch, which has
no blocks if there are no rows. -/
def CallArgs.boundsStatus (A : CallArgs) : Status :=
  let s := (checkAndViewConst A.startChs .int 1 .gpu .success).2
  let s := (checkAndViewConst A.endChs .int 1 .gpu s).2
  let s := if A.uvw.type = .double ∨ A.uvw.type = .float then (checkAndViewConst A.uvw A.uvw.type 2 .gpu s).2
    else .dataType
  if s ≠ .success then s else if A.uvw.shapeDim 0 ≤ 0 then .runtime else .success

/-- Types for which there is a kernel (L268-315, L576-623); the sub-grids have the type of the visibilities. -/
def CallArgs.kernel (A : CallArgs) : Bool :=
  decide (A.vis.type = .complexDouble ∧ A.uvw.type = .double ∨
    A.vis.type = .complexFloat ∧ (A.uvw.type = .double ∨ A.uvw.type = .float))

/-- Checks of `degrid_gpu` (L261-315) and `grid_gpu` (L570-623), and the launch; only degridding writes to the
visibilities. -/
def CallArgs.kernelStatus (A : CallArgs) (write : Bool) : Status :=
  let s := (checkAndViewConst A.startChs .int 1 .gpu .success).2
  let s := (checkAndViewConst A.endChs .int 1 .gpu s).2
  let s := if A.kernel then
      (if write then checkAndView A.vis A.vis.type 2 .gpu (checkAndViewConst A.uvw A.uvw.type 2 .gpu s).2
        else checkAndViewConst A.vis A.vis.type 2 .gpu (checkAndViewConst A.uvw A.uvw.type 2 .gpu s).2).2
    else .dataType
  if s ≠ .success then s else if A.vis.shapeDim 0 ≤ 0 then .runtime else .success

/-- A call that may launch a kernel on an array. -/
def runOn (run : Run ℂ) (a : Arr ℂ) : Option (Status × Arr ℂ) → Prop :=
  Then (Race.Launch run.prog run.threads a) fun r o => o = some (run.status, r)

/-- `sdp_fft_phase`, `sdp_fft_exec`, `sdp_fft_phase` on a square array in place (L843-845, L872-874, L1042-1044,
L1095-1097): two launches and cuFFT with the plan of sdp_fft.cpp:362-421. -/
def gpuFft (n : Nat) (sign : Int) (d : Arr ℂ) : Option (Arr ℂ) → Prop :=
  Then (Race.Launch (phaseAt n n) (phaseThreads n n) d) fun a =>
  Then (fun o => o = cufftExec [(n : Int), n] [(n : Int), n] 1 (n * n) 1 (n * n) 1 sign a a) fun b =>
  Race.Launch (phaseAt n n) (phaseThreads n n) b

variable {K : Type} [Field K] [LinearOrder K] [IsStrictOrderedRing K] [FloorRing K]

/-- The bounds of `sdp_gridder_uvw_bounds_all` on the device.  They stay infinite if a check fails. -/
def gpuBounds (ob : Obs K) (A : CallArgs) (o : Option (MinMax K × MinMax K × MinMax K)) : Prop :=
  if A.boundsStatus ≠ .success then o = some (MinMax.init, MinMax.init, MinMax.init)
  else ∃ order : List (Nat × Nat × Nat), order.Perm (boundOps (A.uvw.shapeDim 0).toNat) ∧
    o = uvwBoundsGpu ob.c0 ob.f0 ob.df ob.uvw (A.uvw.shapeDim 0).toNat ob.startChs ob.endChs order

/-- Rows from `start_row` to `end_row` (L755-759, L964-968). -/
def rowLimits (m : Nat) (startRow endRow : Int) : Nat × Nat :=
  if startRow < 0 ∨ endRow < 0 then (0, m) else (startRow.toNat, endRow.toNat)

/-- Status, sub-grid stack and `w_subgrid_image`. -/
structure GBufs where
  st : Status
  T : Arr ℂ
  img : Arr ℂ

/-- Body of the filling loop (L831-852) and L867-880.  Simplification: the code copies the image into the layer and
transforms it there; here a copy is transformed and then stored. -/
def fillGpu (pl : Plan K ℂ) (t : MemType) (pat : Arr ℂ) (s : GBufs) (i : Nat) (o : Option GBufs) : Prop :=
  if s.st ≠ .success then o = some s
  else Then (gpuFft pl.n (-1) s.img) (fun r =>
    Then (fun o => o = copyBlock s.T (pl.n * pl.n * i) r 0 (pl.n * pl.n)) fun T =>
    Then (runOn (invCall true (devMem t [(pl.n : Int), pl.n]) (devMem t [(pl.n : Int), pl.n])
      (devMem .complexDouble [(pl.n : Int), pl.n]) 1 .success none pat) s.img) fun w o => o = some ⟨w.1, T, w.2⟩) o

/-- `sdp_gridder_shift_subgrids` (L865, L1050). -/
def shiftGpu (pl : Plan K ℂ) (s : GBufs) (o : Option GBufs) : Prop :=
  if s.st ≠ .success then o = some s
  else Then (Race.Launch (shiftProg pl.wSupport pl.n pl.n) (shiftThreads pl.n pl.n) s.T)
    (fun T o => o = some { s with T := T }) o

/-- `degrid_gpu` (L244-347). -/
def degridLaunch (pl : Plan K ℂ) (ob : Obs K) (p : Int) (A : CallArgs) (rows : Nat × Nat) (s : GBufs) (vis : Arr ℂ)
    (o : Option (GBufs × Arr ℂ)) : Prop :=
  if s.st ≠ .success then o = some (s, vis)
  else if A.kernelStatus true ≠ .success then o = some ({ s with st := A.kernelStatus true }, vis)
  else Then (Race.Launch (degridThread pl ob p s.T (A.uvw.shapeDim 0).toNat rows.1 rows.2)
      (rowThreads (A.vis.shapeDim 0).toNat) vis) (fun v o => o = some (s, v)) o

/-- Body of the sweep (L856-900); `j` counts planes from the first one. -/
def degridStepGpu (pl : Plan K ℂ) (ob : Obs K) (A : CallArgs) (pat : Arr ℂ) (first : Int) (rows : Nat × Nat) (j : Nat)
    (s : GBufs × Arr ℂ) (o : Option (GBufs × Arr ℂ)) : Prop :=
  if s.1.st ≠ .success then o = some s
  else Then (fun o => if j = 0 then o = some s.1
      else Then (shiftGpu pl s.1) (fun b => fillGpu pl A.vis.type pat b (pl.wSupport - 1)) o)
    (fun b => degridLaunch pl ob (first + j) A rows b s.2) o

/-- `sdp_gridder_wtower_uvw_degrid` (L726-909).  `T0`, `W0` are the new device buffers, not cleared.  Without CUDA the
copy of the plan's arrays fails, the bounds are not computed and stay zero, so that four planes are counted. -/
def degridGpu (cuda : Bool) (pl : Plan K ℂ) (ob : Obs K) (A : CallArgs) (pat img : Arr ℂ) (startRow endRow : Int)
    (status : Status) (T0 W0 vis : Arr ℂ) (o : Option (Status × Arr ℂ × Int)) : Prop :=
  if status ≠ .success then o = some (status, vis, 0)
  else if A.together = false then o = some (.memLocation, vis, 0)
  else if cuda = false then o = some (.memLocation, vis, 4)
  else
    Then (gpuBounds (fixFreq ob) A) (fun b =>
    Then (fun o => o = planeRange pl.wStep (fixFreq ob).offW b.2.2) fun fl =>
    Then (runOn (invCall true (devMem A.vis.type [(pl.n : Int), pl.n]) A.img (devMem .complexDouble [(pl.n : Int), pl.n])
      (fl.1 - ((pl.wSupport / 2 : Nat) : Int)) .success (some img) pat) W0) fun w =>
    Then (EsFft.Steps (fun i s => fillGpu pl A.vis.type pat s i) (List.range pl.wSupport) ⟨w.1, T0, w.2⟩) fun s =>
    Then (EsFft.Steps (degridStepGpu pl (fixFreq ob) A pat fl.1
        (rowLimits (A.uvw.shapeDim 0).toNat startRow endRow)) (List.range (1 + fl.2 - fl.1).toNat) (s, vis))
      fun r o => o = some (r.1.st, r.2, 1 + fl.2 - fl.1)) o

/-! ## Gridding -/

/-- Status, sub-grid stack, `w_subgrid_image` and FFT buffer. -/
structure HBufs where
  st : Status
  T : Arr ℂ
  img : Arr ℂ
  buf : Arr ℂ

/-- L1033-1047 for layer 0, L1080-1102. -/
def accumGpu (pl : Plan K ℂ) (t : MemType) (pat : Arr ℂ) (i : Nat) (s : HBufs) (o : Option HBufs) : Prop :=
  if s.st ≠ .success then o = some s
  else Then (runOn (invCall true (devMem .complexDouble [(pl.n : Int), pl.n]) (devMem .complexDouble [(pl.n : Int), pl.n])
      (devMem .complexDouble [(pl.n : Int), pl.n]) 1 .success none pat) s.img) (fun w =>
    Then (fun o => o = copyBlock s.buf 0 s.T (pl.n * pl.n * i) (pl.n * pl.n)) fun b =>
    Then (gpuFft pl.n 1 b) fun r =>
    Then (runOn (accumCall true (devMem .complexDouble [(pl.n : Int), pl.n]) (devMem t [(pl.n : Int), pl.n]) none 0 w.1
      (some r) pat) w.2) fun w o => o = some ⟨w.1, s.T, w.2, r⟩) o

/-- L1049-1058: shift, then clear the last layer. -/
def dropGpu (pl : Plan K ℂ) (s : HBufs) (o : Option HBufs) : Prop :=
  if s.st ≠ .success then o = some s
  else Then (Race.Launch (shiftProg pl.wSupport pl.n pl.n) (shiftThreads pl.n pl.n) s.T)
    (fun T => Then (fun o => o = clearLayer pl.n T (pl.wSupport - 1)) fun T o => o = some { s with T := T }) o

/-- Outcomes of the gridding kernel: the stack is an array of real numbers, to which the threads add atomically. -/
def gridLaunched (native : Bool) (pl : Plan K ℂ) (ob : Obs K) (p : Int) (vis : Arr ℂ) (m nrows : Nat) (rows : Nat × Nat)
    (T : Arr ℂ) (o : Option (Arr ℂ)) : Prop :=
  (∃ t ∈ rowThreads nrows, gridThread pl ob p vis m rows.1 rows.2 t = none ∧ o = none) ∨
  (∀ t ∈ rowThreads nrows, gridThread pl ob p vis m rows.1 rows.2 t ≠ none) ∧
  ∃ (a : Arr ℝ) (sched : List Nat), Parts a T ∧ (∀ t ∈ sched, t ∈ rowThreads nrows) ∧
    let start : ASt ℝ Nat := ⟨a, fun t => (gridThread pl ob p vis m rows.1 rows.2 t).getD [], fun _ => none⟩
    ((arun native start sched = none ∧ o = none) ∨
      ∃ s, arun native start sched = some s ∧ (∀ t ∈ rowThreads nrows, s.todo t = []) ∧
        ∃ U : Arr ℂ, Parts s.mem U ∧ o = some U)

/-- `grid_gpu` (L552-656). -/
def gridLaunch (native : Bool) (pl : Plan K ℂ) (ob : Obs K) (p : Int) (A : CallArgs) (rows : Nat × Nat) (vis : Arr ℂ)
    (s : HBufs) (o : Option HBufs) : Prop :=
  if s.st ≠ .success then o = some s
  else if A.kernelStatus false ≠ .success then o = some { s with st := A.kernelStatus false }
  else Then (gridLaunched native pl ob p vis (A.uvw.shapeDim 0).toNat (A.vis.shapeDim 0).toNat rows s.T)
    (fun T o => o = some { s with T := T }) o

/-- Body of the sweep (L1025-1075). -/
def gridStepGpu (native : Bool) (pl : Plan K ℂ) (ob : Obs K) (A : CallArgs) (pat vis : Arr ℂ) (first : Int)
    (rows : Nat × Nat) (j : Nat) (s : HBufs) (o : Option HBufs) : Prop :=
  if s.st ≠ .success then o = some s
  else Then (fun o => if j = 0 then o = some s
      else Then (accumGpu pl A.vis.type pat 0 s) (dropGpu pl) o)
    (gridLaunch native pl ob (first + j) A rows vis) o

/-- `sdp_gridder_wtower_uvw_grid` (L935-1123).  `F0` is the new FFT buffer; stack and `w_subgrid_image` are set to
zero (L1015-1016).  Simplification: for visibilities that are not complex the creation of the FFT plan fails already
(sdp_fft.cpp:295-356); here the first kernel call does, with the same status. -/
def gridGpu (cuda native : Bool) (pl : Plan K ℂ) (ob : Obs K) (A : CallArgs) (pat vis : Arr ℂ) (startRow endRow : Int)
    (status : Status) (F0 img : Arr ℂ) (o : Option (Status × Arr ℂ × Int)) : Prop :=
  if status ≠ .success then o = some (status, img, 0)
  else if A.together = false then o = some (.memLocation, img, 0)
  else if cuda = false then o = some (.memLocation, img, 4)
  else
    Then (gpuBounds (fixFreq ob) A) (fun b =>
    Then (fun o => o = planeRange pl.wStep (fixFreq ob).offW b.2.2) fun fl =>
    Then (EsFft.Steps (gridStepGpu native pl (fixFreq ob) A pat vis fl.1
        (rowLimits (A.uvw.shapeDim 0).toNat startRow endRow)) (List.range (1 + fl.2 - fl.1).toNat)
        ⟨.success, ⟨pl.wSupport * (pl.n * pl.n), fun _ => 0⟩, ⟨pl.n * pl.n, fun _ => 0⟩, F0⟩) fun s =>
    Then (EsFft.Steps (accumGpu pl A.vis.type pat) (List.range pl.wSupport) s) fun s =>
    Then (runOn (accumCall true A.img (devMem .complexDouble [(pl.n : Int), pl.n])
      (some (devMem .complexDouble [(pl.n : Int), pl.n])) (fl.2 + ((pl.wSupport / 2 : Nat) : Int) - 1) s.st
      (some s.img) pat) img) fun r o => o = some (r.1, r.2, 1 + fl.2 - fl.1)) o

end
end Sdp.WTower
