import Verif.WTower.Sweep
import Verif.WTower.GpuCall

/-!
# W-towers in main memory: checks and status of the whole calls, model

`/repo/src/ska-sdp-func/grid_data/sdp_gridder_wtower_uvw.cpp` L726-909 and L935-1123 for arrays in CPU memory, with the
error status.  Values as in `Sweep.lean`: complex numbers in exact arithmetic, arrays row-major where they pass their
checks.  `none` is undefined behaviour.  The result of a call is its status, the array it changes, and what it adds to the
counter of planes.

Not modelled: failure of allocations, `int` overflow.  The steps between the kernels (copies, FFT, division by the
pattern, shift) only work on arrays the call has made itself, of the type of the visibilities; they are taken not to fail
once the first of them has not.
-/

namespace Sdp.WTower
open Sdp.Fft Sdp.GridUtil Sdp.Clamp

noncomputable section

variable {K : Type} [Field K] [LinearOrder K] [IsStrictOrderedRing K] [FloorRing K]

/-- Array made by `sdp_mem_create` in main memory (L799-801, L820-822, L1008-1013, L1018-1020). -/
def cpuMem (t : MemType) (shape : List Int) : Mem := (createWrapper (some ⟨0, 0⟩) t .cpu shape none .success).1

/-- Checks of `sdp_gridder_uvw_bounds_all` in main memory (sdp_gridder_utils.cpp:2011-2039). -/
def CallArgs.cpuBoundsStatus (A : CallArgs) : Status :=
  let s := (checkAndViewConst A.startChs .int 1 .cpu .success).2
  let s := (checkAndViewConst A.endChs .int 1 .cpu s).2
  if A.uvw.type = .double ∨ A.uvw.type = .float then (checkAndViewConst A.uvw A.uvw.type 2 .cpu s).2
  else .dataType

/-- `sdp_gridder_uvw_bounds_all` in main memory (sdp_gridder_utils.cpp:2003-2040, 694-695): the bounds are set to infinity
first and stay so if a check fails. -/
def cpuBounds (ob : Obs K) (A : CallArgs) : Option (MinMax K × MinMax K × MinMax K) :=
  if A.cpuBoundsStatus ≠ .success then some (MinMax.init, MinMax.init, MinMax.init)
  else uvwBounds ob.c0 ob.f0 ob.df ob.uvw (A.uvw.shapeDim 0).toNat ob.startChs ob.endChs

/-- The channel ranges as seen by the kernels (L198-200, L506-508). -/
def CallArgs.chStatus (A : CallArgs) : Status :=
  (checkAndViewConst A.endChs .int 1 .cpu (checkAndViewConst A.startChs .int 1 .cpu .success).2).2

/-- One visibility of `degrid` (L124-173) when the check of `vis` has failed (L69): all extents and strides of the view
are zero (sdp_mem_view.h:362-368), so that every value is added to the first element. -/
def degridOne0 {R : Type} [CommRing R] (pl : Plan K R) (ob : Obs K) (p : Int) (T : Arr R) (i : Nat) (vis : Arr R)
    (c : Int) : Option (Arr R) :=
  (coords pl ob p i c).bind fun q =>
  (cell pl q).bind fun cl =>
  (degridVis pl cl T).bind fun x => vis.addAt 0 x

/-- `degrid` (L44-175) when the check of `vis` has failed.  Simplification: rows that race for the first element are
taken one after the other. -/
def degridPlane0 {R : Type} [CommRing R] (pl : Plan K R) (ob : Obs K) (p : Int) (T : Arr R) (order : List Nat)
    (vis : Arr R) : Option (Arr R) :=
  loop (fun vis i => (rowSel pl ob p i).bind fun r => loop (degridOne0 pl ob p T i) vis (rowsOf r.1 r.2)) vis order

/-- `degrid_cpu` (L179-241), and `degrid` (L63-69): after a failed check of `vis` or `uvws` the loop still runs.
Simplification: a failed check of `uvws` cannot occur here, as the same check was made for the bounds. -/
def degridCpuKernel (pl : Plan K ℂ) (ob : Obs K) (p : Int) (A : CallArgs) (T : Arr ℂ) (rows : List Nat) (vis : Arr ℂ) :
    Option (Status × Arr ℂ) :=
  if A.kernel = false then some (.dataType, vis)
  else if A.chStatus ≠ .success then some (A.chStatus, vis)
  else
    let s := (checkAndView A.vis A.vis.type 2 .cpu (checkAndViewConst A.uvw A.uvw.type 2 .cpu .success).2).2
    (if s = .success then degridPlane pl ob p T rows vis else degridPlane0 pl ob p T rows vis).map fun v => (s, v)

/-- Body of the sweep (L856-900); `j` counts planes from the first one. -/
def degridCpuStep (pl : Plan K ℂ) (ob : Obs K) (A : CallArgs) (pat : Arr ℂ) (first : Int) (S : Nat → Sched)
    (s : Status × DBufs × Arr ℂ) (j : Nat) : Option (Status × DBufs × Arr ℂ) :=
  if s.1 ≠ .success then some s
  else
    (if j = 0 then some s.2.1 else degridMove pl pat (S j) s.2.1).bind fun b =>
    (degridCpuKernel pl ob (first + j) A b.T (S j).rows s.2.2).map fun r => (r.1, b, r.2)

/-- `sdp_gridder_wtower_uvw_degrid` (L726-909) in main memory; arguments as in `degridCall`. -/
def degridCpu (pl : Plan K ℂ) (ob : Obs K) (A : CallArgs) (pat img : Arr ℂ) (status : Status) (S0 S : Nat → Sched)
    (T0 W0 tmp vis : Arr ℂ) : Option (Status × Arr ℂ × Int) :=
  if status ≠ .success then some (status, vis, 0)
  else if A.together = false then some (.memLocation, vis, 0)
  else
    (cpuBounds (fixFreq ob) A).bind fun b =>
    (planeRange pl.wStep (fixFreq ob).offW b.2.2).bind fun fl =>
    let e := fl.1 - ((pl.wSupport / 2 : Nat) : Int)
    let s := (invCall true (cpuMem A.vis.type [(pl.n : Int), pl.n]) A.img (cpuMem .complexDouble [(pl.n : Int), pl.n]) e
      .success (some img) pat).status
    if s ≠ .success then some (s, vis, 1 + fl.2 - fl.1)
    else
      (scaleInv pl.n (S0 0).px W0 (some img) pat e).bind fun W =>
      (loop (fun st i => fillLayer pl pat (S0 i) st i) (⟨T0, W, tmp⟩ : DBufs) (List.range pl.wSupport)).bind fun st =>
      (loop (degridCpuStep pl (fixFreq ob) A pat fl.1 S) (.success, st, vis)
        (List.range (1 + fl.2 - fl.1).toNat)).map fun r => (r.1, r.2.2, 1 + fl.2 - fl.1)

/-! ## Gridding -/

/-- One visibility of `grid` (L430-481) when the check of `vis` has failed (L376): its first element is read each time. -/
def gridOne0 {R : Type} [CommRing R] (pl : Plan K R) (ob : Obs K) (p : Int) (vis : Arr R) (i : Nat) (T : Arr R)
    (c : Int) : Option (Arr R) :=
  (coords pl ob p i c).bind fun q =>
  (cell pl q).bind fun cl =>
  (vis.read 0).bind fun v => loop (gridPix pl cl v) T (nest3 pl.wSupport pl.support pl.support)

/-- `grid` (L350-483) when the check of `vis` has failed. -/
def gridPlane0 {R : Type} [CommRing R] (pl : Plan K R) (ob : Obs K) (p : Int) (vis : Arr R) (order : List Nat)
    (T : Arr R) : Option (Arr R) :=
  loop (fun T i => (rowSel pl ob p i).bind fun r => loop (gridOne0 pl ob p vis i) T (rowsOf r.1 r.2)) T order

/-- `grid_cpu` (L487-549), and `grid` (L370-376). -/
def gridCpuKernel (pl : Plan K ℂ) (ob : Obs K) (p : Int) (A : CallArgs) (vis : Arr ℂ) (rows : List Nat) (T : Arr ℂ) :
    Option (Status × Arr ℂ) :=
  if A.kernel = false then some (.dataType, T)
  else if A.chStatus ≠ .success then some (A.chStatus, T)
  else
    let s := (checkAndViewConst A.vis A.vis.type 2 .cpu (checkAndViewConst A.uvw A.uvw.type 2 .cpu .success).2).2
    (if s = .success then gridPlane pl ob p vis rows T else gridPlane0 pl ob p vis rows T).map fun T => (s, T)

/-- Body of the sweep (L1025-1075). -/
def gridCpuStep (pl : Plan K ℂ) (ob : Obs K) (A : CallArgs) (pat vis : Arr ℂ) (first : Int) (rows : List Nat)
    (S : Nat → Sched) (s : Status × DBufs × Arr ℂ) (j : Nat) : Option (Status × DBufs × Arr ℂ) :=
  if s.1 ≠ .success then some s
  else
    (if j = 0 then some s.2 else gridMove pl pat (S j) s.2).bind fun st =>
    (gridCpuKernel pl ob (first + j) A vis rows st.1.T).map fun r => (r.1, ⟨r.2, st.1.img, st.1.tmp⟩, st.2)

/-- The last accumulation (L1110-1113).  If it runs on no element, nothing is done; otherwise the image is `n x n`.
To a real image the real parts are added, without the pattern (sdp_gridder_utils.cpp:82-103). -/
def gridStore (pl : Plan K ℂ) (A : CallArgs) (pat : Arr ℂ) (px : List (Nat × Nat)) (e : Int) (W img : Arr ℂ) :
    Option (Status × Arr ℂ) :=
  let run := accumCall true A.img (cpuMem .complexDouble [(pl.n : Int), pl.n])
    (some (cpuMem .complexDouble [(pl.n : Int), pl.n])) e .success (some W) pat
  if run.threads = [] then some (run.status, img)
  else if A.img.type = .complexDouble ∨ A.img.type = .complexFloat then
    (accumScale pl.n px img W (some pat) e).map fun r => (run.status, r)
  else (accumScale pl.n px img ⟨W.size, fun j => ((W.get j).re : ℂ)⟩ none 0).map fun r => (run.status, r)

/-- `sdp_gridder_wtower_uvw_grid` (L935-1123) in main memory; arguments as in `gridCall`.  For visibilities that are not
complex the FFT plan is refused (L1021, sdp_fft.cpp:295-346). -/
def gridCpu (pl : Plan K ℂ) (ob : Obs K) (A : CallArgs) (pat vis : Arr ℂ) (startRow endRow : Int) (status : Status)
    (S S1 : Nat → Sched) (F0 tmp img : Arr ℂ) : Option (Status × Arr ℂ × Int) :=
  if status ≠ .success then some (status, img, 0)
  else if A.together = false then some (.memLocation, img, 0)
  else
    (cpuBounds (fixFreq ob) A).bind fun b =>
    (planeRange pl.wStep (fixFreq ob).offW b.2.2).bind fun fl =>
    let s : Status := if A.vis.type = .complexDouble ∨ A.vis.type = .complexFloat then .success else .dataType
    (loop (gridCpuStep pl (fixFreq ob) A pat vis fl.1 (rowList (A.uvw.shapeDim 0).toNat startRow endRow) S)
      (s, (⟨⟨pl.wSupport * (pl.n * pl.n), fun _ => 0⟩, ⟨pl.n * pl.n, fun _ => 0⟩, tmp⟩ : DBufs), F0)
      (List.range (1 + fl.2 - fl.1).toNat)).bind fun r =>
    if r.1 ≠ .success then some (r.1, img, 1 + fl.2 - fl.1)
    else
      (loop (fun st i => gridAccum pl pat (S1 i) st i) r.2 (List.range pl.wSupport)).bind fun st =>
      (gridStore pl A pat (S1 pl.wSupport).px (fl.2 + ((pl.wSupport / 2 : Nat) : Int) - 1) st.1.img img).map fun r =>
        (r.1, r.2, 1 + fl.2 - fl.1)

end
end Sdp.WTower
