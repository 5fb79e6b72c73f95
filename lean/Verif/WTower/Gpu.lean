import Verif.WTower.Model
import Verif.Common.AtomicAdd
import Mathlib.Data.Complex.Basic

/-!
# Model of grid_data/sdp_gridder_wtower_uvw.cu and its launches

One thread per row.  The degridding kernel reads and writes the visibilities; its threads interleave at each of
these accesses.  The gridding kernel adds to the tower, an array of real numbers, with `sdp_atomic_add`.  All other
arrays are only read.  The selection of channels, the coordinates and the kernel cell are computed by the statements
of the CPU code (`rowSel`, `coords`, `cell`; sdp_gridder_wtower_uvw.cu:43-102, 170-228).  Exact arithmetic.
-/

namespace Sdp.WTower
open Sdp.Clamp Sdp.Race

section
variable {K : Type} [Field K] [LinearOrder K] [IsStrictOrderedRing K] [FloorRing K]
variable {R : Type} [CommRing R]

/-- Position of a tower pixel, sdp_gridder_wtower_uvw.cu:116-118, 243-245.  Unlike a view index it may leave its row
without leaving the array. -/
def rawPix (pl : Plan K R) (k : Nat) (x y : Int) : Int := k * (pl.n * pl.n) + x * pl.n + y

/-- The weight `kern_wuv`, sdp_gridder_wtower_uvw.cu:107-114, 234-241.  Simplification: the kernel values are read
again for every pixel. -/
def kernWuv (pl : Plan K R) (cl : Cell) (a : Nat × Nat × Nat) : Option R :=
  (pl.wKernel.read (cl.wOff + a.1)).bind fun kw =>
  (pl.uvKernel.read (cl.uOff + a.2.1)).bind fun ku =>
  (pl.uvKernel.read (cl.vOff + a.2.2)).bind fun kv => some (kw * ku * kv)

/-- Value of one visibility, sdp_gridder_wtower_uvw.cu:104-122. -/
def degridVisGpu (pl : Plan K R) (cl : Cell) (T : Arr R) : Option R :=
  loop (fun acc a =>
    (kernWuv pl cl a).bind fun w =>
    (T.read (rawPix pl a.1 (cl.iu0 + a.2.1) (cl.iv0 + a.2.2))).bind fun x => some (acc + w * x)) 0
    (nest3 pl.wSupport pl.support pl.support)

/-- Loop over the selected channels, sdp_gridder_wtower_uvw.cu:82-124. -/
def chanProg (pl : Plan K R) (ob : Obs K) (p : Int) (T : Arr R) (i : Nat) : List Int → Prog R
  | [] => .done
  | c :: cs =>
    .need (coords pl ob p i c) fun q =>
    .need (cell pl q) fun cl =>
    .need (degridVisGpu pl cl T) fun x =>
    .need (visIdx ob i c) fun j =>
    .read j fun v => .write j (v + x) (chanProg pl ob p T i cs)

/-- Thread `t` of `sdp_gridder_wtower_degrid`, sdp_gridder_wtower_uvw.cu:39-126; `m` is `num_uvw`. -/
def degridThread (pl : Plan K R) (ob : Obs K) (p : Int) (T : Arr R) (m startRow endRow t : Nat) : Prog R :=
  let i := t + startRow
  if i ≥ endRow ∨ i ≥ m then .done
  else .need (rowSel pl ob p i) fun r => chanProg pl ob p T i (rowsOf r.1 r.2)

/-- Threads of both launches, sdp_gridder_wtower_uvw.cpp:343-346, 651-654: `numRows` is the first dimension of the
visibilities. -/
def rowThreads (numRows : Nat) : List Nat := List.range (blocks numRows 256 * 256)

end

section
variable {K : Type} [Field K] [LinearOrder K] [IsStrictOrderedRing K] [FloorRing K]

/-- Additions made for one visibility, sdp_gridder_wtower_uvw.cu:226-256: index of a complex number, and value. -/
def gridAdds (pl : Plan K ℂ) (ob : Obs K) (p : Int) (vis : Arr ℂ) (i : Nat) (c : Int) : Option (List (Int × ℂ)) :=
  (coords pl ob p i c).bind fun q =>
  (cell pl q).bind fun cl =>
  (visIdx ob i c).bind fun j =>
  (vis.read j).bind fun v =>
  (nest3 pl.wSupport pl.support pl.support).mapM fun a =>
    (kernWuv pl cl a).map fun w => (rawPix pl a.1 (cl.iu0 + a.2.1) (cl.iv0 + a.2.2), w * v)

/-- Each complex addition is two atomic additions, sdp_gridder_wtower_uvw.cu:243-253. -/
def splitAdds (l : List (Int × ℂ)) : List (Int × ℝ) :=
  l.flatMap fun q => [(2 * q.1, q.2.re), (2 * q.1 + 1, q.2.im)]

/-- Additions of thread `t` of `sdp_gridder_wtower_grid`, sdp_gridder_wtower_uvw.cu:166-258; `none` if it leaves an
array it reads. -/
def gridThread (pl : Plan K ℂ) (ob : Obs K) (p : Int) (vis : Arr ℂ) (m startRow endRow t : Nat) :
    Option (List (Int × ℝ)) :=
  let i := t + startRow
  if i ≥ endRow ∨ i ≥ m then some []
  else
    (rowSel pl ob p i).bind fun r =>
    ((rowsOf r.1 r.2).mapM fun c => gridAdds pl ob p vis i c).map fun ls => splitAdds ls.flatten

end
end Sdp.WTower
