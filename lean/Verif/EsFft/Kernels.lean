import Mathlib.Data.List.ProdSigma
import Mathlib.Algebra.Module.Prod
import Mathlib.Algebra.Order.Floor.Ring
import Verif.Common.Loops

/-!
# ES gridder (GPU part): model of the (de)gridding kernels

`/repo/src/ska-sdp-func/grid_data/sdp_gridder_uvw_es_fft_kernels.cu` L127-272 (3D) and L279-420
(2D).  A thread reads arrays that no thread writes and issues atomic additions (gridding), or
writes its own visibility (degridding); atomic additions of one launch may interleave in any
order.  Arithmetic is exact, `int` does not overflow; real and imaginary parts, which are treated
alike, form a pair.
-/

namespace Sdp.EsFft

/-- Kernel arguments. -/
structure KArgs (K : Type) where
  rows : Nat
  chans : Nat
  gridSize : Nat
  startW : Int
  numW : Nat
  support : Nat
  uvScale : K
  wScale : K
  minPlane : K
  /-- Speed of light. -/
  c0 : K
  /-- `x ↦ exp(beta * (sqrt(1 - x * x) - 1))`. -/
  psi : K → K
  /-- `..._gridding_3d`, or else `..._gridding_2d`. -/
  is3d : Bool

/-- Position of a visibility: `flip` is negative, `pos_u`, `pos_v`, `pos_w`. -/
structure Pos (K : Type) where
  flip : Bool
  u : K
  v : K
  w : K

variable {K : Type} [Field K] [LinearOrder K] [IsStrictOrderedRing K] [FloorRing K]

/-- `exp_semicircle` (L93-98). -/
def es (psi : K → K) (x : K) : K := if 1 < x * x then 0 else psi x

/-- Positions (L158-161, L183-186; 2D L310-311, L333-336). -/
def position (a : KArgs K) (uvw freq : Arr K) (r c : Nat) : Option (Pos K) :=
  (uvw.read ((3 * r : Nat) : Int)).bind fun u =>
  (uvw.read ((3 * r + 1 : Nat) : Int)).bind fun v =>
  (uvw.read ((3 * r + 2 : Nat) : Int)).bind fun w =>
  (freq.read (c : Int)).map fun f =>
    let flip : Bool := a.is3d && decide (w < 0)
    let inv : K := (if flip then -1 else 1) * f / a.c0
    ⟨flip, u * inv * a.uvScale, v * inv * a.uvScale,
      if a.is3d then (w * inv - a.minPlane) * a.wScale else 0⟩

/-- The integers from `lo` to `hi`. -/
def intRange (lo hi : Int) : List Int := (List.range (hi - lo + 1).toNat).map fun i : Nat => lo + (i : Int)

/-- `half_support` (L180). -/
def half (a : KArgs K) : K := (a.support : K) / 2

/-- `grid_u_min`, `grid_v_min` (L181, L187, L189). -/
def uvLo (a : KArgs K) (x : K) : Int := max ⌈x - half a⌉ ((-(a.gridSize : Int)).tdiv 2)

/-- `grid_u_max`, `grid_v_max` (L182, L188, L190). -/
def uvHi (a : KArgs K) (x : K) : Int := min ⌊x + half a⌋ (((a.gridSize : Int) - 1).tdiv 2)

/-- `grid_w_min` (L191). -/
def wLo (a : KArgs K) (x : K) : Int := max ⌈x - half a⌉ a.startW

/-- `grid_w_max` (L192-194): the minimum is taken of unsigned values, in which a negative number
is large. -/
def wHi (a : KArgs K) (x : K) : Int :=
  if ⌊x + half a⌋ < 0 then a.startW + a.numW - 1 else min ⌊x + half a⌋ (a.startW + a.numW - 1)

/-- `kernel_u` or `kernel_v` (L207-220): 16 values, the bound is not checked. -/
def kernelTable (a : KArgs K) (x : K) (lo hi : Int) : Option (Arr K) :=
  loop (fun (t : Arr K) (g : Int) => t.write (g - lo) (es a.psi (((g : K) - x) * (1 / half a))))
    ⟨16, fun _ => 0⟩ (intRange lo hi)

/-- The cells visited (L224, L233-235). -/
def cells (a : KArgs K) (p : Pos K) : List (Int × Int × Int) :=
  (intRange (wLo a p.w) (wHi a p.w)).product ((intRange (uvLo a p.u) (uvHi a p.u)).product
    (intRange (uvLo a p.v) (uvHi a p.v)))

/-- Index of a cell (L229-230, L245-247). -/
def cellIndex (a : KArgs K) (x : Int × Int × Int) : Int :=
  (x.1 - a.startW) * (a.gridSize * a.gridSize) + (x.2.1 + (a.gridSize : Int) / 2) * a.gridSize +
    (x.2.2 + (a.gridSize : Int) / 2)

/-- The body of a thread up to the use of the grid: the visited cells with `kernel_value`
(L195-242).  Both kernels are the same in this part. -/
def taps (a : KArgs K) (p : Pos K) : Option (List (Int × K)) :=
  if wHi a p.w < wLo a p.w ∨ uvHi a p.u < uvLo a p.u ∨ uvHi a p.v < uvLo a p.v then some []
  else
    (kernelTable a p.u (uvLo a p.u) (uvHi a p.u)).bind fun ku =>
    (kernelTable a p.v (uvLo a p.v) (uvHi a p.v)).bind fun kv =>
    (cells a p).mapM fun x =>
      (ku.read (x.2.1 - uvLo a p.u)).bind fun k1 =>
      (kv.read (x.2.2 - uvLo a p.v)).map fun k2 =>
        let k : K := k1 * k2 * es a.psi (((x.1 : K) - p.w) * (1 / half a))
        (cellIndex a x, if (x.2.1 + x.2.2) % 2 ≠ 0 then -k else k)

/-- Complex conjugate. -/
def cj (z : K × K) : K × K := (z.1, -z.2)

/-- `.y *= flip` (L170, L270). -/
def flipped (flip : Bool) (z : K × K) : K × K := if flip then cj z else z

/-- The additions a gridding thread issues (L163-171, L249-259). -/
def gridThread (a : KArgs K) (uvw freq weight : Arr K) (vis : Arr (K × K)) (rc : Nat × Nat) :
    Option (List (Int × (K × K))) :=
  (position a uvw freq rc.1 rc.2).bind fun p =>
  (vis.read ((a.chans * rc.1 + rc.2 : Nat) : Int)).bind fun z =>
  (weight.read ((a.chans * rc.1 + rc.2 : Nat) : Int)).bind fun wt =>
  (taps a p).map fun l => l.map fun t => (t.1, t.2 • flipped p.flip (wt • z))

/-- All additions issued by a launch; a launch has at least `chans * rows` threads, those outside
return at once (L155-156). -/
def gridOps (a : KArgs K) (uvw freq weight : Arr K) (vis : Arr (K × K)) :
    Option (List (Int × (K × K))) :=
  ((nest2 a.rows a.chans).mapM (gridThread a uvw freq weight vis)).map List.flatten

/-- The additions in some order. -/
def runOps (grid : Arr (K × K)) (ops : List (Int × (K × K))) : Option (Arr (K × K)) :=
  loop (fun (g : Arr (K × K)) (o : Int × (K × K)) => g.addAt o.1 o.2) grid ops

/-- One degridding thread (L172-175, L260-271). -/
def degridThread (a : KArgs K) (uvw freq : Arr K) (grid : Arr (K × K)) (vis : Arr (K × K))
    (rc : Nat × Nat) : Option (Arr (K × K)) :=
  (position a uvw freq rc.1 rc.2).bind fun p =>
  (taps a p).bind fun l =>
  if l = [] then some vis else
  (loop (fun (acc : K × K) (t : Int × K) => (grid.read t.1).map fun g => acc + t.2 • g) (0, 0) l).bind
    fun acc => vis.addAt ((a.chans * rc.1 + rc.2 : Nat) : Int) (flipped p.flip acc)

end Sdp.EsFft
