import Mathlib.Algebra.Star.Basic
import Verif.WTower.Model

/-!
# Degridding with custom kernels: model

`/repo/src/ska-sdp-func/grid_data/sdp_degrid_uvw_custom.cpp` L22-61 (`calculate_coordinates`)
and L64-188 (`degrid_uvw_custom`), CPU.  Coordinates are in any ordered field with a floor, grid
values and kernels in any commutative ring with a conjugation (kernel values are real numbers in
the code).  The sizes come from the array shapes (L224-233); `int` overflow is not modelled.
`none` = access outside an array, or division by zero.
-/

namespace Sdp.Custom
variable {K : Type} [Field K] [LinearOrder K] [IsStrictOrderedRing K] [FloorRing K]
variable {R : Type} [CommRing R] [StarRing R]

/-- Arguments of the function and sizes read off the array shapes (L64-86, L224-233). -/
structure Cfg (K R : Type) where
  uvSize : Nat
  uvOv : Nat
  wSize : Nat
  wOv : Nat
  xSize : Nat
  ySize : Nat
  zSize : Nat
  numTimes : Nat
  numBaselines : Nat
  numChannels : Nat
  numPols : Nat
  theta : K
  wstep : K
  f0 : K
  df : K
  c0 : K
  conjugate : Bool
  /-- Rounding to an integer: `round` on the CPU (L43, L49, L54), `__double2int_rn` on the GPU. -/
  round : K → Int
  grid : Arr R
  uvw : Arr K
  uvKernel : Arr R
  wKernel : Arr R

/-- One of the two plane coordinates (L41-50): cell and kernel row.  `gridSize` is the first
argument, for both coordinates; `/` and `%` truncate towards zero. -/
def axis (ρ : K → Int) (gridSize ov : Nat) (theta u : K) : Option (Int × Int) :=
  if ov = 0 then none else
  let i := ρ (theta * u * ov) + (((gridSize / 2 : Nat) : Int) + 1) * ov - 1
  some (Int.tdiv i ov, ov - 1 - Int.tmod i ov)

/-- Kernel row of the w coordinate (L53-55). -/
def wRow (ρ : K → Int) (ov : Nat) (wstep w : K) : Option Int :=
  if ov = 0 ∨ wstep = 0 then none else
  let i := ρ ((1 + w / wstep) * ov) + ov - 1
  some (ov - 1 - Int.tmod i ov)

/-- Results of `calculate_coordinates` (L57-61). -/
structure Pos where
  subX : Int
  subY : Int
  subZ : Int
  x : Int
  y : Int

/-- `calculate_coordinates` as called (L105-127): the x size is passed for both coordinates. -/
def place (g : Cfg K R) (u v w : K) : Option Pos :=
  (axis g.round g.xSize g.uvOv g.theta u).bind fun ax =>
  (axis g.round g.xSize g.uvOv g.theta v).bind fun ay =>
  (wRow g.round g.wOv g.wstep w).map fun fz =>
    ⟨g.uvSize * ax.2, g.uvSize * ay.2, g.wSize * fz, ax.1, ay.1⟩

/-- The in-grid test (L130-137). -/
def inside (g : Cfg K R) (q : Pos) : Bool :=
  decide (q.x > ((g.uvSize / 2 : Nat) : Int) ∧ q.x < g.xSize - ((g.uvSize / 2 : Nat) : Int) ∧
    q.y > ((g.uvSize / 2 : Nat) : Int) ∧ q.y < g.ySize - ((g.uvSize / 2 : Nat) : Int))

/-- `INDEX_5D` (L17-18, L157-168). -/
def gridIdx (g : Cfg K R) (c : Nat) (z : Nat) (y x : Int) (p : Nat) : Int :=
  g.numPols * (g.xSize * (g.ySize * (g.zSize * c + z) + y) + x) + p

/-- Innermost loop (L151-173): `visy`. -/
def visX (g : Cfg K R) (q : Pos) (c p z y : Nat) : Option R :=
  loop (fun acc (x : Nat) =>
    (g.grid.read (gridIdx g c z (q.y + y - ((g.uvSize / 2 : Nat) : Int))
      (q.x + x - ((g.uvSize / 2 : Nat) : Int)) p)).bind fun value =>
    (g.uvKernel.read (q.subX + x)).map fun k => acc + k * value) 0 (List.range g.uvSize)

/-- Loop over y (L145-175): `visz`. -/
def visY (g : Cfg K R) (q : Pos) (c p z : Nat) : Option R :=
  loop (fun acc (y : Nat) =>
    (visX g q c p z y).bind fun v =>
    (g.uvKernel.read (q.subY + y)).map fun k => acc + k * v) 0 (List.range g.uvSize)

/-- Loop over z (L142-177) and conjugation (L178): `vis_local`. -/
def visZ (g : Cfg K R) (q : Pos) (c p : Nat) : Option R :=
  (loop (fun acc (z : Nat) =>
    (visY g q c p z).bind fun v =>
    (g.wKernel.read (q.subZ + z)).map fun k => acc + k * v) 0 (List.range g.wSize)).map fun v =>
  if g.conjugate then star v else v

/-- One visibility (L91-186). -/
def body (g : Cfg K R) (vis : Arr R) (i : Nat × Nat × Nat) : Option (Arr R) :=
  let iu : Int := index3 g.numBaselines 3 i.1 i.2.1 0
  (g.uvw.read iu).bind fun u =>
  (g.uvw.read (iu + 1)).bind fun v =>
  (g.uvw.read (iu + 2)).bind fun w =>
  let s := (g.f0 + i.2.2 * g.df) / g.c0
  (place g (s * u) (s * v) (s * w)).bind fun q =>
  if inside g q then
    loop (fun vis (p : Nat) => (visZ g q i.2.2 p).bind fun x =>
      vis.write (index4 g.numBaselines g.numChannels g.numPols i.1 i.2.1 i.2.2 p) x) vis
      (List.range g.numPols)
  else some vis

/-- `degrid_uvw_custom` (L64-188). -/
def degrid (g : Cfg K R) (vis : Arr R) : Option (Arr R) :=
  loop (body g) vis (nest3 g.numTimes g.numBaselines g.numChannels)

end Sdp.Custom
