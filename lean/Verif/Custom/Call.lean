import Verif.Custom.Model
import Verif.Common.Outcome
import Verif.Common.Launch
import Verif.DataModel.Model

/-!
# Degridding with custom kernels: the GPU kernel and the call

`/repo/src/ska-sdp-func/grid_data/sdp_degrid_uvw_custom.cu` L14-177 and
`sdp_degrid_uvw_custom.cpp` L191-314.  Numbers as in `Verif.Custom.Model`.  Steps of GPU threads interleave; grid, coordinates
and kernels are only read (they are disjoint from the output, as `__restrict__` promises).
-/

namespace Sdp.Custom
open Sdp.Race

variable {K : Type} [Field K] [LinearOrder K] [IsStrictOrderedRing K] [FloorRing K]
variable {R : Type} [CommRing R] [StarRing R]

/-- `__double2int_rn`, .cu L34, L41, L48: nearest integer, halves to the even one. -/
def rne (x : K) : Int :=
  if x - ⌊x⌋ < 1 / 2 then ⌊x⌋
  else if 1 / 2 < x - ⌊x⌋ then ⌊x⌋ + 1
  else if ⌊x⌋ % 2 = 0 then ⌊x⌋ else ⌊x⌋ + 1

/-- The loop over polarisations, .cu L132-175. -/
def polProg (g : Cfg K R) (q : Pos) (t b c : Nat) : List Nat → Prog R
  | [] => .done
  | p :: ps =>
    .need (visZ g q c p) fun v =>
    .write (index4 g.numBaselines g.numChannels g.numPols t b c p) v (polProg g q t b c ps)

/-- One thread, .cu L85-177; `x` is (baseline, channel, time). -/
def thread (g : Cfg K R) (x : Nat × Nat × Nat) : Prog R :=
  if x.1 ≥ g.numBaselines ∨ x.2.1 ≥ g.numChannels ∨ x.2.2 ≥ g.numTimes then .done
  else
    let i : Int := 3 * index2 g.numBaselines x.2.2 x.1
    let s := (g.f0 + x.2.1 * g.df) / g.c0
    .need (g.uvw.read i) fun u =>
    .need (g.uvw.read (i + 1)) fun v =>
    .need (g.uvw.read (i + 2)) fun w =>
    .need (place g (s * u) (s * v) (s * w)) fun q =>
    if inside g q then polProg g q x.2.2 x.1 x.2.1 (List.range g.numPols) else .done

/-- Threads of the launch, .cpp L281-286: blocks of 128 x 2 x 2. -/
def threads (g : Cfg K R) : List (Nat × Nat × Nat) :=
  nest3 (blocks g.numBaselines 128 * 128) (blocks g.numChannels 2 * 2) (blocks g.numTimes 2 * 2)

/-- The array arguments of a call. -/
structure Args where
  grid : Mem
  uvw : Mem
  uvKernel : Mem
  wKernel : Mem
  vis : Mem

/-- The number arguments of a call. -/
structure Par (K : Type) where
  theta : K
  wstep : K
  f0 : K
  df : K
  conjugate : Bool

/-- Contents of the arrays that are read. -/
structure Inputs (K R : Type) where
  grid : Arr R
  uvw : Arr K
  uvKernel : Arr R
  wKernel : Arr R

/-- The checks, .cpp L206-255. -/
def check (m : Args) (status : Status) : Status :=
  if status ≠ .success then status
  else
    let r := getVisMetadata {} m.vis status
    let get := fun (x : Option Int) => x.getD 0
    let loc := r.1.location.getD .cpu
    let s := checkWriteable m.vis r.2
    let s := checkUvw m.uvw .void loc (get r.1.numTimes) (get r.1.numBaselines) s
    let s := checkShape m.grid
      [get r.1.numChannels, m.grid.shapeDim 1, m.grid.shapeDim 2, m.grid.shapeDim 3, get r.1.numPols] s
    if s ≠ .success then s
    else if m.grid.location ≠ loc ∨ m.uvKernel.location ≠ loc ∨ m.wKernel.location ≠ loc then .memLocation
    else if r.1.type.getD .void ≠ .complexDouble ∨ m.grid.type ≠ .complexDouble ∨ m.uvw.type ≠ .double ∨
      m.uvKernel.type ≠ .double ∨ m.wKernel.type ≠ .double then .dataType
    else .success

/-- What the loops get, .cpp L219-229 and L257-279: sizes from the descriptors, `C_0`. -/
def cfgOf (ρ : K → Int) (m : Args) (p : Par K) (x : Inputs K R) : Cfg K R where
  uvSize := (m.uvKernel.shapeDim 1).toNat
  uvOv := (m.uvKernel.shapeDim 0).toNat
  wSize := (m.wKernel.shapeDim 1).toNat
  wOv := (m.wKernel.shapeDim 0).toNat
  xSize := (m.grid.shapeDim 3).toNat
  ySize := (m.grid.shapeDim 2).toNat
  zSize := (m.grid.shapeDim 1).toNat
  numTimes := (m.vis.shapeDim 0).toNat
  numBaselines := (m.vis.shapeDim 1).toNat
  numChannels := (m.vis.shapeDim 2).toNat
  numPols := (m.vis.shapeDim 3).toNat
  theta := p.theta
  wstep := p.wstep
  f0 := p.f0
  df := p.df
  c0 := 299792458
  conjugate := p.conjugate
  round := ρ
  grid := x.grid
  uvw := x.uvw
  uvKernel := x.uvKernel
  wKernel := x.wKernel

/-- `sdp_degrid_uvw_custom`, .cpp L191-314: a call on visibilities `a` can end with `o`: status and visibilities, `none` after
an access outside an array or a division by zero.  `cuda`: built with CUDA, and the launch succeeds.  For a location that
is neither CPU nor GPU nothing is done. -/
def Calls (cuda : Bool) (m : Args) (p : Par K) (x : Inputs K R) (st : Status) (a : Arr R) (o : Option (Status × Arr R)) :
    Prop :=
  if check m st ≠ .success then o = some (check m st, a)
  else match m.vis.location with
    | .cpu => o = (degrid (cfgOf WTower.rnd m p x) a).map fun r => (.success, r)
    | .gpu =>
      if cuda = false ∨ threads (cfgOf rne m p x) = [] then o = some (.runtime, a)
      else ∃ l, Launch (thread (cfgOf rne m p x)) (threads (cfgOf rne m p x)) a l ∧ o = l.map fun r => (.success, r)
    | .other => o = some (.success, a)

end Sdp.Custom
