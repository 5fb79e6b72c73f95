import Verif.Tiles.Call
import Verif.Tiles.Props2

/-!
# What the tiled functions should produce

Positions, footprints and tiles of visibilities, numbered by (time, baseline, channel).
-/

namespace Sdp.Tiles
variable {K : Type} [Field K] [LinearOrder K] [FloorRing K]

/-- All visibilities. -/
def every (n : Sizes) : List (Nat × Nat × Nat) := nest3 n.times n.baselines n.channels

/-- Place of a visibility in arrays of shape (times, baselines, channels). -/
def place (n : Sizes) (q : Nat × Nat × Nat) : Nat := (q.1 * n.baselines + q.2.1) * n.channels + q.2.2

/-- Coordinates of a visibility in cells: metres over wavelength, times the number of cells and their size. -/
def posU (p : Par K) (n : Sizes) (x : Inputs K) (q : Nat × Nat × Nat) : K :=
  x.uvw.get ((q.1 * n.baselines + q.2.1) * 3) * (x.freqs.get q.2.2 / 299792458) * (p.gridSize * p.cell)

def posV (p : Par K) (n : Sizes) (x : Inputs K) (q : Nat × Nat × Nat) : K :=
  x.uvw.get ((q.1 * n.baselines + q.2.1) * 3 + 1) * (x.freqs.get q.2.2 / 299792458) * (p.gridSize * p.cell)

/-- Its cell: the nearest one, with the origin of coordinates at the centre of the grid. -/
def column (p : Par K) (n : Sizes) (x : Inputs K) (q : Nat × Nat × Nat) : Int :=
  WTower.rnd (posU p n x q) + p.gridSize / 2

def row (p : Par K) (n : Sizes) (x : Inputs K) (q : Nat × Nat × Nat) : Int :=
  WTower.rnd (posV p n x q) + p.gridSize / 2

/-- The footprint, `support` cells to every side, is inside the grid. -/
def Inside (p : Par K) (n : Sizes) (x : Inputs K) (q : Nat × Nat × Nat) : Prop :=
  (0 ≤ column p n x q - p.support ∧ column p n x q + p.support < p.gridSize) ∧
    0 ≤ row p n x q - p.support ∧ row p n x q + p.support < p.gridSize

/-- The footprint is inside the grid and shares a cell with tile (pu, pv). -/
def Touches (p : Par K) (n : Sizes) (x : Inputs K) (t : Int × Int) (q : Nat × Nat × Nat) : Prop :=
  Inside p n x q ∧ Tiling.Overlaps p.tiling.topU p.tileU p.support (column p n x q) t.1 ∧
    Tiling.Overlaps p.tiling.topV p.tileV p.support (row p n x q) t.2

/-- What the loops on the CPU take instead: in `u`, the tile starts nowhere to the right of the footprint. -/
def Reaches (p : Par K) (n : Sizes) (x : Inputs K) (t : Int × Int) (q : Nat × Nat × Nat) : Prop :=
  Inside p n x q ∧ p.tiling.topU + t.1 * p.tileU ≤ column p n x q + p.support ∧
    Tiling.Overlaps p.tiling.topV p.tileV p.support (row p n x q) t.2

/-- Tile (pu, pv) exists. -/
def Tile (p : Par K) (t : Int × Int) : Prop := (0 ≤ t.1 ∧ t.1 < p.tiling.numU) ∧ 0 ≤ t.2 ∧ t.2 < p.tiling.numV

/-- Its number. -/
def number (p : Par K) (t : Int × Int) : Nat := (t.1 + t.2 * p.tiling.numU).toNat

/-- Visibilities with a property. -/
noncomputable def those (n : Sizes) (P : Nat × Nat × Nat → Prop) : List (Nat × Nat × Nat) :=
  open Classical in (every n).filter fun q => P q

/-- Arrays of coordinates and frequencies have the right sizes. -/
structure Sized (n : Sizes) (x : Inputs K) : Prop where
  uvw : x.uvw.size = n.times * n.baselines * 3
  freqs : x.freqs.size = n.channels

/-- The arrays of tiles have the right sizes: one more offset than tiles. -/
structure Shaped (p : Par K) (s : Counts) : Prop where
  offsets : s.offsets.size = p.tiling.num.toNat + 1
  points : s.points.size = p.tiling.num.toNat
  skipped : s.skipped.size = 1

/-- The counts are right, when `Hits t q` says that visibility `q` belongs to tile `t`: every tile knows how many there
are, offsets are the sums of the counts of the tiles before, the total is reported, and so are the visibilities
outside. -/
structure Counted (p : Par K) (n : Sizes) (x : Inputs K) (Hits : Int × Int → Nat × Nat × Nat → Prop) (s : Counts) :
    Prop where
  shaped : Shaped p s
  points : ∀ t, Tile p t → s.points.get (number p t) = (those n (Hits t)).length
  first : s.offsets.get 0 = 0
  next : ∀ t < p.tiling.num.toNat, s.offsets.get (t + 1) = s.offsets.get t + s.points.get t
  total : s.num = some (s.offsets.get p.tiling.num.toNat)
  skipped : s.skipped.get 0 = (those n fun q => ¬ Inside p n x q).length

/-- Slots of a tile. -/
def slots (p : Par K) (offs : Arr Int) (t : Int × Int) : List Nat :=
  (List.range (offs.get (number p t + 1) - offs.get (number p t)).toNat).map fun i => (offs.get (number p t)).toNat + i

/-- What the sorted arrays hold in slot `j`: coordinates in cells, visibility, weight and tile. -/
def rowAt (s : Out K) (j : Nat) : K × K × K × K × Int :=
  ((s .uu).get j, (s .vv).get j, (s .vis).get j, (s .weight).get j, (s .tile).get j)

/-- What they hold for visibility `q` in tile `t`.  The visibility is one real number of the array of real and imaginary
parts, and visibility and weight are taken as if there were one polarisation: see `C103_sort_vis_false` and
`C103_sort_pols_false`. -/
def rowOf (p : Par K) (n : Sizes) (x : Inputs K) (t : Int × Int) (q : Nat × Nat × Nat) : K × K × K × K × Int :=
  (posU p n x q, posV p n x q, x.vis.get (place n q), x.weights.get (place n q), t.2 * 32768 + t.1)

/-- The same for the indexing call on the GPU: the number of the visibility. -/
def indexAt (s : Out K) (j : Nat) : K × K × Int × Int :=
  ((s .uu).get j, (s .vv).get j, (s .index).get j, (s .tile).get j)

def indexOf (p : Par K) (n : Sizes) (x : Inputs K) (t : Int × Int) (q : Nat × Nat × Nat) : K × K × Int × Int :=
  (posU p n x q, posV p n x q, place n q, t.2 * 32768 + t.1)

/-- What is left besides the slots: nothing is left of what the arrays `cols` held before, and every offset has moved on
to the end of its tile. -/
structure Rest (p : Par K) (cols : List Col) (offs offs' : Arr Int) (s s' : Out K) : Prop where
  sizes : ∀ c, (s' c).size = (s c).size
  beyond : ∀ c ∈ cols, ∀ j : Nat, offs.get p.tiling.num.toNat ≤ j → j < (s c).size → (s' c).get j = 0
  kept : ∀ c, c ∉ cols → s' c = s c
  size : offs'.size = offs.size
  moved : ∀ t < p.tiling.num.toNat, offs'.get t = offs.get (t + 1)
  last : offs'.get p.tiling.num.toNat = offs.get p.tiling.num.toNat

end Sdp.Tiles
