import Verif.Clamp.Model

/-!
# W-towers gridding and degridding on one w-plane: model

`/repo/src/ska-sdp-func/grid_data/sdp_gridder_wtower_uvw.cpp` L44-175 (`degrid`) and
L350-483 (`grid`), CPU, status clear.  Coordinates are in any ordered field with a floor,
grid values in any commutative ring; arrays are C-contiguous; `int` overflow is not
modelled.  `none` = access outside an array, or division by zero.  The template type
conversions are identities.
-/

namespace Sdp.WTower
open Sdp.Clamp

variable {K : Type} [Field K] [LinearOrder K] [IsStrictOrderedRing K] [FloorRing K]
variable {R : Type} [CommRing R]

/-- Plan (L19-38): the fields used by the kernels.  `n` is `subgrid_size`. -/
structure Plan (K R : Type) where
  n : Nat
  theta : K
  wStep : K
  support : Nat
  ov : Nat
  wSupport : Nat
  wOv : Nat
  uvKernel : Arr R
  wKernel : Arr R

/-- Visibility coordinates and subgrid position (L46-60). -/
structure Obs (K : Type) where
  c0 : K
  f0 : K
  df : K
  uvw : Arr K
  startChs : Arr Int
  endChs : Arr Int
  numChan : Nat
  offU : Int
  offV : Int
  offW : Int

/-- C's `round`: half-way cases away from zero. -/
def rnd (x : K) : Int := if 0 ≤ x then ⌊x + 1 / 2⌋ else ⌈x - 1 / 2⌉

/-- `uvw0[k]` after scaling and shifting (L105-110, L411-416); `shift` is `subgrid_offset / theta` or
`(subgrid_offset_w + w_plane - 1) * w_step`. -/
def start0 (ob : Obs K) (x shift : K) : K := x * (ob.f0 / ob.c0) - shift

/-- `duvw[k]` (L107, L413). -/
def step0 (ob : Obs K) (x : K) : K := x * (ob.df / ob.c0)

/-- The negated bounds check in one coordinate (L113-121, L419-427). -/
def boundsOk (pl : Plan K R) (u0 du : K) (s e : Int) : Bool :=
  !(decide (⌊pl.theta * (u0 + (s : K) * du)⌋ < -((pl.n / 2 : Nat) : Int)) ||
    decide (((pl.n / 2 : Nat) : Int) ≤ ⌈pl.theta * (u0 + ((e - 1 : Int) : K) * du)⌉))

/-- Channels of row `i` (de)gridded on plane `p` (L90-121, L396-427). -/
def rowSel (pl : Plan K R) (ob : Obs K) (p : Int) (i : Nat) : Option (Int × Int) :=
  (ob.startChs.read i).bind fun s =>
  (ob.endChs.read i).bind fun e =>
  if e ≤ s then some (0, 0) else
  (ob.uvw.read ((3 * i : Nat) : Int)).bind fun u =>
  (ob.uvw.read ((3 * i + 1 : Nat) : Int)).bind fun v =>
  (ob.uvw.read ((3 * i + 2 : Nat) : Int)).bind fun w =>
  (clampInline ob.c0 w ob.f0 ob.df s e (((p + ob.offW - 1 : Int) : K) * pl.wStep)
    (((p + ob.offW : Int) : K) * pl.wStep)).bind fun r =>
  if r.2 ≤ r.1 then some (0, 0) else
  some (if boundsOk pl (start0 ob u (ob.offU / pl.theta)) (step0 ob u) r.1 r.2 &&
    boundsOk pl (start0 ob v (ob.offV / pl.theta)) (step0 ob v) r.1 r.2 then r else (0, 0))

/-- Local coordinates of visibility `(i, c)` (L126-128, L432-434). -/
def coords (pl : Plan K R) (ob : Obs K) (p : Int) (i : Nat) (c : Int) : Option (K × K × K) :=
  (ob.uvw.read ((3 * i : Nat) : Int)).bind fun u =>
  (ob.uvw.read ((3 * i + 1 : Nat) : Int)).bind fun v =>
  (ob.uvw.read ((3 * i + 2 : Nat) : Int)).bind fun w =>
  some (start0 ob u (ob.offU / pl.theta) + (c : K) * step0 ob u,
    start0 ob v (ob.offV / pl.theta) + (c : K) * step0 ob v,
    start0 ob w (((ob.offW + p - 1 : Int) : K) * pl.wStep) + (c : K) * step0 ob w)

/-- Integers locating the kernel (L133-142, L439-453): first pixel and first kernel value in each
direction. -/
structure Cell where
  iu0 : Int
  iv0 : Int
  uOff : Int
  vOff : Int
  wOff : Int

/-- `half_sg_size_ov` (L83, L390). -/
def halfOv (pl : Plan K R) : Int :=
  (((pl.n / 2 : Nat) : Int) - ((pl.support / 2 : Nat) : Int) + 1) * pl.ov

/-- `iu0_ov` (L133-134). -/
def posOv (pl : Plan K R) (u : K) : Int := rnd (u * (pl.theta * pl.ov)) + halfOv pl

/-- L133-142, L439-453.  `/` and `%` truncate towards zero. -/
def cell (pl : Plan K R) (q : K × K × K) : Option Cell :=
  if pl.ov = 0 ∨ pl.wOv = 0 then none else
  let iu0 := posOv pl q.1
  let iv0 := posOv pl q.2.1
  let iw0 := rnd (q.2.2 * (1 / pl.wStep * pl.wOv))
  some
    { iu0 := Int.tdiv iu0 pl.ov
      iv0 := Int.tdiv iv0 pl.ov
      uOff := Int.tmod iu0 pl.ov * pl.support
      vOff := Int.tmod iv0 pl.ov * pl.support
      wOff := Int.tmod iw0 pl.wOv * pl.wSupport }

/-- Position of `subgrids_(k, x, y)`.  A view index outside its dimension is an error even if
it lands inside the allocation. -/
def pix (pl : Plan K R) (k : Nat) (x y : Int) : Option Int :=
  if 0 ≤ x ∧ x < pl.n ∧ 0 ≤ y ∧ y < pl.n then some (index3 pl.n pl.n k x y) else none

/-- Innermost degridding loop (L154-164): `local_vis_v`. -/
def degridV (pl : Plan K R) (cl : Cell) (T : Arr R) (k iu : Nat) : Option R :=
  loop (fun acc (iv : Nat) =>
    (pl.uvKernel.read (cl.vOff + iv)).bind fun kv =>
    (pix pl k (cl.iu0 + iu) (cl.iv0 + iv)).bind fun j =>
    (T.read j).bind fun x => some (acc + kv * x)) 0 (List.range pl.support)

/-- Middle loop (L148-169): `local_vis_u`. -/
def degridU (pl : Plan K R) (cl : Cell) (T : Arr R) (k : Nat) : Option R :=
  loop (fun acc (iu : Nat) =>
    (degridV pl cl T k iu).bind fun x =>
    (pl.uvKernel.read (cl.uOff + iu)).bind fun ku => some (acc + ku * x)) 0
    (List.range pl.support)

/-- Outer loop (L145-171): `local_vis`. -/
def degridVis (pl : Plan K R) (cl : Cell) (T : Arr R) : Option R :=
  loop (fun acc (k : Nat) =>
    (degridU pl cl T k).bind fun x =>
    (pl.wKernel.read (cl.wOff + k)).bind fun kw => some (acc + kw * x)) 0
    (List.range pl.wSupport)

/-- Position of `vis_(i, c)`. -/
def visIdx (ob : Obs K) (i : Nat) (c : Int) : Option Int :=
  if 0 ≤ c ∧ c < ob.numChan then some (index2 ob.numChan i c) else none

/-- One visibility (L124-173). -/
def degridOne (pl : Plan K R) (ob : Obs K) (p : Int) (T : Arr R) (i : Nat) (vis : Arr R)
    (c : Int) : Option (Arr R) :=
  (coords pl ob p i c).bind fun q =>
  (cell pl q).bind fun cl =>
  (degridVis pl cl T).bind fun x =>
  (visIdx ob i c).bind fun j => vis.addAt j x

/-- One row (L87-174). -/
def degridRow (pl : Plan K R) (ob : Obs K) (p : Int) (T : Arr R) (vis : Arr R) (i : Nat) :
    Option (Arr R) :=
  (rowSel pl ob p i).bind fun r => loop (degridOne pl ob p T i) vis (rowsOf r.1 r.2)

/-- `degrid` (L44-175) on tower `T`; `order` are the rows, in the order in which the OpenMP
loop visits them. -/
def degridPlane (pl : Plan K R) (ob : Obs K) (p : Int) (T : Arr R) (order : List Nat)
    (vis : Arr R) : Option (Arr R) :=
  loop (degridRow pl ob p T) vis order

/-- Innermost gridding statement (L475-477) with the products of L459-468. -/
def gridPix (pl : Plan K R) (cl : Cell) (v : R) (T : Arr R) (a : Nat × Nat × Nat) :
    Option (Arr R) :=
  (pl.wKernel.read (cl.wOff + a.1)).bind fun kw =>
  (pl.uvKernel.read (cl.uOff + a.2.1)).bind fun ku =>
  (pl.uvKernel.read (cl.vOff + a.2.2)).bind fun kv =>
  (pix pl a.1 (cl.iu0 + a.2.1) (cl.iv0 + a.2.2)).bind fun j =>
  T.addAt j (kv * (ku * (kw * v)))

/-- One visibility (L430-481).  Simplification: the kernel values are read again for every
pixel. -/
def gridOne (pl : Plan K R) (ob : Obs K) (p : Int) (vis : Arr R) (i : Nat) (T : Arr R)
    (c : Int) : Option (Arr R) :=
  (coords pl ob p i c).bind fun q =>
  (cell pl q).bind fun cl =>
  (visIdx ob i c).bind fun j =>
  (vis.read j).bind fun v =>
  loop (gridPix pl cl v) T (nest3 pl.wSupport pl.support pl.support)

/-- One row (L393-482). -/
def gridRow (pl : Plan K R) (ob : Obs K) (p : Int) (vis : Arr R) (T : Arr R) (i : Nat) :
    Option (Arr R) :=
  (rowSel pl ob p i).bind fun r => loop (gridOne pl ob p vis i) T (rowsOf r.1 r.2)

/-- `grid` (L350-483); the row loop is sequential, `order` is `start_row .. end_row`. -/
def gridPlane (pl : Plan K R) (ob : Obs K) (p : Int) (vis : Arr R) (order : List Nat)
    (T : Arr R) : Option (Arr R) :=
  loop (gridRow pl ob p vis) T order

end Sdp.WTower
