import Mathlib.Algebra.BigOperators.Ring.Finset
import Verif.Clamp.Spec
import Verif.WTower.Model

/-!
# W-towers kernels: specification

Which visibilities are (de)gridded on a plane, and with which kernel weights.  Only the data
types of the model, C's `round` and the specification of the channel clamp (C34) are used.
-/

namespace Sdp.WTower
open Sdp.Clamp Finset

variable {K : Type} [Field K] [LinearOrder K] [IsStrictOrderedRing K] [FloorRing K]
variable {R : Type} [CommRing R]

/-- Frequency of channel `c` over the speed of light. -/
def invLambda (ob : Obs K) (c : Int) : K := (ob.f0 + ob.df * c) / ob.c0

/-- `u` of visibility `(i, c)` in wavelengths, from the subgrid centre. -/
def uAt (pl : Plan K R) (ob : Obs K) (i : Nat) (c : Int) : K :=
  invLambda ob c * ob.uvw.get (3 * i) - ob.offU / pl.theta

def vAt (pl : Plan K R) (ob : Obs K) (i : Nat) (c : Int) : K :=
  invLambda ob c * ob.uvw.get (3 * i + 1) - ob.offV / pl.theta

/-- `w` of visibility `(i, c)` in wavelengths, from the lower end of w-plane `p`. -/
def wAt (pl : Plan K R) (ob : Obs K) (p : Int) (i : Nat) (c : Int) : K :=
  invLambda ob c * ob.uvw.get (3 * i + 2) - (ob.offW + p - 1) * pl.wStep

/-- Visibility `(i, c)` is in the channel ranges and its w lies on plane `p`. -/
def OnPlane (pl : Plan K R) (ob : Obs K) (p : Int) (i : Nat) (c : Int) : Prop :=
  ob.startChs.get i ≤ c ∧ c < ob.endChs.get i ∧
    Sel (ob.f0 * ob.uvw.get (3 * i + 2) / ob.c0) (ob.df * ob.uvw.get (3 * i + 2) / ob.c0)
      ((p + ob.offW - 1) * pl.wStep) ((p + ob.offW) * pl.wStep) c

/-- The coordinate test: coordinate of the lowest selected channel not below the subgrid, of
the highest not above. -/
def EdgeOk (pl : Plan K R) (a b : K) : Prop :=
  -((pl.n / 2 : Nat) : Int) ≤ ⌊pl.theta * a⌋ ∧ ⌈pl.theta * b⌉ < ((pl.n / 2 : Nat) : Int)

/-- Visibility `(i, c)` is (de)gridded on plane `p`: it is on the plane, and the lowest and
highest channels `a`, `b` of the row on the plane pass the test. -/
def Used (pl : Plan K R) (ob : Obs K) (p : Int) (i : Nat) (c : Int) : Prop :=
  OnPlane pl ob p i c ∧ ∃ a b : Int, OnPlane pl ob p i a ∧ OnPlane pl ob p i b ∧
    (∀ d, OnPlane pl ob p i d → a ≤ d ∧ d ≤ b) ∧
    EdgeOk pl (uAt pl ob i a) (uAt pl ob i b) ∧ EdgeOk pl (vAt pl ob i a) (vAt pl ob i b)

/-- Oversampled position of the first kernel value for a coordinate `u`, in units of
`1 / ov` pixels. -/
def pos (pl : Plan K R) (u : K) : Int :=
  rnd (pl.theta * pl.ov * u) +
    (((pl.n / 2 : Nat) : Int) - ((pl.support / 2 : Nat) : Int) + 1) * pl.ov

/-- uv kernel value on pixel `x`: table row `pos mod ov`, first pixel `pos div ov`. -/
def tapAt (pl : Plan K R) (u : K) (x : Nat) : R :=
  if pos pl u / pl.ov ≤ x ∧ (x : Int) < pos pl u / pl.ov + pl.support then
    pl.uvKernel.get (pl.support * (pos pl u % pl.ov) + (x - pos pl u / pl.ov)).toNat
  else 0

/-- w kernel value of layer `k`: table row `round (ov w / step) mod ov`. -/
def wTapAt (pl : Plan K R) (w : K) (k : Nat) : R :=
  pl.wKernel.get (pl.wSupport * (rnd (w / pl.wStep * pl.wOv) % pl.wOv) + k).toNat

/-- Weight of tower pixel `(k, x, y)` in visibility `(i, c)`. -/
def wt (pl : Plan K R) (ob : Obs K) (p : Int) (i : Nat) (c : Int) (k x y : Nat) : R :=
  wTapAt pl (wAt pl ob p i c) k * tapAt pl (uAt pl ob i c) x * tapAt pl (vAt pl ob i c) y

/-- The kernel footprint of `u` is inside the subgrid. -/
def InGrid (pl : Plan K R) (u : K) : Prop :=
  0 ≤ pos pl u ∧ pos pl u < ((pl.n : Int) - pl.support + 1) * pl.ov

/-- The footprint of visibility `(i, c)` is inside the tower. -/
def Fits (pl : Plan K R) (ob : Obs K) (p : Int) (i : Nat) (c : Int) : Prop :=
  InGrid pl (uAt pl ob i c) ∧ InGrid pl (vAt pl ob i c) ∧
    0 ≤ rnd (wAt pl ob p i c / pl.wStep * pl.wOv)

/-- A plan as made by `sdp_gridder_wtower_uvw_create` (L660-723): kernel tables with one row
per oversampling step and one more. -/
structure Plan.Made (pl : Plan K R) : Prop where
  ov : 0 < pl.ov
  wOv : 0 < pl.wOv
  uv : pl.uvKernel.size = (pl.ov + 1) * pl.support
  w : pl.wKernel.size = (pl.wOv + 1) * pl.wSupport
  support : pl.support ≤ pl.n

/-- Array shapes of a call: `m` rows; non-empty channel ranges are within the visibility array. -/
structure Obs.Made (ob : Obs K) (m : Nat) : Prop where
  uvw : ob.uvw.size = m * 3
  s : ob.startChs.size = m
  e : ob.endChs.size = m
  lo : ∀ i : Nat, i < m → ob.startChs.get i < ob.endChs.get i → 0 ≤ ob.startChs.get i
  hi : ∀ i : Nat, i < m → ob.startChs.get i < ob.endChs.get i → ob.endChs.get i ≤ ob.numChan

open Classical in
/-- Degridded value of `(i, c)` from tower `T`; 0 if not on the plane. -/
noncomputable def degridSum (pl : Plan K R) (ob : Obs K) (p : Int) (T : Nat → Nat → Nat → R)
    (i c : Nat) : R :=
  if Used pl ob p i c then
    ∑ k ∈ range pl.wSupport, ∑ x ∈ range pl.n, ∑ y ∈ range pl.n,
      wt pl ob p i c k x y * T k x y
  else 0

open Classical in
/-- Gridded value of tower pixel `(k, x, y)` from the visibilities `v` of `rows`. -/
noncomputable def gridSum (pl : Plan K R) (ob : Obs K) (p : Int) (rows : List Nat)
    (v : Nat → Nat → R) (k x y : Nat) : R :=
  (rows.map fun i => ∑ c ∈ range ob.numChan,
    if Used pl ob p i c then wt pl ob p i c k x y * v i c else 0).sum

/-- Tower pixel `(k, x, y)`. -/
def tower (pl : Plan K R) (T : Arr R) (k x y : Nat) : R := T.get ((k * pl.n + x) * pl.n + y)

/-- Visibility `(i, c)`. -/
def visAt (ob : Obs K) (v : Arr R) (i c : Nat) : R := v.get (i * ob.numChan + c)

end Sdp.WTower
