import Verif.Direct.Call
import Verif.Direct.Props
import Verif.Direct.Pipeline
import Verif.GridUtil.ScaleProps
import Verif.GridUtil.KernelProps

/-!
# C111: what calls of the direct gridder are to do
-/

namespace Sdp.Direct
open Sdp.Race Sdp.GridUtil
noncomputable section

/-- Where the values of the arguments are: element `(i, j)` of an array is value number `pos i j` behind it. -/
structure Places where
  uvw : Nat → Nat → Nat
  start : Nat → Nat
  stop : Nat → Nat
  flux : Nat → Nat
  lmn : Nat → Nat → Nat
  taper : Nat → Nat
  vis : Nat → Nat → Nat
  image : Nat → Nat → Nat

/-- A row takes part unless both channel arrays are given and its range is empty. -/
def Coords.Takes (q : Coords) (P : Places) (i : Nat) : Prop :=
  ∀ s e, q.startChs = some s → q.endChs = some e → s.buf.get (P.start i) < e.buf.get (P.stop i)

/-- Centre of the subgrid in wavelengths: `1 / theta` per pixel in u and v, `w_step` per plane in w; the origin if the field
size is not positive. -/
def Coords.centre (q : Coords) : ℝ × ℝ × ℝ :=
  if q.theta ≤ 0 then 0 else ((q.offU : ℝ) * q.theta⁻¹, (q.offV : ℝ) * q.theta⁻¹, (q.offW : ℝ) * q.wStep)

/-- Coordinates of a visibility in wavelengths, relative to the subgrid: metres times frequency over the speed of light. -/
def Coords.at (q : Coords) (P : Places) (i c : Nat) : ℝ × ℝ × ℝ :=
  let k := (q.f0 + q.df * c) / 299792458
  (q.uvw.buf.get (P.uvw i 0) * k - q.centre.1, q.uvw.buf.get (P.uvw i 1) * k - q.centre.2.1,
    q.uvw.buf.get (P.uvw i 2) * k - q.centre.2.2)

/-- The coordinates as a plan sees them: with the field size and the w step of the plan, not those of the arguments. -/
def Plan.sees (pl : Plan) (q : Coords) : Coords where
  uvw := q.uvw
  startChs := q.startChs
  endChs := q.endChs
  offU := q.offU
  offV := q.offV
  offW := q.offW
  theta := pl.geo.theta
  wStep := pl.wStep
  f0 := q.f0
  df := q.df

/-- Direction `s`. -/
def dirAt (lmn : Arr ℝ) (P : Places) (s : Nat) : ℝ × ℝ × ℝ :=
  (lmn.get (P.lmn s 0), lmn.get (P.lmn s 1), lmn.get (P.lmn s 2))

/-- Factor of pixel `(a, b)`: the product of the window at `a` and `b`. -/
def taperAtPixel (taper : Option (Data ℝ)) (P : Places) (a b : Nat) : ℝ :=
  match taper with
  | none => 1
  | some t => t.buf.get (P.taper a) * t.buf.get (P.taper b)

/-- Coordinates and channel ranges of `nu` rows. -/
structure CoordsOk (q : Coords) (l : MemLocation) (t : MemType) (P : Places) (nu : Nat) : Prop where
  type : q.uvw.mem.type = t
  loc : q.uvw.mem.location = l
  uvw : Plane q.uvw.mem q.uvw.buf.size nu 3 P.uvw
  chs : ∀ s e, q.startChs = some s → q.endChs = some e → (s.mem.type = .int ∧ s.mem.location = l ∧
    ∃ k, nu ≤ k ∧ Window s.mem s.buf.size k P.start) ∧ (e.mem.type = .int ∧ e.mem.location = l ∧
    ∃ k, nu ≤ k ∧ Window e.mem e.buf.size k P.stop)

/-- Directions of at least `n` points. -/
structure LmnOk (lmn : Data ℝ) (loc : MemLocation) (t : MemType) (P : Places) (n : Nat) : Prop where
  type : lmn.mem.type = t
  loc : lmn.mem.location = loc
  plane : ∃ k, n ≤ k ∧ Plane lmn.mem lmn.buf.size k 3 P.lmn

/-- A window that covers `n` pixels, if one is given. -/
def WindowOk (taper : Option (Data ℝ)) (loc : MemLocation) (P : Places) (n : Nat) : Prop :=
  ∀ t, taper = some t → t.mem.type = .double ∧ t.mem.location = loc ∧ ∃ k, n ≤ k ∧ Window t.mem t.buf.size k P.taper

/-- Fluxes of `n` points. -/
structure FluxOk (fx : Data ℝ) (P : Places) (n : Nat) : Prop where
  type : fx.mem.type = .double
  loc : fx.mem.location = .cpu
  line : Window fx.mem fx.buf.size n P.flux

/-- An array of two dimensions that can be changed. -/
structure Open (m : Mem) (loc : MemLocation) (t : MemType) (size n0 n1 : Nat) (pos : Nat → Nat → Nat) : Prop where
  type : m.type = t
  loc : m.location = loc
  data : m.data ≠ none
  writeable : m.isReadOnly = false
  plane : Plane m size n0 n1 pos
  distinct : Distinct n0 n1 pos

end
end Sdp.Direct
