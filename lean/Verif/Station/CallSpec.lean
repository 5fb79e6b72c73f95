import Verif.Station.Call

/-
Specification for C123: which uses of an array are right, and which arguments
lead to right uses only.  Independent of the models of the calls.
-/
namespace Sdp.StationCall

/-- An element of the array `m` is used as what it is: in memory of the place `loc`, where
the computation runs, it exists, without gaps before it, has that type, and is not
protected if it is written. -/
def Right (loc : MemLocation) (m : Mem) (u : Use) : Prop :=
  m.data.isSome = true ∧ m.location = loc ∧ m.isCContiguous = true ∧ m.type = u.type ∧
  0 ≤ u.index ∧ u.index < m.numElements ∧ (u.write = true → m.isReadOnly = false)

/-- All uses are right. -/
def AllRight (loc : MemLocation) (mem : Which → Mem) (l : List Use) : Prop :=
  ∀ u ∈ l, Right loc (mem u.arr) u

/-- An array in a place, of a type, in one piece, with the elements from `lo` up to
(not including) `hi`. -/
def Has (loc : MemLocation) (m : Mem) (t : MemType) (lo hi : Int) : Prop :=
  m.data.isSome = true ∧ m.location = loc ∧ m.isCContiguous = true ∧ m.type = t ∧
  0 ≤ lo ∧ hi ≤ m.numElements

/-- The first and the last of the values of a point that a call computes: of four with two
parts that can be switched off, or of one. -/
def computed (four evalX evalY : Bool) : Option (Int × Int) :=
  match four, evalX, evalY with
  | false, _, _ => some (0, 0)
  | true, true, true => some (0, 3)
  | true, true, false => some (0, 1)
  | true, false, true => some (2, 3)
  | true, false, false => none

/-- The coordinates of the points `off`, …, `off + n - 1`. -/
def PointsFit (loc : MemLocation) (mem : Which → Mem) (real : MemType) (off n : Int) : Prop :=
  Has loc (mem .pointX) real off (off + n) ∧ Has loc (mem .pointY) real off (off + n) ∧
  ((mem .pointZ).data.isSome = true → Has loc (mem .pointZ) real off (off + n))

/-- Coordinates and weights of `k` elements. -/
def ElementsFit (loc : MemLocation) (mem : Which → Mem) (real cplx : MemType) (k : Int) : Prop :=
  Has loc (mem .x) real 0 k ∧ Has loc (mem .y) real 0 k ∧ Has loc (mem .z) real 0 k ∧
  Has loc (mem .weights) cplx 0 k

/-- The computed values of the `n` positions from `start` on, `p` for each position. -/
def RowFits (loc : MemLocation) (m : Mem) (cplx : MemType) (p start n : Int)
    (part : Option (Int × Int)) : Prop :=
  ∀ first last, part = some (first, last) →
    Has loc m cplx (p * start + first) (p * (start + n - 1) + last + 1)

/-- The arrays of a call of `n > 0` points on one place hold what it uses; `loads` says
whether the index array is read although there are no element beams. -/
def Fits (loc : MemLocation) (a : Args) (loads : Bool) (real cplx : MemType) : Prop :=
  PointsFit loc a.mem real a.offPoints a.n ∧
  (0 < a.numIn →
    ElementsFit loc a.mem real cplx a.numIn ∧
    ((a.mem .index).data.isSome = true → (loads = true ∨ (a.mem .data).data.isSome = true) →
      Has loc (a.mem .index) .int 0 a.numIn) ∧
    ((a.mem .data).data.isSome = true → ∀ i, 0 ≤ i → i < a.numIn →
      RowFits loc (a.mem .data) cplx (if (a.mem .out).queryComplex4 then 4 else 1)
        ((if (a.mem .index).data.isSome then a.value i else i) * a.n) a.n
        (computed (a.mem .out).queryComplex4 a.evalX a.evalY))) ∧
  RowFits loc (a.mem .out) cplx (if (a.mem .out).queryComplex4 then 4 else 1) a.offOut a.n
    (computed (a.mem .out).queryComplex4 a.evalX a.evalY) ∧
  (computed (a.mem .out).queryComplex4 a.evalX a.evalY ≠ none → (a.mem .out).isReadOnly = false)

/-- The types of the arguments are not what the function expects. -/
def BadTypes (a : Args) : Prop :=
  (a.mem .weights).queryComplex = false ∨
  ((a.mem .data).data.isSome = true ∧ (a.mem .data).queryComplex = false) ∨
  ((a.mem .index).data.isSome = true ∧ (a.mem .index).type ≠ .int) ∨
  (a.mem .out).queryComplex = false ∨
  ((a.mem .x).type ≠ .float ∧ (a.mem .x).type ≠ .double)

end Sdp.StationCall
