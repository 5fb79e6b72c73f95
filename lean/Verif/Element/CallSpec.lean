import Verif.Element.Call

/-
Specification for C122: which uses of an array are right, and which arguments
lead to right uses only.  Independent of the models of the calls.
-/
namespace Sdp.BeamCall

/-- An element of the array `m` is used as what it is: it exists, without gaps before
it, has that type, and is not protected if it is written. -/
def Right (m : Mem) (u : Use) : Prop :=
  m.data.isSome = true ∧ m.isCContiguous = true ∧ m.type = u.type ∧
  0 ≤ u.index ∧ u.index < m.numElements ∧ (u.write = true → m.isReadOnly = false)

/-- All uses are right. -/
def AllRight (arrays : Which → Mem) (l : List Use) : Prop := ∀ u ∈ l, Right (arrays u.arr) u

/-- An array with at least `n` elements of a type, in one piece. -/
def Has (m : Mem) (t : MemType) (n : Int) : Prop :=
  m.data.isSome = true ∧ m.isCContiguous = true ∧ m.type = t ∧ n ≤ m.numElements

/-- The values of all `n` points lie in the beam array: `p` of them at
`i * stride + off`. -/
def BeamFits (beam : Mem) (n stride off p : Int) : Prop :=
  beam.data.isSome = true ∧ beam.isCContiguous = true ∧ beam.isReadOnly = false ∧
  0 ≤ off ∧ off + p ≤ beam.numElements ∧
  0 ≤ (n - 1) * stride + off ∧ (n - 1) * stride + off + p ≤ beam.numElements

end Sdp.BeamCall
