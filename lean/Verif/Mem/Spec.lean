import Mathlib.Algebra.BigOperators.Group.List.Basic
import Mathlib.Algebra.Ring.Int.Defs
import Mathlib.Tactic.Ring
import Mathlib.Tactic.Linarith

/-!
Independent vocabulary for the array properties C01–C08.  Nothing here refers
to the model of the code.
-/

namespace Sdp.MemSpec

/-- `stride` is the row-major layout of `shape` for elements of `esz` bytes. -/
def RowMajor (esz : Int) (shape stride : List Int) : Prop :=
  stride.length = shape.length ∧
  ∀ i (h : i < stride.length), stride[i] = esz * (shape.drop (i + 1)).prod

/-- `idx` is a multi-index of an array of this shape. -/
def InRange (idx shape : List Int) : Prop :=
  List.Forall₂ (fun i n => 0 ≤ i ∧ i < n) idx shape

/-- Byte offset of a multi-index, relative to the first element. -/
def byteAddr (idx stride : List Int) : Int :=
  (List.zipWith (· * ·) idx stride).sum

/-- Row-major rank of a multi-index among all multi-indices of the shape. -/
def flatIndex : List Int → List Int → Int
  | i :: is, _ :: ns => i * ns.prod + flatIndex is ns
  | _, _ => 0

end Sdp.MemSpec
