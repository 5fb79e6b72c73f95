import Verif.Python.Array
import Verif.Mem.Spec

/-!
Specification for C118: what NumPy means by an array.  Nothing here refers to
the C library.
-/

namespace Verif.Python.Array

open Sdp (Ptr)
open Sdp.MemSpec (InRange)

/-- Bytes of an element. -/
def DType.itemsize : DType → Nat
  | .int8 => 1
  | .int32 => 4
  | .float32 => 4
  | .float64 => 8
  | .complex64 => 8
  | .complex128 => 16
  | .other n => n

/-- The element types that the library supports. -/
def DType.supported : DType → Prop
  | .other _ => False
  | _ => True

/-- The address of an element. -/
def NdArray.address (a : NdArray) (idx : List Int) : Ptr :=
  ⟨a.data.block, a.data.off + (List.zipWith (· * ·) idx a.strides).sum⟩

/-- What every array satisfies. -/
def NdArray.Valid (a : NdArray) : Prop := a.strides.length = a.shape.length

/-- `flags.c_contiguous` of NumPy: rows after each other, where the stride of an
axis of length one does not matter, and neither do strides of an empty array. -/
def Contiguous (size : Int) (shape : List Nat) (strides : List Int) : Prop :=
  0 ∈ shape ∨ ∀ i (h : i < strides.length), shape[i]? ≠ some 1 →
    strides[i] = size * ((shape.drop (i + 1)).prod : Nat)

end Verif.Python.Array
