import Verif.Width.Fill
import Mathlib.Logic.Function.Iterate

/-
Specification for C121, without the models: where the elements of an array are,
and what accessing positions one after the other makes of the memory.
-/
namespace Sdp.Width

/-- `p` is the position of an element of an array with these dimensions (size and
stride). -/
def IsElement : List (Nat × Int) → Int → Prop
  | [], p => p = 0
  | (n, s) :: rest, p => ∃ i q, i < n ∧ IsElement rest q ∧ p = s * (i : Int) + q

/-- The memory after each access replaced `x` by `f x`. -/
def effect {α : Type} (f : α → α) (t : List Acc) (mem : Int → α) : Int → α :=
  t.foldl (fun m a p => if p = a.2 then f (m p) else m p) mem

/-- How many elements there are. -/
def count : List (Nat × Int) → Nat
  | [] => 1
  | d :: rest => d.1 * count rest

/-- The strides of an array without gaps, last dimension fastest. -/
def NoGaps : List (Nat × Int) → Prop
  | [] => True
  | d :: rest => d.2 = (count rest : Int) ∧ NoGaps rest

/-- Strides and the positions of all elements fit an `int64_t`. -/
def Addressable (dims : List (Nat × Int)) : Prop :=
  (∀ d ∈ dims, -9223372036854775808 ≤ d.2 ∧ d.2 ≤ 9223372036854775807) ∧
  ∀ p, IsElement dims p → -9223372036854775808 ≤ p ∧ p ≤ 9223372036854775807

/-- Arrays that sdp_mem_set_value is documented to fill. -/
def Fillable (b : Target) : Prop :=
  b.readOnly = false ∧ b.elem ≠ .char ∧ 1 ≤ b.dims.length ∧ b.dims.length ≤ 3

/-- Arrays that sdp_mem_scale_real is documented to scale. -/
def Scalable (b : Target) : Prop :=
  b.contiguous = true ∧ b.elem ≠ .char ∧ b.elem ≠ .int

/-- The real numbers in an element. -/
def reals : Elem → Nat
  | .complexFloat | .complexDouble => 2
  | _ => 1

/-- The type of these real numbers. -/
def realType : Elem → Elem
  | .complexFloat => .float
  | .complexDouble => .double
  | e => e

end Sdp.Width
