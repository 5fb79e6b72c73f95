import Mathlib.Tactic.Common

/-!
# Bounds-checked arrays used by the models

A C buffer of `size` elements.  Reads and writes outside `[0, size)` give `none`,
which stands for undefined behaviour.
-/

namespace Sdp

structure Arr (α : Type) where
  size : Nat
  get : Nat → α

namespace Arr
variable {α : Type}

/-- `a[i]`. -/
def read (a : Arr α) (i : Int) : Option α :=
  if 0 ≤ i ∧ i < a.size then some (a.get i.toNat) else none

/-- Contents after `a[i] = v` with `i` known to be in range. -/
def put (a : Arr α) (i : Nat) (v : α) : Arr α :=
  ⟨a.size, fun k => if k = i then v else a.get k⟩

/-- `a[i] = v`. -/
def write (a : Arr α) (i : Int) (v : α) : Option (Arr α) :=
  if 0 ≤ i ∧ i < a.size then some (a.put i.toNat v) else none

@[simp] theorem put_size (a : Arr α) (i : Nat) (v : α) : (a.put i v).size = a.size := rfl

theorem put_get (a : Arr α) (i k : Nat) (v : α) :
    (a.put i v).get k = if k = i then v else a.get k := rfl

theorem read_nat (a : Arr α) (i : Nat) :
    a.read i = if i < a.size then some (a.get i) else none := by
  unfold read
  by_cases h : i < a.size
  · rw [if_pos ⟨by omega, by omega⟩, if_pos h]; simp
  · rw [if_neg (by omega), if_neg h]

theorem write_nat (a : Arr α) (i : Nat) (v : α) :
    a.write i v = if i < a.size then some (a.put i v) else none := by
  unfold write
  by_cases h : i < a.size
  · rw [if_pos ⟨by omega, by omega⟩, if_pos h]; simp
  · rw [if_neg (by omega), if_neg h]

theorem read_some {a : Arr α} {i : Int} {v : α} (h : a.read i = some v) :
    0 ≤ i ∧ i < a.size ∧ v = a.get i.toNat := by
  unfold read at h
  split at h
  · rename_i hh; simp at h; exact ⟨hh.1, hh.2, h.symm⟩
  · simp at h

theorem write_some {a b : Arr α} {i : Int} {v : α} (h : a.write i v = some b) :
    0 ≤ i ∧ i < a.size ∧ b = a.put i.toNat v := by
  unfold write at h
  split at h
  · rename_i hh; simp at h; exact ⟨hh.1, hh.2, h.symm⟩
  · simp at h

end Arr
end Sdp
