import Mathlib.Algebra.BigOperators.Group.List.Basic
import Verif.DataModel.Props
import Verif.Common.Loops

/-!
# Descriptors and their data

What a function may rely on about the data behind an array descriptor.
-/

namespace Sdp

/-- The array `a` is the data of a descriptor: its extents are not negative and it has as many values
as their product (the numbers of values of a C-contiguous array, see C01 and C02). -/
structure Holds {α : Type} (m : Mem) (a : Arr α) : Prop where
  dims : m.shape.length = m.numDims
  nonneg : ∀ n ∈ m.shape, 0 ≤ n
  size : (a.size : Int) = m.shape.prod

theorem HasShape.eq {m : Mem} {dims : List Int} (h : HasShape m dims) (hd : m.shape.length = m.numDims) :
    m.shape = dims := by
  apply List.ext_getElem
  · rw [hd, h.1]
  · intro i h1 h2
    have := h.2 i h2
    simpa [List.getD, List.getElem?_eq_getElem h1, List.getElem?_eq_getElem h2] using this

/-- Data of a descriptor of a known shape. -/
theorem Holds.of_shape {α : Type} {m : Mem} {a : Arr α} (h : Holds m a) {dims : List Int}
    (hs : HasShape m dims) : (∀ n ∈ dims, 0 ≤ n) ∧ (a.size : Int) = dims.prod := by
  have e := hs.eq h.dims
  exact ⟨e ▸ h.nonneg, e ▸ h.size⟩

theorem checkWriteable_iff (m : Mem) (st : Status) :
    checkWriteable m st = .success ↔ st = .success ∧ m.data ≠ none ∧ m.isReadOnly = false :=
  Check.run_success_iff (.writeable m) st

/-- What the metadata query returns when it succeeds. -/
theorem meta_ok (w : DWant) (hw : w.location = true ∧ w.numTimes = true ∧ w.numBaselines = true ∧
      w.numChannels = true ∧ w.numPols = true) (v : Mem) (st : Status)
    (h : (getVisMetadata w v st).2 = .success) :
    (getVisMetadata w v st).1.location.getD .cpu = v.location ∧
      (getVisMetadata w v st).1.numTimes.getD 0 = v.shapeDim 0 ∧
      (getVisMetadata w v st).1.numBaselines.getD 0 = v.shapeDim 1 ∧
      (getVisMetadata w v st).1.numChannels.getD 0 = v.shapeDim 2 ∧
      (getVisMetadata w v st).1.numPols.getD 0 = v.shapeDim 3 := by
  obtain ⟨h1, h2⟩ := C09_vis_metadata w v st
  obtain ⟨-, -, -, hd, -⟩ := h1.1 h
  obtain ⟨-, q1, q2, q3, q4, q5⟩ := h2 h
  rw [q1 hw.1, q2 hw.2.1, q3 hw.2.2.1, q4 hw.2.2.2.1, q5 hw.2.2.2.2]
  have s0 := shapeDim_lt v 0 (by omega)
  have s1 := shapeDim_lt v 1 (by omega)
  have s2 := shapeDim_lt v 2 (by omega)
  have s3 := shapeDim_lt v 3 (by omega)
  simp only [Nat.cast_zero, Nat.cast_one, Nat.cast_ofNat] at s0 s1 s2 s3
  rw [s0, s1, s2, s3]
  exact ⟨rfl, rfl, rfl, rfl, rfl⟩

/-- Wrapper of given data for a shape. -/
def wrap (t : MemType) (shape : List Int) : Mem := (createWrapper (some ⟨0, 0⟩) t .cpu shape none .success).1

end Sdp
