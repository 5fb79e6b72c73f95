import Verif.Swiftly.CallRows

/-! # C110: refused calls change nothing -/

namespace Sdp.Swiftly
open Sdp.Fft Sdp.GridUtil
noncomputable section

/-- An array a function can read: two dimensions of complex numbers in host memory. -/
def Readable (m : Mem) : Prop := m.type = .complexDouble ∧ m.numDims = 2 ∧ m.location = .cpu

/-- ... and write. -/
def Writeable (m : Mem) : Prop := Readable m ∧ m.data ≠ none ∧ m.isReadOnly = false

theorem const_iff (m : Mem) (st : Sdp.Status) :
    (checkAndViewConst m .complexDouble 2 .cpu st).2 = .success ↔ st = .success ∧ Readable m := by
  rw [viewConst_status]
  unfold Readable
  constructor
  · rintro ⟨h1, h2, h3, h4⟩
    exact ⟨h1, h2, by simpa using h3, h4⟩
  · rintro ⟨h1, h2, h3, h4⟩
    exact ⟨h1, h2, by simpa using h3, h4⟩

theorem view_iff (m : Mem) (st : Sdp.Status) :
    (checkAndView m .complexDouble 2 .cpu st).2 = .success ↔ st = .success ∧ Writeable m := by
  rw [view_status]
  unfold Writeable Readable
  constructor
  · rintro ⟨h1, h2, h3, h4, h5, h6⟩
    exact ⟨h1, ⟨h2, by simpa using h3, h4⟩, h5, h6⟩
  · rintro ⟨h1, ⟨h2, h3, h4⟩, h5, h6⟩
    exact ⟨h1, h2, by simpa using h3, h4, h5, h6⟩

theorem dim_iff (m : Mem) (d x : Int) (st : Sdp.Status) :
    checkShapeDim m d x st = .success ↔ st = .success ∧ d < m.numDims ∧ m.shapeDim d = x := by
  unfold checkShapeDim
  by_cases h1 : st = .success
  · rw [if_neg (by simp [h1])]
    by_cases h2 : (m.numDims : Int) ≤ d
    · rw [if_pos h2]
      constructor
      · intro h
        cases h
      · intro h
        omega
    · rw [if_neg h2]
      by_cases h3 : m.shapeDim d = x
      · rw [if_neg (by simp [h3])]
        exact ⟨fun h => ⟨h, by omega, h3⟩, fun h => h.1⟩
      · rw [if_pos h3]
        constructor
        · intro h
          cases h
        · intro h
          exact absurd h.2.2 h3
  · rw [if_pos h1]
    exact ⟨fun h => absurd h h1, fun h => absurd h.1 h1⟩

theorem same_iff (m m2 : Mem) (d d2 : Int) (st : Sdp.Status) :
    checkSameShape m d m2 d2 st = .success ↔ st = .success ∧ ¬ (d < m.numDims ∧ d2 < m2.numDims ∧ m.shapeDim d ≠ m2.shapeDim d2) := by
  unfold checkSameShape
  by_cases h : d < m.numDims ∧ d2 < m2.numDims ∧ m.shapeDim d ≠ m2.shapeDim d2
  · rw [if_pos h]
    constructor
    · intro h
      cases h
    · intro h'
      exact absurd h h'.2
  · rw [if_neg h]
    exact ⟨fun h' => ⟨h', h⟩, fun h' => h'.1⟩

theorem size_iff (m : Mem) (x : Int) (st : Sdp.Status) :
    sizeCheck m x st = .success ↔ st = .success ∧ ¬ ((1 : Int) < m.numDims ∧ x < m.shapeDim 1) := by
  unfold sizeCheck
  by_cases h : (1 : Int) < m.numDims ∧ x < m.shapeDim 1
  · rw [if_pos h]
    constructor
    · intro h
      cases h
    · intro h'
      exact absurd h h'.2
  · rw [if_neg h]
    exact ⟨fun h' => ⟨h', h⟩, fun h' => h'.1⟩

theorem same_rows {m m2 : Mem} (h1 : m.numDims = 2) (h2 : m2.numDims = 2)
    (h : ¬ ((0 : Int) < m.numDims ∧ (0 : Int) < m2.numDims ∧ m.shapeDim 0 ≠ m2.shapeDim 0)) : m.shapeDim 0 = m2.shapeDim 0 := by
  by_contra hn
  exact h ⟨by omega, by omega, hn⟩

section Calls
variable (c : Cfg) (Fb Fn : Arr ℝ) (mi mo : Mem) (o : Int) (st : Sdp.Status) (src out : Arr ℂ)

/-- **C110, refused.**  `prepare_facet` after an error, or with an array of another type, shape, location or access, or with more
facet than fits, returns an error and leaves its output alone. -/
theorem C110_prepare_facet_refused (h : ¬ (st = .success ∧ Readable mi ∧ Writeable mo ∧ mi.shapeDim 1 ≤ c.yN ∧
    mo.shapeDim 1 = c.yN ∧ mi.shapeDim 0 = mo.shapeDim 0)) :
    ∃ s, s ≠ Sdp.Status.success ∧ prepareFacetCall c Fb mi mo o st src out = some (s, out) := by
  unfold prepareFacetCall
  by_cases h0 : st = .success
  · rw [if_neg (by simp [h0])]
    simp only
    by_cases h1 : checkSameShape mi 0 mo 0 (checkShapeDim mo 1 c.yN (checkAndView mo .complexDouble 2 .cpu
        (checkAndViewConst mi .complexDouble 2 .cpu (sizeCheck mi c.yN st)).2).2) = .success
    · exfalso
      rw [same_iff, dim_iff, view_iff, const_iff, size_iff] at h1
      obtain ⟨⟨⟨⟨⟨_, a1⟩, a2⟩, a3⟩, a4⟩, a5⟩ := h1
      have := a2.2.1
      exact h ⟨h0, a2, a3, by by_contra hn; exact a1 ⟨by omega, by omega⟩, a4.2, same_rows a2.2.1 a3.1.2.1 a5⟩
    · rw [if_pos h1]
      exact ⟨_, h1, rfl⟩
  · rw [if_pos h0]
    exact ⟨st, h0, rfl⟩

theorem C110_extract_from_facet_refused (h : ¬ (st = .success ∧ Readable mi ∧ Writeable mo ∧ mi.shapeDim 1 = c.yN ∧
    mo.shapeDim 1 = c.m ∧ mi.shapeDim 0 = mo.shapeDim 0)) :
    ∃ s, s ≠ Sdp.Status.success ∧ extractFromFacetCall c mi mo o st src out = some (s, out) := by
  unfold extractFromFacetCall
  by_cases h0 : st = .success
  · rw [if_neg (by simp [h0])]
    simp only
    by_cases h1 : checkSameShape mi 0 mo 0 (checkShapeDim mo 1 c.m (checkAndView mo .complexDouble 2 .cpu
        (checkShapeDim mi 1 c.yN (checkAndViewConst mi .complexDouble 2 .cpu st).2)).2) = .success
    · exfalso
      rw [same_iff, dim_iff, view_iff, dim_iff, const_iff] at h1
      obtain ⟨⟨⟨⟨⟨_, a2⟩, a1⟩, a3⟩, a4⟩, a5⟩ := h1
      exact h ⟨h0, a2, a3, a1.2, a4.2, same_rows a2.2.1 a3.1.2.1 a5⟩
    · rw [if_pos h1]
      exact ⟨_, h1, rfl⟩
  · rw [if_pos h0]
    exact ⟨st, h0, rfl⟩

theorem C110_add_to_subgrid_refused (h : ¬ (st = .success ∧ Readable mi ∧ Writeable mo ∧ mi.shapeDim 1 = c.m ∧
    mo.shapeDim 1 = c.xM ∧ mi.shapeDim 0 = mo.shapeDim 0)) :
    ∃ s, s ≠ Sdp.Status.success ∧ addToSubgridCall c Fn mi mo o st src out = some (s, out) := by
  unfold addToSubgridCall
  by_cases h0 : st = .success
  · rw [if_neg (by simp [h0])]
    simp only
    by_cases h1 : checkSameShape mi 0 mo 0 (checkShapeDim mo 1 c.xM (checkAndView mo .complexDouble 2 .cpu
        (checkShapeDim mi 1 c.m (checkAndViewConst mi .complexDouble 2 .cpu st).2)).2) = .success
    · exfalso
      rw [same_iff, dim_iff, view_iff, dim_iff, const_iff] at h1
      obtain ⟨⟨⟨⟨⟨_, a2⟩, a1⟩, a3⟩, a4⟩, a5⟩ := h1
      exact h ⟨h0, a2, a3, a1.2, a4.2, same_rows a2.2.1 a3.1.2.1 a5⟩
    · rw [if_pos h1]
      exact ⟨_, h1, rfl⟩
  · rw [if_pos h0]
    exact ⟨st, h0, rfl⟩

theorem C110_extract_from_subgrid_refused (h : ¬ (st = .success ∧ Readable mi ∧ Writeable mo ∧ mi.shapeDim 1 = c.xM ∧
    mo.shapeDim 1 = c.m ∧ mi.shapeDim 0 = mo.shapeDim 0)) :
    ∃ s, s ≠ Sdp.Status.success ∧ extractFromSubgridCall c Fn mi mo o st src out = some (s, out) := by
  unfold extractFromSubgridCall
  by_cases h0 : st = .success
  · rw [if_neg (by simp [h0])]
    simp only
    by_cases h1 : checkSameShape mi 0 mo 0 (checkShapeDim mo 1 c.m (checkAndView mo .complexDouble 2 .cpu
        (checkShapeDim mi 1 c.xM (checkAndViewConst mi .complexDouble 2 .cpu st).2)).2) = .success
    · exfalso
      rw [same_iff, dim_iff, view_iff, dim_iff, const_iff] at h1
      obtain ⟨⟨⟨⟨⟨_, a2⟩, a1⟩, a3⟩, a4⟩, a5⟩ := h1
      exact h ⟨h0, a2, a3, a1.2, a4.2, same_rows a2.2.1 a3.1.2.1 a5⟩
    · rw [if_pos h1]
      exact ⟨_, h1, rfl⟩
  · rw [if_pos h0]
    exact ⟨st, h0, rfl⟩

theorem C110_add_to_facet_refused (h : ¬ (st = .success ∧ Readable mi ∧ Writeable mo ∧ mi.shapeDim 1 = c.m ∧
    mo.shapeDim 1 = c.yN ∧ mi.shapeDim 0 = mo.shapeDim 0)) :
    ∃ s, s ≠ Sdp.Status.success ∧ addToFacetCall c mi mo o st src out = some (s, out) := by
  unfold addToFacetCall
  by_cases h0 : st = .success
  · rw [if_neg (by simp [h0])]
    simp only
    by_cases h1 : checkSameShape mi 0 mo 0 (checkShapeDim mo 1 c.yN (checkAndView mo .complexDouble 2 .cpu
        (checkShapeDim mi 1 c.m (checkAndViewConst mi .complexDouble 2 .cpu st).2)).2) = .success
    · exfalso
      rw [same_iff, dim_iff, view_iff, dim_iff, const_iff] at h1
      obtain ⟨⟨⟨⟨⟨_, a2⟩, a1⟩, a3⟩, a4⟩, a5⟩ := h1
      exact h ⟨h0, a2, a3, a1.2, a4.2, same_rows a2.2.1 a3.1.2.1 a5⟩
    · rw [if_pos h1]
      exact ⟨_, h1, rfl⟩
  · rw [if_pos h0]
    exact ⟨st, h0, rfl⟩

theorem C110_finish_subgrid_refused (h : ¬ (st = .success ∧ Readable mi ∧ Writeable mo ∧ mi.shapeDim 1 = c.xM ∧
    mo.shapeDim 1 ≤ c.xM ∧ mi.shapeDim 0 = mo.shapeDim 0)) :
    ∃ s, s ≠ Sdp.Status.success ∧ finishSubgridOutCall c mi mo o st src out = some (s, out) := by
  unfold finishSubgridOutCall
  by_cases h0 : st = .success
  · rw [if_neg (by simp [h0])]
    simp only
    by_cases h1 : checkSameShape mi 0 mo 0 (sizeCheck mo c.xM (checkAndView mo .complexDouble 2 .cpu
        (checkShapeDim mi 1 c.xM (checkAndViewConst mi .complexDouble 2 .cpu st).2)).2) = .success
    · exfalso
      rw [same_iff, size_iff, view_iff, dim_iff, const_iff] at h1
      obtain ⟨⟨⟨⟨⟨_, a2⟩, a1⟩, a3⟩, a4⟩, a5⟩ := h1
      have := a3.1.2.1
      exact h ⟨h0, a2, a3, a1.2, by by_contra hn; exact a4 ⟨by omega, by omega⟩, same_rows a2.2.1 a3.1.2.1 a5⟩
    · rw [if_pos h1]
      exact ⟨_, h1, rfl⟩
  · rw [if_pos h0]
    exact ⟨st, h0, rfl⟩

/-- `finish_facet` leaves both its arrays alone. -/
theorem C110_finish_facet_refused (h : ¬ (st = .success ∧ Writeable mi ∧ Writeable mo ∧ mi.shapeDim 1 = c.yN ∧
    mo.shapeDim 1 ≤ c.yN ∧ mi.shapeDim 0 = mo.shapeDim 0)) :
    ∃ s, s ≠ Sdp.Status.success ∧ finishFacetCall c Fb mi mo o st src out = some (s, src, out) := by
  unfold finishFacetCall
  by_cases h0 : st = .success
  · rw [if_neg (by simp [h0])]
    simp only
    by_cases h1 : checkSameShape mo 0 mi 0 (checkAndView mo .complexDouble 2 .cpu
        (checkShapeDim mi 1 c.yN (checkAndView mi .complexDouble 2 .cpu (sizeCheck mo c.yN st)).2)).2 = .success
    · exfalso
      rw [same_iff, view_iff, dim_iff, view_iff, size_iff] at h1
      obtain ⟨⟨⟨⟨⟨_, a1⟩, a2⟩, a3⟩, a4⟩, a5⟩ := h1
      have := a4.1.2.1
      exact h ⟨h0, a2, a4, a3.2, by by_contra hn; exact a1 ⟨by omega, by omega⟩, (same_rows a4.1.2.1 a2.1.2.1 a5).symm⟩
    · rw [if_pos h1]
      exact ⟨_, h1, rfl⟩
  · rw [if_pos h0]
    exact ⟨st, h0, rfl⟩

theorem C110_finish_subgrid_inplace_refused (m : Mem) (h : ¬ (st = .success ∧ Writeable m ∧ m.shapeDim 1 = c.xM)) :
    ∃ s, s ≠ Sdp.Status.success ∧ finishSubgridCall c m o st src = some (s, src) := by
  unfold finishSubgridCall
  by_cases h0 : st = .success
  · rw [if_neg (by simp [h0])]
    simp only
    by_cases h1 : checkShapeDim m 1 c.xM (checkAndView m .complexDouble 2 .cpu st).2 = .success
    · exfalso
      rw [dim_iff, view_iff] at h1
      exact h ⟨h0, h1.1.2, h1.2.2⟩
    · rw [if_pos h1]
      exact ⟨_, h1, rfl⟩
  · rw [if_pos h0]
    exact ⟨st, h0, rfl⟩

theorem C110_prepare_subgrid_inplace_refused (m : Mem) (h : ¬ (st = .success ∧ Writeable m ∧ m.shapeDim 1 = c.xM)) :
    ∃ s, s ≠ Sdp.Status.success ∧ prepareSubgridCall c m o st src = some (s, src) := by
  unfold prepareSubgridCall
  by_cases h0 : st = .success
  · rw [if_neg (by simp [h0])]
    simp only
    by_cases h1 : checkShapeDim m 1 c.xM (checkAndView m .complexDouble 2 .cpu st).2 = .success
    · exfalso
      rw [dim_iff, view_iff] at h1
      exact h ⟨h0, h1.1.2, h1.2.2⟩
    · rw [if_pos h1]
      exact ⟨_, h1, rfl⟩
  · rw [if_pos h0]
    exact ⟨st, h0, rfl⟩

theorem C110_add_to_subgrid_2d_refused (o1 : Int) (h : ¬ (st = .success ∧ Readable mi ∧ Writeable mo ∧ mi.shapeDim 1 = c.m ∧
    mo.shapeDim 1 = c.xM)) :
    ∃ s, s ≠ Sdp.Status.success ∧ addToSubgrid2dCall c Fn mi mo o o1 st src out = some (s, out) := by
  unfold addToSubgrid2dCall
  by_cases h0 : st = .success
  · rw [if_neg (by simp [h0])]
    simp only
    by_cases h1 : checkShapeDim mo 1 c.xM (checkAndView mo .complexDouble 2 .cpu
        (checkShapeDim mi 1 c.m (checkAndViewConst mi .complexDouble 2 .cpu st).2)).2 = .success
    · exfalso
      rw [dim_iff, view_iff, dim_iff, const_iff] at h1
      obtain ⟨⟨⟨⟨_, a2⟩, a1⟩, a3⟩, a4⟩ := h1
      exact h ⟨h0, a2, a3, a1.2, a4.2⟩
    · rw [if_pos h1]
      exact ⟨_, h1, rfl⟩
  · rw [if_pos h0]
    exact ⟨st, h0, rfl⟩

theorem C110_finish_subgrid_2d_refused (m : Mem) (o1 : Int)
    (h : ¬ (st = .success ∧ Writeable m ∧ m.shapeDim 0 = c.xM ∧ m.shapeDim 1 = c.xM)) :
    ∃ s, s ≠ Sdp.Status.success ∧ finishSubgrid2dCall c m o o1 st src = some (s, src) := by
  unfold finishSubgrid2dCall
  by_cases h0 : st = .success
  · rw [if_neg (by simp [h0])]
    simp only
    by_cases h1 : checkShapeDim m 1 c.xM (checkShapeDim m 0 c.xM (checkAndView m .complexDouble 2 .cpu st).2) = .success
    · exfalso
      rw [dim_iff, dim_iff, view_iff] at h1
      exact h ⟨h0, h1.1.1.2, h1.1.2.2, h1.2.2⟩
    · rw [if_pos h1]
      exact ⟨_, h1, rfl⟩
  · rw [if_pos h0]
    exact ⟨st, h0, rfl⟩

theorem C110_prepare_subgrid_2d_refused (m : Mem) (o1 : Int)
    (h : ¬ (st = .success ∧ Writeable m ∧ m.shapeDim 0 = c.xM ∧ m.shapeDim 1 = c.xM)) :
    ∃ s, s ≠ Sdp.Status.success ∧ prepareSubgrid2dCall c m o o1 st src = some (s, src) := by
  unfold prepareSubgrid2dCall
  by_cases h0 : st = .success
  · rw [if_neg (by simp [h0])]
    simp only
    by_cases h1 : checkShapeDim m 1 c.xM (checkShapeDim m 0 c.xM (checkAndView m .complexDouble 2 .cpu st).2) = .success
    · exfalso
      rw [dim_iff, dim_iff, view_iff] at h1
      exact h ⟨h0, h1.1.1.2, h1.1.2.2, h1.2.2⟩
    · rw [if_pos h1]
      exact ⟨_, h1, rfl⟩
  · rw [if_pos h0]
    exact ⟨st, h0, rfl⟩

end Calls

end
end Sdp.Swiftly
