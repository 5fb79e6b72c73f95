import Verif.Element.CallProps

/-
C122 is false: arguments that the element beam calls accept although they lead to
wrong uses; and cases that meet the hypotheses of the theorems.
-/
namespace Sdp.BeamCall

/-- An array in main memory, as sdp_mem_create_wrapper describes it. -/
def array (t : MemType) (shape : List Int) (n : Int) : Mem :=
  { type := t, location := .cpu, isCContiguous := true, isOwner := false, isReadOnly := false,
    numDims := shape.length, numElements := n, refCount := 1, shape := shape, stride := [],
    data := some ⟨0, 0⟩ }

/-- C122 is false of a dipole call with angles in single precision and output in double
precision: 100 angles are read as 100 numbers of 8 bytes from 400 bytes. -/
theorem C122_precision_false :
    ∃ l, dipoleCall false 100 1 0 (array .float [100] 100) (array .float [100] 100)
        (array .complexDouble [100] 100) .success = .ran l ∧
      ∃ u ∈ l, u.arr = .theta ∧ (array .float [100] 100).type.size * 100 <
        u.type.size * (u.index + 1) := by
  refine ⟨_, rfl, ⟨.theta, .double, 99, false⟩, ?_, rfl, by decide⟩
  exact List.mem_flatMap.2 ⟨99, (mem_points 100 99).2 ⟨by omega, by omega⟩, by simp [dipoleAt]⟩

/-- C122 is false of more points than angles, for both functions. -/
theorem C122_short_angles_false :
    (∃ l, dipoleCall false 2 1 0 (array .float [1] 1) (array .float [2] 2)
        (array .complexFloat [2] 2) .success = .ran l ∧
      ∃ u ∈ l, u.arr = .theta ∧ (array .float [1] 1).numElements ≤ u.index) ∧
    ∃ l, harpCall 2 1 0 (fun _ => false) (array .float [1] 1) (array .float [2] 2) (array .float [2] 2)
        (array .complexFloat [12] 12) (array .complexFloat [2, 4] 8) .success = .ran l ∧
      ∃ u ∈ l, u.arr = .theta ∧ (array .float [1] 1).numElements ≤ u.index := by
  refine ⟨⟨_, rfl, ⟨.theta, .float, 1, false⟩, ?_, rfl, by decide⟩,
    ⟨_, rfl, ⟨.theta, .float, 1, false⟩, ?_, rfl, by decide⟩⟩
  · exact List.mem_flatMap.2 ⟨1, (mem_points 2 1).2 ⟨by omega, by omega⟩, by simp [dipoleAt]⟩
  · exact List.mem_flatMap.2 ⟨1, (mem_points 2 1).2 ⟨by omega, by omega⟩, by
      unfold harpAt
      simp⟩

/-- C122 is false of an output that is too small, or starts before its array, or is
protected: the call writes behind it, before it, or into it. -/
theorem C122_output_false :
    (∃ l, dipoleCall false 1 4 1 (array .float [1] 1) (array .float [1] 1)
        (array .complexFloat [1] 1) .success = .ran l ∧
      ∃ u ∈ l, u.write = true ∧ (array .complexFloat [1] 1).numElements ≤ u.index) ∧
    (∃ l, dipoleCall false 1 1 (-1) (array .float [1] 1) (array .float [1] 1)
        (array .complexFloat [1] 1) .success = .ran l ∧ ∃ u ∈ l, u.write = true ∧ u.index < 0) ∧
    (∃ l, dipoleCall false 1 1 0 (array .float [1] 1) (array .float [1] 1)
        { array .complexFloat [1] 1 with isReadOnly := true } .success = .ran l ∧
      ∃ u ∈ l, u.arr = .beam ∧ u.write = true) :=
  ⟨⟨_, rfl, ⟨.beam, .complexFloat, 1, true⟩, by decide, rfl, by decide⟩,
    ⟨_, rfl, ⟨.beam, .complexFloat, -1, true⟩, by decide, rfl, by decide⟩,
    ⟨_, rfl, ⟨.beam, .complexFloat, 0, true⟩, by decide, rfl, rfl⟩⟩

/-- C122 is false of a spherical-wave call with fewer coefficients than orders. -/
theorem C122_short_coefficients_false :
    ∃ l, harpCall 1 2 0 (fun _ => false) (array .float [1] 1) (array .float [1] 1) (array .float [1] 1)
        (array .complexFloat [12] 12) (array .complexFloat [1, 4] 4) .success = .ran l ∧
      ∃ u ∈ l, u.arr = .coeffs ∧ (array .complexFloat [12] 12).numElements ≤ u.index :=
  ⟨_, rfl, ⟨.coeffs, .complexFloat, 31, false⟩, by decide +kernel, rfl, by decide⟩

/-- An array of the GPU. -/
def onGpu (m : Mem) : Mem := { m with location := .gpu }

/-- C122 is false of a dipole call on the GPU with arrays for exactly one point. -/
theorem C122_gpu_threads_false :
    ∃ l, dipoleCall true 1 1 0 (onGpu (array .float [1] 1)) (onGpu (array .float [1] 1))
        (onGpu (array .complexFloat [1] 1)) .success = .ran l ∧
      ¬ AllRight (dipoleArrays (onGpu (array .float [1] 1)) (onGpu (array .float [1] 1))
        (onGpu (array .complexFloat [1] 1))) l := by
  refine ⟨_, rfl, fun h => ?_⟩
  obtain ⟨_, _, _, e⟩ := C122_dipole_gpu true 1 1 0 (onGpu (array .float [1] 1))
    (onGpu (array .float [1] 1)) (onGpu (array .complexFloat [1] 1)) .success rfl _ rfl
  have := (e.1 h).1.2.2.2
  exact absurd this (by decide)

/-- Non-vacuity: five points in a beam of four polarisations, all uses right. -/
example : ∃ l, dipoleCall false 5 4 0 (array .double [5] 5) (array .double [5] 5)
      (array .complexDouble [5, 4] 20) .success = .ran l ∧
    AllRight (dipoleArrays (array .double [5] 5) (array .double [5] 5)
      (array .complexDouble [5, 4] 20)) l := by
  refine ⟨_, rfl, ?_⟩
  obtain ⟨real, hr, e⟩ := (C122_dipole_cpu false 5 4 0 (array .double [5] 5) (array .double [5] 5)
    (array .complexDouble [5, 4] 20) .success rfl (by decide)).2 _ rfl
  obtain rfl : real = .double := by cases hr; rfl
  exact e.2 (Or.inr ⟨⟨rfl, rfl, rfl, by decide⟩, ⟨rfl, rfl, rfl, by decide⟩,
    rfl, rfl, rfl, by decide, by decide, by decide, by decide⟩)

/-- The same for spherical waves of order 3. -/
example : ∃ l, harpCall 5 3 0 (fun i => decide (i = 2)) (array .float [5] 5) (array .float [5] 5)
      (array .float [5] 5) (array .complexFloat [60] 60) (array .complexFloat [5, 4] 20) .success =
        .ran l ∧
    AllRight (harpArrays (array .float [5] 5) (array .float [5] 5) (array .float [5] 5)
      (array .complexFloat [60] 60) (array .complexFloat [5, 4] 20)) l := by
  refine ⟨_, rfl, ?_⟩
  obtain ⟨real, hr, e⟩ := (C122_harp_cpu 5 3 0 (fun i => decide (i = 2)) (array .float [5] 5)
    (array .float [5] 5) (array .float [5] 5) (array .complexFloat [60] 60)
    (array .complexFloat [5, 4] 20) .success rfl (by decide)).2 _ rfl
  obtain rfl : real = .float := by cases hr; rfl
  exact e.2 (Or.inr ⟨⟨rfl, rfl, rfl, by decide⟩, ⟨rfl, rfl, rfl, by decide⟩,
    ⟨rfl, rfl, rfl, by decide⟩, fun _ _ => ⟨rfl, rfl, rfl, by decide⟩,
    rfl, rfl, rfl, by decide, by decide, by decide, by decide⟩)

end Sdp.BeamCall
