import Verif.Station.CallProps

/-
C123 is false: arguments that the station beam call accepts although they lead to
wrong uses; and cases that meet the hypotheses of the theorems.
-/
namespace Sdp.StationCall

/-- An array in main memory, as sdp_mem_create_wrapper describes it. -/
def array (t : MemType) (shape : List Int) (n : Int) : Mem :=
  { type := t, location := .cpu, isCContiguous := true, isOwner := false, isReadOnly := false,
    numDims := shape.length, numElements := n, refCount := 1, shape := shape, stride := [],
    data := some ⟨0, 0⟩ }

/-- No array. -/
def absent : Mem :=
  { type := .void, location := .cpu, isCContiguous := true, isOwner := false, isReadOnly := false,
    numDims := 0, numElements := 0, refCount := 1, shape := [], stride := [], data := none }

/-- Three elements with two beams of five points; the third coordinate is absent. -/
def good : Which → Mem
  | .weights => array .complexDouble [3] 3
  | .x => array .double [3] 3
  | .y => array .double [3] 3
  | .z => array .double [3] 3
  | .pointX => array .double [7] 7
  | .pointY => array .double [7] 7
  | .pointZ => absent
  | .index => array .int [3] 3
  | .data => array .complexDouble [2, 5, 4] 40
  | .out => array .complexDouble [5, 4] 20

/-- `good` with another array in one place. -/
def other (w : Which) (m : Mem) : Which → Mem := fun v => if v = w then m else good v

/-- A call with these arrays, for the points 2 to 6, indices 0, 1, 1. -/
def callOf (mem : Which → Mem) : Args :=
  { mem := mem, value := fun i => if i = 0 then 0 else 1, offPoints := 2, n := 5, offOut := 0,
    evalX := true, evalY := true }

/-- C123 is false of arrays that are too short: element coordinates, weights, points. -/
theorem C123_short_arrays_false :
    (∃ l, stationCall false (callOf (other .weights (array .complexDouble [2] 2))) .success = .ran l ∧
      ∃ u ∈ l, u.arr = .weights ∧ 2 ≤ u.index) ∧
    (∃ l, stationCall false (callOf (other .y (array .double [2] 2))) .success = .ran l ∧
      ∃ u ∈ l, u.arr = .y ∧ 2 ≤ u.index) ∧
    (∃ l, stationCall false (callOf (other .pointX (array .double [5] 5))) .success = .ran l ∧
      ∃ u ∈ l, u.arr = .pointX ∧ 5 ≤ u.index) :=
  ⟨⟨_, rfl, ⟨.weights, .complexDouble, 2, false⟩, by decide +kernel, rfl, by decide⟩,
    ⟨_, rfl, ⟨.y, .double, 2, false⟩, by decide +kernel, rfl, by decide⟩,
    ⟨_, rfl, ⟨.pointX, .double, 6, false⟩, by decide +kernel, rfl, by decide⟩⟩

/-- C123 is false of other precisions than that of the element coordinates. -/
theorem C123_precision_false :
    (∃ l, stationCall false (callOf (other .weights (array .complexFloat [3] 3))) .success = .ran l ∧
      ∃ u ∈ l, u.arr = .weights ∧ u.type = .complexDouble) ∧
    (∃ l, stationCall false (callOf (other .out (array .complexFloat [5, 4] 20))) .success = .ran l ∧
      ∃ u ∈ l, u.arr = .out ∧ u.write = true ∧ u.type = .complexDouble) :=
  ⟨⟨_, rfl, ⟨.weights, .complexDouble, 2, false⟩, by decide +kernel, rfl, rfl⟩,
    ⟨_, rfl, ⟨.out, .complexDouble, 19, true⟩, by decide +kernel, rfl, rfl, rfl⟩⟩

/-- C123 is false of an array of the GPU in a call that runs in main memory. -/
theorem C123_place_false :
    ∃ l, stationCall true (callOf (other .z { array .double [3] 3 with location := .gpu })) .success =
        .ran l ∧ ∃ u ∈ l, u.arr = .z :=
  ⟨_, rfl, ⟨.z, .double, 2, false⟩, by decide +kernel, rfl⟩

/-- C123 is false of numbers in the index array that are not rows of the element beams,
and of element beams with fewer polarisations than the output. -/
theorem C123_element_beams_false :
    (∃ l, stationCall false { callOf good with value := fun _ => 2 } .success = .ran l ∧
      ∃ u ∈ l, u.arr = .data ∧ (good .data).numElements ≤ u.index) ∧
    (∃ l, stationCall false { callOf good with value := fun _ => -1 } .success = .ran l ∧
      ∃ u ∈ l, u.arr = .data ∧ u.index < 0) ∧
    (∃ l, stationCall false (callOf (other .data (array .complexDouble [2, 5] 10))) .success = .ran l ∧
      ∃ u ∈ l, u.arr = .data ∧ 10 ≤ u.index) :=
  ⟨⟨_, rfl, ⟨.data, .complexDouble, 40, false⟩, by decide +kernel, rfl, by decide⟩,
    ⟨_, rfl, ⟨.data, .complexDouble, -20, false⟩, by decide +kernel, rfl, by decide⟩,
    ⟨_, rfl, ⟨.data, .complexDouble, 39, false⟩, by decide +kernel, rfl, by decide⟩⟩

/-- C123 is false of an output that is too short, starts too early, or is protected. -/
theorem C123_output_false :
    (∃ l, stationCall false { callOf good with offOut := 1 } .success = .ran l ∧
      ∃ u ∈ l, u.arr = .out ∧ (good .out).numElements ≤ u.index) ∧
    (∃ l, stationCall false { callOf good with offOut := -1 } .success = .ran l ∧
      ∃ u ∈ l, u.arr = .out ∧ u.index < 0) ∧
    (∃ l, stationCall false
        (callOf (other .out { array .complexDouble [5, 4] 20 with isReadOnly := true })) .success =
          .ran l ∧ ∃ u ∈ l, u.arr = .out ∧ u.write = true) :=
  ⟨⟨_, rfl, ⟨.out, .complexDouble, 20, true⟩, by decide +kernel, rfl, by decide⟩,
    ⟨_, rfl, ⟨.out, .complexDouble, -4, true⟩, by decide +kernel, rfl, by decide⟩,
    ⟨_, rfl, ⟨.out, .complexDouble, 0, true⟩, by decide +kernel, rfl, rfl⟩⟩

theorem good_fits (loc : MemLocation) (loads : Bool) (mem : Which → Mem)
    (h : ∀ w, (mem w).data = (good w).data ∧ (mem w).isCContiguous = (good w).isCContiguous ∧
      (mem w).isReadOnly = (good w).isReadOnly ∧
      (mem w).type = (good w).type ∧ (mem w).numElements = (good w).numElements ∧
      (mem w).queryComplex4 = (good w).queryComplex4 ∧
      (mem w).queryNumElements = (good w).queryNumElements ∧ (mem w).location = loc) :
    Fits loc (callOf mem) loads .double .complexDouble := by
  have has : ∀ w t lo hi, (good w).data.isSome = true → (good w).isCContiguous = true →
      (good w).type = t → 0 ≤ lo → hi ≤ (good w).numElements → Has loc (mem w) t lo hi := by
    intro w t lo hi h1 h2 h3 h4 h5
    obtain ⟨a, b, _, d, e, _, _, g⟩ := h w
    exact ⟨by rw [a]; exact h1, g, by rw [b]; exact h2, by rw [d]; exact h3, h4, by rw [e]; exact h5⟩
  unfold Fits
  dsimp only [callOf]
  have four : (mem .out).queryComplex4 = true := by rw [(h .out).2.2.2.2.2.1]; decide
  have idx : (mem .index).data.isSome = true := by rw [(h .index).1]; decide
  have num : (callOf mem).numIn = 3 := by
    show (mem .x).queryNumElements = 3
    rw [(h .x).2.2.2.2.2.2.1]
    decide
  have num' : (Args.mk mem (fun i => if i = 0 then 0 else 1) 2 5 0 true true).numIn = 3 := num
  rw [num']
  simp only [four, if_true]
  refine ⟨⟨has .pointX _ _ _ rfl rfl rfl (by decide) (by decide),
    has .pointY _ _ _ rfl rfl rfl (by decide) (by decide), fun hz => ?_⟩, fun _ =>
    ⟨⟨has .x _ _ _ rfl rfl rfl (by decide) (by decide), has .y _ _ _ rfl rfl rfl (by decide) (by decide),
      has .z _ _ _ rfl rfl rfl (by decide) (by decide),
      has .weights _ _ _ rfl rfl rfl (by decide) (by decide)⟩,
      fun _ _ => has .index _ _ _ rfl rfl rfl (by decide) (by decide), fun _ i h0 h1 => ?_⟩, ?_, fun _ => ?_⟩
  · rw [(h .pointZ).1] at hz
    exact absurd hz (by decide)
  · intro first last e
    injection e with e
    injection e with e1 e2
    subst e1 e2
    show Has loc (mem .data) .complexDouble
      (4 * ((if (mem .index).data.isSome = true then (if i = 0 then 0 else 1) else i) * 5) + 0)
      (4 * ((if (mem .index).data.isSome = true then (if i = 0 then 0 else 1) else i) * 5 + 5 - 1) + 3 + 1)
    rw [if_pos idx]
    by_cases hi : i = 0
    · rw [if_pos hi]
      exact has .data _ _ _ rfl rfl rfl (by decide) (by decide)
    · rw [if_neg hi]
      exact has .data _ _ _ rfl rfl rfl (by decide) (by decide)
  · intro first last e
    injection e with e
    injection e with e1 e2
    subst e1 e2
    exact has .out _ _ _ rfl rfl rfl (by decide) (by decide)
  · rw [(h .out).2.2.1]
    rfl

/-- Non-vacuity: in main memory. -/
example : ∃ l, stationCall false (callOf good) .success = .ran l ∧
    AllRight .cpu good l := by
  refine ⟨_, rfl, ?_⟩
  obtain ⟨cplx, hr, e⟩ := (C123_station_cpu false (callOf good) .success rfl).2 _ rfl
  obtain rfl : cplx = .complexDouble := by
    rcases hr with ⟨h, _⟩ | ⟨_, h⟩
    · cases h
    · exact h
  exact e.2 (Or.inr (good_fits .cpu false good fun w => ⟨rfl, rfl, rfl, rfl, rfl, rfl, rfl, by
    cases w <;> rfl⟩))

/-- The arrays on the GPU. -/
def onGpu : Which → Mem := fun w => { good w with location := .gpu }

/-- Non-vacuity: on the GPU. -/
example : ∃ l, stationCall true (callOf onGpu) .success = .ran l ∧
    AllRight .gpu onGpu l := by
  refine ⟨_, rfl, ?_⟩
  obtain ⟨cplx, hr, e⟩ := (C123_station_gpu true (callOf onGpu) .success rfl).2 _ rfl
  obtain rfl : cplx = .complexDouble := by
    rcases hr with ⟨h, _⟩ | ⟨_, h⟩
    · cases h
    · exact h
  exact e.2 (good_fits .gpu true onGpu fun w => ⟨rfl, rfl, rfl, rfl, rfl, rfl, rfl, rfl⟩)

end Sdp.StationCall
