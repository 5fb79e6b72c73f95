import Verif.Mem.Model

/-!
# C53: argument checks of the station beam function

`sdp_station_beam_aperture_array`, `/repo/src/ska-sdp-func/station_beam/sdp_station.cpp` L168-390, in a
build without CUDA, as far as it decides what runs.
-/

namespace Sdp.Station

/-- The kernel that runs: precision it takes all real and complex arrays to have, number of
polarisations it takes element beam and output to have, number of elements it reads from the
weights, coordinates and index map. -/
structure Choice where
  double : Bool
  polarised : Bool
  numElements : Int
  deriving DecidableEq

/-- The checks (L189-222) and the choice of the CPU kernel (L223-323).  In the GPU branch the buffer
functions or the launch set an error without CUDA, or the type is refused; `gpuStatus` is that error
(L324-389). -/
def call (weights x index elementBeam stationBeam : Mem) (gpuStatus : Status) (status : Status) :
    Status × Option Choice :=
  if status ≠ .success then (status, none)
  else if !weights.queryComplex then (.dataType, none)
  else if elementBeam.data.isSome && !elementBeam.queryComplex then (.dataType, none)
  else if index.data.isSome && decide (index.type ≠ .int) then (.dataType, none)
  else if !stationBeam.queryComplex then (.dataType, none)
  else match stationBeam.location with
  | .cpu =>
    if x.type = .float then (.success, some ⟨false, stationBeam.queryComplex4, x.queryNumElements⟩)
    else if x.type = .double then (.success, some ⟨true, stationBeam.queryComplex4, x.queryNumElements⟩)
    else (.dataType, none)
  | .gpu => if x.type = .float ∨ x.type = .double then (gpuStatus, none) else (.dataType, none)
  | .other => (.success, none)

/-- **C53, checks**: exactly when a kernel runs. -/
theorem C53_checks (weights x index elementBeam stationBeam : Mem) (gpu status : Status) (c : Choice) :
    call weights x index elementBeam stationBeam gpu status = (.success, some c) ↔
      status = .success ∧ weights.queryComplex ∧ (elementBeam.data.isSome → elementBeam.queryComplex) ∧
      (index.data.isSome → index.type = .int) ∧ stationBeam.queryComplex ∧ stationBeam.location = .cpu ∧
      (x.type = .float ∨ x.type = .double) ∧
      c = ⟨decide (x.type = .double), stationBeam.queryComplex4, x.queryNumElements⟩ := by
  unfold call
  by_cases h1 : status = .success <;> simp only [h1, ne_eq, not_true_eq_false, not_false_eq_true, if_true,
    if_false, false_and, true_and, iff_false]
  · cases weights.queryComplex <;> cases elementBeam.data.isSome <;> cases elementBeam.queryComplex <;>
      cases index.data.isSome <;> cases stationBeam.queryComplex <;> by_cases h2 : index.type = .int <;>
      cases stationBeam.location <;> rcases hx : x.type <;> simp [h2] <;> exact eq_comm
  · simp [h1]

/-- **C53 is not protected by the checks.**  Whatever the precision of the complex arrays, whatever
the number of weights, the location of the inputs, the number of polarisations of the element beam,
and whether or not the output may be written, the call is accepted, with the precision of the element
coordinates for all arrays and their number for the weights. -/
theorem C53_unchecked_false :
    ∃ weights x index elementBeam stationBeam : Mem,
      weights.type = .complexFloat ∧ weights.numElements = 1 ∧ weights.location = .gpu ∧
      x.type = .double ∧ x.numElements = 100 ∧
      elementBeam.type = .complexFloat ∧ elementBeam.queryComplex4 = false ∧
      stationBeam.type = .complexFloat ∧ stationBeam.queryComplex4 = true ∧ stationBeam.isReadOnly = true ∧
      call weights x index elementBeam stationBeam .runtime .success = (.success, some ⟨true, true, 100⟩) := by
  let mk : MemType → MemLocation → List Int → Int → Mem := fun t l s n =>
    { type := t, location := l, isCContiguous := true, isOwner := false, isReadOnly := true,
      numDims := s.length, numElements := n, refCount := 1, shape := s, stride := [], data := some ⟨0, 0⟩ }
  exact ⟨mk .complexFloat .gpu [1] 1, mk .double .cpu [100] 100, mk .int .cpu [1] 1,
    mk .complexFloat .cpu [1, 1] 1, mk .complexFloat .cpu [1, 4] 4, rfl, rfl, rfl, rfl, rfl, rfl,
    by decide, rfl, by decide, rfl, by decide⟩

end Sdp.Station
