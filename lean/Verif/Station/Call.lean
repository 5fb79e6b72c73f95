import Verif.Element.Call

/-
Calls of the station beam function on the arrays a caller passes: which are
refused, and which elements the others use, taken to be of which type
(property C123).  Values are modelled in Model.lean, overflow of `int` in Width.
-/
namespace Sdp.StationCall

open Sdp.BeamCall (points)

/-- The arrays of a call. -/
inductive Which where
  | weights | x | y | z | pointX | pointY | pointZ | index | data | out
deriving DecidableEq, Repr

/-- One use of an element: of an array, taken to have elements of a type, at an
index, for writing or reading. -/
structure Use where
  arr : Which
  type : MemType
  index : Int
  write : Bool
deriving DecidableEq, Repr

/-- How a call ends: refused with an error, or after these uses. -/
inductive Call where
  | refused (s : Status)
  | ran (uses : List Use)
deriving DecidableEq, Repr

/-- The arguments: descriptors (an absent array is one without data, as the Python
package passes it), the numbers in the index array, and sizes. -/
structure Args where
  mem : Which → Mem
  value : Int → Int
  offPoints : Int
  n : Int
  offOut : Int
  evalX : Bool
  evalY : Bool

/-- `sdp_mem_data_const(mem)` is not NULL. -/
def Args.has (a : Args) (w : Which) : Bool := (a.mem w).data.isSome

/-- `NUM_POL`: `is_complex4`,
src/ska-sdp-func/station_beam/sdp_station.cpp:222-309. -/
def Args.pols (a : Args) : Int := if (a.mem .out).queryComplex4 then 4 else 1

/-- `num_elements`: src/ska-sdp-func/station_beam/sdp_station.cpp:192 (a number of
elements that fits into `int`). -/
def Args.numIn (a : Args) : Int := (a.mem .x).queryNumElements

/-- The complex type that goes with `precision`: the branches of
src/ska-sdp-func/station_beam/sdp_station.cpp:223-322 and 331-361. -/
def complexOf : MemType → Option MemType
  | .float => some .complexFloat
  | .double => some .complexDouble
  | _ => none

/-- The polarisations that are evaluated:
src/ska-sdp-func/station_beam/sdp_station.cpp:102-117 and 147-163. -/
def Args.enabled (a : Args) : List Int :=
  if (a.mem .out).queryComplex4 then
    (if a.evalX then [0, 1] else []) ++ (if a.evalY then [2, 3] else [])
  else [0]

/-- The coordinates of a point:
src/ska-sdp-func/station_beam/sdp_station.cpp:87-90, sdp_station.cu:39-44. -/
def Args.pointUses (a : Args) (real : MemType) (o : Int) : List Use :=
  [⟨.pointX, real, o + a.offPoints, false⟩, ⟨.pointY, real, o + a.offPoints, false⟩] ++
  if a.has .pointZ then [⟨.pointZ, real, o + a.offPoints, false⟩] else []

/-- The row of the element beam of an element, `data_idx ? data_idx[i] : i`:
src/ska-sdp-func/station_beam/sdp_station.cpp:98-100, sdp_station.cu:64. -/
def Args.row (a : Args) (i : Int) : Int := if a.has .index then a.value i else i

/-- Coordinates and weight of an element:
src/ska-sdp-func/station_beam/sdp_station.cpp:95-97, sdp_station.cu:61-65. -/
def Args.elementUses (real cplx : MemType) (i : Int) : List Use :=
  [⟨.x, real, i, false⟩, ⟨.y, real, i, false⟩, ⟨.z, real, i, false⟩, ⟨.weights, cplx, i, false⟩]

/-- The beam of an element at a point:
src/ska-sdp-func/station_beam/sdp_station.cpp:98-117, sdp_station.cu:78-106. -/
def Args.dataUses (a : Args) (cplx : MemType) (o i : Int) : List Use :=
  a.enabled.map fun k => ⟨.data, cplx, a.pols * (a.row i * a.n + o) + k, false⟩

/-- The result at a point:
src/ska-sdp-func/station_beam/sdp_station.cpp:146-163, sdp_station.cu:146-163. -/
def Args.outUses (a : Args) (cplx : MemType) (o : Int) : List Use :=
  a.enabled.map fun k => ⟨.out, cplx, a.pols * (o + a.offOut) + k, true⟩

/-- sdp_station_beam_dft on the CPU: src/ska-sdp-func/station_beam/sdp_station.cpp:76-165. -/
def Args.cpuUses (a : Args) (real cplx : MemType) : List Use :=
  (points a.n).flatMap fun o =>
    a.pointUses real o ++
    ((points a.numIn).flatMap fun i =>
      Args.elementUses real cplx i ++
      if a.has .data then
        (if a.has .index then [⟨.index, .int, i, false⟩] else []) ++ a.dataUses cplx o i
      else []) ++
    a.outUses cplx o

/-- sdp_station_beam_dft on the GPU: src/ska-sdp-func/station_beam/sdp_station.cu:30-165.
(The loads of all elements, L53-66, are those of one block; every block repeats
them.) -/
def Args.gpuUses (a : Args) (real cplx : MemType) : List Use :=
  (points a.n).flatMap (a.pointUses real) ++
  ((points a.numIn).flatMap fun i =>
    Args.elementUses real cplx i ++ if a.has .index then [⟨.index, .int, i, false⟩] else []) ++
  (points a.n).flatMap fun o =>
    ((points a.numIn).flatMap fun i => if a.has .data then a.dataUses cplx o i else []) ++
    a.outUses cplx o

/-- `sdp_mem_gpu_buffer` accepts the array: src/ska-sdp-func/utility/sdp_mem.cpp:581-604. -/
def gpuBuffer (m : Mem) : Bool := decide (m.location = .gpu ∨ m.type = .void)

/-- Arrays in the order in which their buffers are asked for:
src/ska-sdp-func/station_beam/sdp_station.cpp:365-381. -/
def buffers : List Which :=
  [.weights, .x, .y, .z, .pointX, .pointY, .pointZ, .index, .data, .out]

/-- sdp_station_beam_aperture_array,
src/ska-sdp-func/station_beam/sdp_station.cpp:168-390.  (The launch of `n` points with 256
threads per block needs CUDA support and a block; a negative `n` becomes a grid
that is empty or too large.) -/
def stationCall (cuda : Bool) (a : Args) (st : Status) : Call :=
  if st ≠ .success then .refused st
  else if (a.mem .weights).queryComplex = false then .refused .dataType
  else if a.has .data = true ∧ (a.mem .data).queryComplex = false then .refused .dataType
  else if a.has .index = true ∧ (a.mem .index).type ≠ .int then .refused .dataType
  else if (a.mem .out).queryComplex = false then .refused .dataType
  else match (a.mem .out).location with
    | .cpu => match complexOf (a.mem .x).type with
      | none => .refused .dataType
      | some cplx => .ran (a.cpuUses (a.mem .x).type cplx)
    | .gpu => match complexOf (a.mem .x).type with
      | none => .refused .dataType
      | some cplx =>
        if buffers.all (fun w => gpuBuffer (a.mem w)) = false then .refused .memLocation
        else if cuda = false ∨ a.n ≤ 0 then .refused .runtime
        else .ran (a.gpuUses (a.mem .x).type cplx)
    | .other => .ran []

end Sdp.StationCall
