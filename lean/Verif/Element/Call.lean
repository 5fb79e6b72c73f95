import Verif.Mem.Model
import Verif.Common.Launch

/-
Calls of the element beam functions on the arrays a caller passes: which are
refused, and which elements the others use, taken to be of which type
(property C122).  Values are modelled in Dipole.lean and Wave.lean, overflow of
`int` in Width.
-/
namespace Sdp.BeamCall

/-- The arrays of a call. -/
inductive Which where
  | theta | phi | phiY | coeffs | beam
deriving DecidableEq, Repr

/-- One use of an element: of an array, taken to have elements of a type, at an
index, for writing or reading. -/
structure Use where
  arr : Which
  type : MemType
  index : Int
  write : Bool
deriving DecidableEq, Repr

/-- How a call ends: refused with an error, or after these uses. -/
inductive Call where
  | refused (s : Status)
  | ran (uses : List Use)
deriving DecidableEq, Repr

/-- The type of the real numbers that go with a complex type: the branches on
`type`, src/ska-sdp-func/station_beam/sdp_element_dipole.cpp:137-189 and 201-259,
and src/ska-sdp-func/station_beam/sdp_element_spherical_wave_harp.cpp:164-192. -/
def realOf : MemType → Option MemType
  | .complexFloat => some .float
  | .complexDouble => some .double
  | _ => none

/-- The counter of `for (int i = 0; i < n; ++i)`. -/
def points (n : Int) : List Int := (List.range n.toNat).map fun (i : Nat) => (i : Int)

/-- One point of sdp_dipole_pattern (`pol`) or sdp_dipole_pattern_scalar:
src/ska-sdp-func/station_beam/sdp_element_dipole.cpp:57-64 and 80-97; the offsets of the
two field components are `off` and `off + 1` (115-116). -/
def dipoleAt (real cplx : MemType) (pol : Bool) (stride off i : Int) : List Use :=
  [⟨.phi, real, i, false⟩, ⟨.theta, real, i, false⟩] ++
  if pol then [⟨.beam, cplx, i * stride + off, true⟩, ⟨.beam, cplx, i * stride + (off + 1), true⟩]
  else [⟨.beam, cplx, i * stride + off, true⟩]

/-- A launch of `n` points with 256 threads per block, none of which compares its
index with `n` (src/ska-sdp-func/station_beam/sdp_element_dipole.cu:55-60 and 77-95):
without CUDA support, or without a block, it is refused.  (A negative `n`
becomes a grid that is empty or too large.) -/
def launchAll (cuda : Bool) (n : Int) (at' : Int → List Use) : Call :=
  if cuda = false ∨ n ≤ 0 then .refused .runtime
  else .ran ((points ((blocks n.toNat 256 * 256 : Nat) : Int)).flatMap at')

/-- sdp_element_beam_dipole,
src/ska-sdp-func/station_beam/sdp_element_dipole.cpp:102-264. -/
def dipoleCall (cuda : Bool) (n stride off : Int) (theta phi beam : Mem) (st : Status) : Call :=
  if st ≠ .success then .refused st
  else if theta.location ≠ beam.location ∨ phi.location ≠ beam.location then .refused .memLocation
  else if beam.queryComplex = false then .refused .dataType
  else match beam.location with
    | .cpu => match realOf beam.type with
      | none => .refused .dataType
      | some real =>
        .ran ((points n).flatMap (dipoleAt real beam.type beam.queryComplex4 stride off))
    | .gpu => match realOf beam.type with
      | none => .refused .dataType
      | some real => launchAll cuda n (dipoleAt real beam.type beam.queryComplex4 stride off)
    | .other => .ran []

/-- The first of the four coefficients of order `(l, m)`:
src/ska-sdp-func/station_beam/sdp_element_spherical_wave_harp.cpp:67-70 and 91-93. -/
def coeffAt (cplx : MemType) (l m : Int) : List Use :=
  [⟨.coeffs, cplx, 4 * (l * l - 1 + l + m), false⟩, ⟨.coeffs, cplx, 4 * (l * l - 1 + l + m) + 1, false⟩,
    ⟨.coeffs, cplx, 4 * (l * l - 1 + l + m) + 2, false⟩,
    ⟨.coeffs, cplx, 4 * (l * l - 1 + l + m) + 3, false⟩]

/-- The coefficients of order `l`, for `abs_m` from `l` down to 0:
src/ska-sdp-func/station_beam/sdp_element_spherical_wave_harp.cpp:62-115. -/
def orderAt (cplx : MemType) (l : Int) : List Use :=
  (points (l + 1)).flatMap fun d =>
    if l - d = 0 then coeffAt cplx l 0
    else coeffAt cplx l (-(l - d)) ++ coeffAt cplx l (l - d)

/-- One point of sdp_spherical_wave_pattern_harp, `nan` if its phi is not a number:
src/ska-sdp-func/station_beam/sdp_element_spherical_wave_harp.cpp:41-123. -/
def harpAt (real cplx : MemType) (lMax off : Int) (nan : Int → Bool) (i : Int) : List Use :=
  [⟨.theta, real, i, false⟩, ⟨.phi, real, i, false⟩, ⟨.phiY, real, i, false⟩] ++
  (if nan i then [] else (points lMax).flatMap fun k => orderAt cplx (k + 1)) ++
  [⟨.beam, cplx, 4 * (i + off), true⟩, ⟨.beam, cplx, 4 * (i + off) + 1, true⟩,
    ⟨.beam, cplx, 4 * (i + off) + 2, true⟩, ⟨.beam, cplx, 4 * (i + off) + 3, true⟩]

/-- sdp_element_beam_spherical_wave_harp,
src/ska-sdp-func/station_beam/sdp_element_spherical_wave_harp.cpp:128-241.  The kernel
it names (211 and 215) is not part of the library: the launch fails, as it does
without CUDA support. -/
def harpCall (n lMax off : Int) (nan : Int → Bool) (theta phi phiY coeffs beam : Mem)
    (st : Status) : Call :=
  if st ≠ .success then .refused st
  else if theta.location ≠ beam.location ∨ phi.location ≠ beam.location ∨
      phiY.location ≠ beam.location ∨ coeffs.location ≠ beam.location then .refused .memLocation
  else if beam.queryComplex = false then .refused .dataType
  else match beam.location with
    | .cpu =>
      if beam.queryComplex4 = true then
        match realOf beam.type with
        | none => .refused .dataType
        | some real => .ran ((points n).flatMap (harpAt real beam.type lMax off nan))
      else .refused .dataType
    | .gpu =>
      if beam.queryComplex4 = true then
        match realOf beam.type with
        | none => .refused .dataType
        | some _ => .refused .runtime
      else .refused .dataType
    | .other => .ran []

end Sdp.BeamCall
