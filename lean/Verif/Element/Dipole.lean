import Mathlib.Algebra.Field.Basic
import Mathlib.Algebra.Order.Ring.Defs
import Verif.Common.Launch

/-!
# Dipole element beam: model

`/repo/src/ska-sdp-func/station_beam/sdp_element_dipole.cpp` L17-99 and `sdp_element_dipole.cu`.  Exact
arithmetic in a field; outputs are the real parts (the imaginary parts are set to 0 alike).
-/

namespace Sdp.Element

/-- The functions of the C library that are used. -/
structure Lib (K : Type) where
  sin : K → K
  cos : K → K
  sqrt : K → K
  halfPi : K

variable {K : Type} [Field K] [DecidableEq K]

/-- `sdp_dipole` (sdp_element_dipole.cpp L17-40): `(e_theta, e_phi)`. -/
def dipole (f : Lib K) (kL cosKL phi sinT cosT : K) : K × K :=
  let cosP := f.cos phi
  let den := 1 + cosP * cosP * (cosT * cosT - 1)
  if den = 0 then (0, 0)
  else
    let temp := (f.cos (kL * cosP * sinT) - cosKL) / den
    (-cosP * cosT * temp, f.sin phi * temp)

/-- One iteration of `sdp_dipole_pattern` (L57-64), also the whole of the GPU kernel
(sdp_element_dipole.cu L56-62): the two offsets are `off` and `off + 1` (L118-119). -/
def patternAt (f : Lib K) (theta phi : Arr K) (kL cosKL : K) (stride off : Int) (out : Arr K) (i : Nat) :
    Option (Arr K) :=
  (phi.read i).bind fun p =>
  (theta.read i).bind fun t =>
  let e := dipole f kL cosKL p (f.sin t) (f.cos t)
  (out.write (i * stride + off) e.1).bind fun out =>
  out.write (i * stride + (off + 1)) e.2

/-- `sdp_dipole_pattern` (L43-65). -/
def pattern (f : Lib K) (n : Nat) (theta phi : Arr K) (kL cosKL : K) (stride off : Int) (out : Arr K) :
    Option (Arr K) :=
  loop (patternAt f theta phi kL cosKL stride off) out (List.range n)

/-- Amplitude (L82-96). -/
def amplitude (f : Lib K) (kL cosKL phi sinT cosT : K) : K :=
  let x := dipole f kL cosKL phi sinT cosT
  let y := dipole f kL cosKL (phi + f.halfPi) sinT cosT
  f.sqrt ((x.1 * x.1 + x.2 * x.2 + y.1 * y.1 + y.2 * y.2) / 2)

/-- One iteration of `sdp_dipole_pattern_scalar` (L80-98), also the whole of the GPU kernel
(sdp_element_dipole.cu L81-97). -/
def scalarAt (f : Lib K) (theta phi : Arr K) (kL cosKL : K) (stride off : Int) (out : Arr K) (i : Nat) :
    Option (Arr K) :=
  (theta.read i).bind fun t =>
  (phi.read i).bind fun p =>
  out.write (i * stride + off) (amplitude f kL cosKL p (f.sin t) (f.cos t))

/-- `sdp_dipole_pattern_scalar` (L68-99). -/
def scalar (f : Lib K) (n : Nat) (theta phi : Arr K) (kL cosKL : K) (stride off : Int) (out : Arr K) :
    Option (Arr K) :=
  loop (scalarAt f theta phi kL cosKL stride off) out (List.range n)

/-- The threads of the GPU launches (L194-197): the kernels do not look at `num_points`. -/
def gpuThreads (n : Nat) : List Nat := List.range (blocks n 256 * 256)

end Sdp.Element
