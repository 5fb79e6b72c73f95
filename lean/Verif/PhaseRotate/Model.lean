import Mathlib.Analysis.SpecialFunctions.Trigonometric.Basic
import Verif.Common.Loops

/-!
# Model of visibility/sdp_phase_rotate.cpp (CPU path)

Exact real and complex arithmetic; flat arrays.  `src = none` means input and output
are the same buffer (in-place call).
-/

namespace Sdp.PhaseRotate
noncomputable section

/-- A sky coordinate: right ascension and declination, sky_coord values 0 and 1. -/
structure Coord where
  ra : ℝ
  dec : ℝ

/-- `sdp_phase_rotate_uvw` matrix entries `mat[0..8]`, sdp_phase_rotate.cpp:118-134. -/
def mat (orig new : Coord) (i : Nat) : ℝ :=
  let da := -(new.ra - orig.ra)
  let dd := new.dec - orig.dec
  let sa := Real.sin da
  let ca := Real.cos da
  let sd := Real.sin dd
  let cd := Real.cos dd
  match i with
  | 0 => ca | 1 => 0 | 2 => sa
  | 3 => sa * sd | 4 => cd | 5 => -ca * sd
  | 6 => -sa * cd | 7 => sd | 8 => ca * cd
  | _ => 0

/-- Read from the source buffer, which is the output itself for in-place calls. -/
def readSrc {α : Type} (src : Option (Arr α)) (out : Arr α) (i : Int) : Option α :=
  (src.getD out).read i

/-- Body of the loop of `rotate_uvw`, sdp_phase_rotate.cpp:28-35. -/
def uvwBody (m : Nat → ℝ) (src : Option (Arr ℝ)) (out : Arr ℝ) (i : Nat) : Option (Arr ℝ) :=
  let i3 : Int := i * 3
  (readSrc src out (i3 + 0)).bind fun u =>
  (readSrc src out (i3 + 1)).bind fun v =>
  (readSrc src out (i3 + 2)).bind fun w =>
  (out.write (i3 + 0) (m 0 * u + m 1 * v + m 2 * w)).bind fun out =>
  (out.write (i3 + 1) (m 3 * u + m 4 * v + m 5 * w)).bind fun out =>
  out.write (i3 + 2) (m 6 * u + m 7 * v + m 8 * w)

/-- `rotate_uvw`, sdp_phase_rotate.cpp:18-37. -/
def rotateUvw (num : Nat) (m : Nat → ℝ) (src : Option (Arr ℝ)) (out : Arr ℝ) : Option (Arr ℝ) :=
  loop (uvwBody m src) out (List.range num)

/-- Tangent-plane offsets `delta_l, delta_m, delta_n`, sdp_phase_rotate.cpp:256-274. -/
def delta (orig new : Coord) : ℝ × ℝ × ℝ :=
  let da := -(new.ra - orig.ra)
  let l1 := Real.cos new.dec * -Real.sin da
  let m1 := Real.cos orig.dec * Real.sin new.dec -
    Real.sin orig.dec * Real.cos new.dec * Real.cos da
  let n1 := Real.sin orig.dec * Real.sin new.dec +
    Real.cos orig.dec * Real.cos new.dec * Real.cos da
  (0 - l1, 0 - m1, 1 - n1)

/-- Extents, sdp_phase_rotate.cpp:42-45. -/
structure Dims where
  times : Nat
  baselines : Nat
  channels : Nat
  pols : Nat

/-- `phase`, sdp_phase_rotate.cpp:69-72. -/
def phase (f0 df : ℝ) (d : ℝ × ℝ × ℝ) (c : Nat) (u v w : ℝ) : ℝ :=
  2 * Real.pi * ((f0 + c * df) / 299792458) * (u * d.1 + v * d.2.1 + w * d.2.2)

/-- Innermost body of the loops of `rotate_vis`, sdp_phase_rotate.cpp:59-81 (the uvw loads and the
phasor are recomputed per polarisation here); `x` is (time, baseline, channel, polarisation). -/
def visBody (D : Dims) (f0 df : ℝ) (d : ℝ × ℝ × ℝ) (uvw : Arr ℝ) (src : Option (Arr ℂ))
    (out : Arr ℂ) (x : Nat × Nat × Nat × Nat) : Option (Arr ℂ) :=
  let i := index3 D.baselines 3 x.1 x.2.1 0
  (uvw.read (i + 0)).bind fun u =>
  (uvw.read (i + 1)).bind fun v =>
  (uvw.read (i + 2)).bind fun w =>
    let ph := phase f0 df d x.2.2.1 u v w
    let phasor : ℂ := ⟨Real.cos ph, Real.sin ph⟩
    let j := index4 D.baselines D.channels D.pols x.1 x.2.1 x.2.2.1 x.2.2.2
    (readSrc src out j).bind fun y => out.write j (y * phasor)

/-- `rotate_vis`, sdp_phase_rotate.cpp:40-85. -/
def rotateVis (D : Dims) (f0 df : ℝ) (d : ℝ × ℝ × ℝ) (uvw : Arr ℝ) (src : Option (Arr ℂ))
    (out : Arr ℂ) : Option (Arr ℂ) :=
  loop (visBody D f0 df d uvw src) out (nest4 D.times D.baselines D.channels D.pols)

end
end Sdp.PhaseRotate
