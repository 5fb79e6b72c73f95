import Mathlib.Analysis.SpecialFunctions.Trigonometric.Basic
import Mathlib.Analysis.SpecialFunctions.Sqrt
import Verif.Legendre.Model
import Verif.Common.Loops

/-!
# Spherical-wave element beam: model

`sdp_spherical_wave_pattern_harp`,
`/repo/src/ska-sdp-func/station_beam/sdp_element_spherical_wave_harp.cpp` L18-124.  Exact real and complex
arithmetic; `int` does not overflow; the test for NaN (L50-55) is never true.
-/

namespace Sdp.Element

noncomputable section

open Sdp.Legendre

/-- The four sums `x_theta, x_phi, y_theta, y_phi` (L44). -/
abbrev Sums := ℂ × ℂ × ℂ × ℂ

/-- `SPH_WAVE_HARP` (L18-24): what is added to `(C_THETA, C_PHI)`. -/
def harp (M : ℝ) (cosP sinP pds dpms : ℝ) (te tm : ℂ) : ℂ × ℂ :=
  let qq : ℂ := ⟨-cosP * dpms, -sinP * dpms⟩
  let dd : ℂ := ⟨-sinP * pds * M, cosP * pds * M⟩
  (dd * tm + qq * te, qq * tm - dd * te)

/-- The factorial loops (L82-89). -/
def fact (n : Nat) : ℝ := (List.range' 2 (n + 1 - 2)).foldl (fun (s : ℝ) (i : Nat) => s * i) 1

/-- `f_` (L62). -/
def fl (l : Nat) : ℝ := (2 * l + 1) / (4 * Real.pi * l * (l + 1))

/-- The four coefficients from index `k` on: `te_x, tm_x, te_y, tm_y` (L71-74, L94-101). -/
def coeffs (alpha : Arr ℂ) (k : Int) : Option (ℂ × ℂ × ℂ × ℂ) :=
  (alpha.read (k + 0)).bind fun a =>
  (alpha.read (k + 1)).bind fun b =>
  (alpha.read (k + 2)).bind fun c =>
  (alpha.read (k + 3)).map fun d => (a, b, c, d)

/-- Adds to the sums. -/
def addXY (s : Sums) (x y : ℂ × ℂ) : Sums := (s.1 + x.1, s.2.1 + x.2, s.2.2.1 + y.1, s.2.2.2 + y.2)

/-- One iteration of the loop over `abs_m` (L63-114). -/
def stepM (alpha : Arr ℂ) (sinT cosT phiX phiY : ℝ) (l : Nat) (s : Sums) (m : Nat) : Option Sums :=
  let ind0 : Int := l * l - 1 + l
  let r := legendre2 l m cosT sinT
  let pds := r.2.1
  let dpms := r.2.2
  if m = 0 then
    let cosP := Real.sqrt (fl l)
    (coeffs alpha (4 * ind0)).map fun c =>
      addXY s (harp 0 cosP 0 pds dpms c.1 c.2.1) (harp 0 cosP 0 pds dpms c.2.2.1 c.2.2.2)
  else
    let nf := Real.sqrt (fl l * fact (l - m) / fact (l + m))
    (coeffs alpha (4 * (ind0 - m))).bind fun cm =>
    (coeffs alpha (4 * (ind0 + m))).map fun cp =>
      let px := -(m : ℝ) * phiX
      let py := -(m : ℝ) * phiY
      let s := addXY s
        (harp (-(m : ℝ)) (Real.cos px * nf) (Real.sin px * nf) pds dpms cm.1 cm.2.1)
        (harp (-(m : ℝ)) (Real.cos py * nf) (Real.sin py * nf) pds dpms cm.2.2.1 cm.2.2.2)
      addXY s
        (harp (m : ℝ) (Real.cos px * nf) (-(Real.sin px * nf)) pds dpms cp.1 cp.2.1)
        (harp (m : ℝ) (Real.cos py * nf) (-(Real.sin py * nf)) pds dpms cp.2.2.1 cp.2.2.2)

/-- The sums of one direction (L59-116); the loop over `abs_m` goes down from `l` to 0. -/
def sums (alpha : Arr ℂ) (sinT cosT phiX phiY : ℝ) (lMax : Nat) : Option Sums :=
  loop (fun (s : Sums) (l : Nat) => loop (stepM alpha sinT cosT phiX phiY l) s (List.range (l + 1)).reverse)
    0 (List.range' 1 lMax)

/-- `theta_` (L46-47). -/
def clampTheta (t : ℝ) : ℝ := if t < 1 / 100000 then 1 / 100000 else t

/-- One iteration of the loop over points (L41-123). -/
def waveAt (theta phiX phiY : Arr ℝ) (lMax : Nat) (alpha : Arr ℂ) (offset : Int) (out : Arr ℂ) (i : Nat) :
    Option (Arr ℂ) :=
  (theta.read i).bind fun t =>
  (phiX.read i).bind fun px =>
  (phiY.read i).bind fun py =>
  (sums alpha (Real.sin (clampTheta t)) (Real.cos (clampTheta t)) px py lMax).bind fun s =>
  (out.write (4 * (i + offset) + 0) s.2.1).bind fun out =>
  (out.write (4 * (i + offset) + 1) s.1).bind fun out =>
  (out.write (4 * (i + offset) + 2) s.2.2.2).bind fun out =>
  out.write (4 * (i + offset) + 3) s.2.2.1

/-- The whole function (L28-124), the points in the given order. -/
def wave (theta phiX phiY : Arr ℝ) (lMax : Nat) (alpha : Arr ℂ) (offset : Int) (out : Arr ℂ)
    (order : List Nat) : Option (Arr ℂ) :=
  loop (waveAt theta phiX phiY lMax alpha offset) out order

end

end Sdp.Element
