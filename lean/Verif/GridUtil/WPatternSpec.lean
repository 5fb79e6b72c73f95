import Mathlib.Analysis.SpecialFunctions.Trigonometric.Basic
import Verif.Direct.Sphere

/-!
# C119: the w pattern, specification
-/

namespace Sdp.GridUtil
open Sdp.Direct

/-! ## Specification -/

/-- Image coordinate of row or column `i` of a grid of `N` that spans `theta`, its centre at `N/2`. -/
noncomputable def gridCoord (N : Nat) (theta : ℝ) (i : Nat) : ℝ := theta * (((i : ℝ) - (N / 2 : Nat)) / N)

/-- Element of the pattern at image coordinates `(l, m)`: `exp (2 pi i w n)` where `(l, m, n)` is the nearest
point of the sheared celestial sphere, not a number where the line of sight misses the sphere. -/
noncomputable def PatternEntry (hu hv w l m : ℝ) (x : Option ℂ) : Prop :=
  (x = none ∧ ¬ ∃ n, OnSphere hu hv l m n) ∨
  ∃ n, OnSphere hu hv l m n ∧ (∀ n', OnSphere hu hv l m n' → n' ≤ n) ∧
    x = some (Complex.exp (2 * Real.pi * Complex.I * (w * n)))

end Sdp.GridUtil
