import Mathlib.Analysis.SpecialFunctions.Trigonometric.Basic
import Mathlib.Algebra.BigOperators.Ring.Finset

/-!
# Specification of the restored sky model (C97)

Nothing here refers to the code.
-/

namespace Sdp.Hogbom
noncomputable section

/-- Gaussian of unit peak with standard deviations `sx` along an axis turned by `deg` degrees and `sy` across it,
at offset `(u, v)` from its centre. -/
def gauss (sx sy deg u v : ℝ) : ℝ :=
  let c := Real.cos (Real.pi / 180 * deg)
  let s := Real.sin (Real.pi / 180 * deg)
  Real.exp (-(1 / 2) * (((u * c + v * s) / sx) ^ 2 + ((v * c - u * s) / sy) ^ 2))

/-- The Gaussian cut to a square of `n` pixels around its centre (for even `n` there is one pixel more on the
negative side). -/
def stamp (n : Nat) (sx sy deg : ℝ) (u v : Int) : ℝ :=
  if -((n / 2 : Nat) : Int) ≤ u ∧ u < n - ((n / 2 : Nat) : Int) ∧ -((n / 2 : Nat) : Int) ≤ v ∧
      v < n - ((n / 2 : Nat) : Int) then gauss sx sy deg u v else 0

/-- Components `m` of an image of side `D`, each replaced by the cut Gaussian centred `d` pixels further along
both axes, at pixel `(i, j)`. -/
def restored (D n : Nat) (sx sy deg : ℝ) (d : Int) (m : Nat → ℝ) (i j : Nat) : ℝ :=
  ∑ s ∈ Finset.range D, ∑ t ∈ Finset.range D,
    m (D * s + t) * stamp n sx sy deg ((i : Int) - s - d) ((j : Int) - t - d)

end
end Sdp.Hogbom
