import Mathlib.Analysis.SpecialFunctions.Complex.Circle
import Mathlib.Analysis.SpecialFunctions.Trigonometric.Basic
import Mathlib.Algebra.Field.GeomSum
import Mathlib.Tactic.FieldSimp
import Mathlib.Tactic.LinearCombination

/-!
# C102: what the SwiFTly sequences should compute

Independent of the model: direct Fourier sums between pixels of facets and points of the grid of an image of `N` pixels.
-/

namespace Sdp.Swiftly.Spec
open Finset
noncomputable section

/-- Phase of pixel `x` at grid point `u`: `exp(2 pi i x u / N)`. -/
def phase (N : Nat) (x u : Int) : ℂ := Complex.exp (2 * Real.pi * Complex.I * ((x * u : Int) / N))

/-- Fourier coefficient at grid distance `nu` of a window of `n` samples in an image of `N` pixels. -/
def leak (N n : Nat) (p : Nat → ℝ) (nu : Int) : ℂ :=
  1 / (n : ℂ) * ∑ j ∈ range n, (p j : ℂ) * phase N (j - (n / 2 : Nat)) (-nu)

/-- What a window of `n` samples leaves out when the `m` of its `n` grid points, `N / n` apart, nearest to `u0` are kept:
its Fourier coefficients at the other points, seen from `u`. -/
def residual (N n m : Nat) (p : Nat → ℝ) (u0 u : Int) : ℝ :=
  ∑ e ∈ range (n - m), ‖leak N n p ((N / n : Nat) * (u0.tdiv (N / n : Nat) - (m / 2 : Nat) + m + e) - u)‖

/-- A facet: `size` pixels around pixel `centre` of the image, pixel `j` being `centre - size / 2 + j`. -/
structure Facet where
  size : Nat
  centre : Int
  flux : Nat → ℂ

/-- Grid point `u` of one facet: `1/N` times the direct Fourier sum over its pixels. -/
def Facet.grid (N : Nat) (f : Facet) (u : Int) : ℂ :=
  1 / (N : ℂ) * ∑ j ∈ range f.size, f.flux j * phase N (f.centre - (f.size / 2 : Nat) + j) u

/-- A subgrid: `size` grid points around `centre`. -/
structure Subgrid where
  size : Nat
  centre : Int
  vis : Nat → ℂ

/-- Pixel `x` of one subgrid: the direct conjugate Fourier sum over its points. -/
def Subgrid.pixel (N : Nat) (g : Subgrid) (x : Int) : ℂ :=
  ∑ v ∈ range g.size, g.vis v * phase N x (-(g.centre - (g.size / 2 : Nat) + v))

end
end Sdp.Swiftly.Spec
