import Verif.Swiftly.Call2dSpec

/-! # C116: what the two-dimensional SwiFTly sequence from subgrids to a facet should compute -/

namespace Sdp.Swiftly.Spec
open Finset
noncomputable section

/-- A subgrid of `size` by `size` grid points around `(centre0, centre1)`. -/
structure Subgrid2 where
  size : Nat
  centre0 : Int
  centre1 : Int
  vis : Nat → Nat → ℂ

/-- Pixel `(x, y)` of one subgrid: the direct conjugate Fourier sum over its points. -/
def Subgrid2.pixel (N : Nat) (g : Subgrid2) (x y : Int) : ℂ :=
  ∑ v0 ∈ range g.size, ∑ v1 ∈ range g.size, g.vis v0 v1 *
    phase N x (-(g.centre0 - (g.size / 2 : Nat) + v0)) * phase N y (-(g.centre1 - (g.size / 2 : Nat) + v1))

end
end Sdp.Swiftly.Spec
