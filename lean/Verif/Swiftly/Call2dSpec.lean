import Verif.Swiftly.PipelineSpec

/-! # C110: what the two-dimensional SwiFTly sequence should compute -/

namespace Sdp.Swiftly.Spec
open Finset
noncomputable section

/-- A facet of `size0` by `size1` pixels around pixel `(centre0, centre1)` of an image. -/
structure Facet2 where
  size0 : Nat
  size1 : Nat
  centre0 : Int
  centre1 : Int
  flux : Nat → Nat → ℂ

/-- Grid point `(u, v)` of one facet: the direct Fourier sum over its pixels, divided by the number of pixels of the image. -/
def Facet2.grid (N : Nat) (f : Facet2) (u v : Int) : ℂ :=
  1 / (N : ℂ) ^ 2 * ∑ j0 ∈ range f.size0, ∑ j1 ∈ range f.size1, f.flux j0 j1 *
    phase N (f.centre0 - (f.size0 / 2 : Nat) + j0) u * phase N (f.centre1 - (f.size1 / 2 : Nat) + j1) v

end
end Sdp.Swiftly.Spec
