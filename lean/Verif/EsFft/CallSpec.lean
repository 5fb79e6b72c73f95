import Verif.EsFft.Call

/-!
# What the ES gridder is to compute

A visibility and a pixel are connected by the sum over the grid points of all planes of three kernel values, the Fourier phase
between grid point and pixel, and the phase and factor of the plane at the pixel.
-/

namespace Sdp.EsFft
open Finset
noncomputable section

/-- The kernel: exponential of a semicircle within half the support of 0, and 0 elsewhere. -/
def Plan.tap (P : Plan) (t : ℝ) : ℝ :=
  if |t| ≤ P.support / 2 then Real.exp (P.beta * (Real.sqrt (1 - (t / (P.support / 2)) ^ 2) - 1)) else 0

/-- Side of the part of the image that is used: the largest even number of pixels. -/
def Plan.even (P : Plan) : Nat := 2 * (P.image / 2)

/-- Offset of a row or column from the centre of the image. -/
def Plan.off (P : Plan) (k : Nat) : ℝ := (k : ℝ) - (P.image / 2 : Nat)

/-- Offset of a grid point from the centre of the grid. -/
def Plan.gridOff (P : Plan) (x : Nat) : ℝ := (x : ℝ) - (P.grid / 2 : Nat)

/-- Cosine of the angle of a pixel from the centre: `n = sqrt(1 - l^2 - m^2)`. -/
def Plan.n (P : Plan) (row col : Nat) : ℝ := Real.sqrt (1 - (P.pixel * P.off row) ^ 2 - (P.pixel * P.off col) ^ 2)

/-- The w of plane `b`. -/
def Plan.planeAt (P : Plan) (b : Nat) : ℝ := b / P.wScale + P.minPlane

/-- Factor of plane `b` at a pixel: `exp(-2 pi i w (n - 1)) / n` with w stacking, 1 without. -/
def Plan.layer (P : Plan) (b row col : Nat) : ℂ :=
  if P.wstack then Complex.exp (-2 * Real.pi * P.planeAt b * (P.n row col - 1) * Complex.I) / P.n row col else 1

/-- Whether a visibility is replaced by its mirror image: with w stacking those of negative w. -/
def Plan.mirrored (P : Plan) (d : Data) (r : Nat) : Prop := P.wstack = true ∧ d.uvw.get (3 * r + 2) < 0

open Classical in
/-- Coordinate `k` of the visibility, in wavelengths, mirrored if need be. -/
def Plan.coord (P : Plan) (d : Data) (r c k : Nat) : ℝ :=
  (if P.mirrored d r then -1 else 1) * d.uvw.get (3 * r + k) * d.freq.get c / P.c0

open Classical in
/-- The visibility, conjugated if mirrored. -/
def Plan.mirror (P : Plan) (d : Data) (r : Nat) (z : ℂ) : ℂ := if P.mirrored d r then (starRingEnd ℂ) z else z

/-- Place of the visibility between the planes. -/
def Plan.height (P : Plan) (d : Data) (r c : Nat) : ℝ :=
  if P.wstack then (P.coord d r c 2 - P.minPlane) * P.wScale else 0

/-- What connects visibility `(r, c)` with pixel `(row, col)`. -/
def Plan.wave (P : Plan) (d : Data) (r c row col : Nat) : ℂ :=
  ∑ b ∈ range P.planes, ∑ x ∈ range P.grid, ∑ y ∈ range P.grid,
    (P.tap (P.gridOff x - P.coord d r c 0 * P.uvScale) * P.tap (P.gridOff y - P.coord d r c 1 * P.uvScale) *
      P.tap (b - P.height d r c) : ℝ) *
    Complex.exp (2 * Real.pi * (P.gridOff x * P.off row + P.gridOff y * P.off col) / P.grid * Complex.I) * P.layer b row col

/-- The correction of a pixel: products of the tabulated corrections. -/
def Plan.corr (P : Plan) (row col : Nat) : ℝ :=
  P.kern.get ((row : Int) - (P.image / 2 : Nat)).natAbs * P.kern.get ((col : Int) - (P.image / 2 : Nat)).natAbs *
    P.nConv ((col : Int) - (P.image / 2 : Nat)).natAbs ((row : Int) - (P.image / 2 : Nat)).natAbs

/-- Visibility `(r, c)`. -/
def Plan.visAt (P : Plan) (v : Arr (ℝ × ℝ)) (r c : Nat) : ℂ := toC (v.get (P.chans * r + c))

/-- Pixel `(row, col)`. -/
def Plan.pix (P : Plan) (i : Arr ℝ) (row col : Nat) : ℝ := i.get (P.image * row + col)

/-- A plan and buffers that go together: an image that is not empty, a grid of even side larger than the image by two
points, tables of the right size, corrections other than zero, an image within the hemisphere when stacking; buffers of
the sizes of the plan, and kernels of at most 16 grid points. -/
structure Plan.Ready (P : Plan) (d : Data) : Prop where
  image : 0 < P.image
  grid : P.grid % 2 = 0
  larger : P.even + 2 ≤ P.grid
  support : 0 < P.support
  rows : 0 < P.rows
  chans : 0 < P.chans
  kern : P.kern.size = P.image / 2 + 1
  corr : ∀ row col, row < P.even → col < P.even → P.corr row col ≠ 0
  sky : P.wstack = true → 2 * (P.pixel * (P.image / 2 : Nat)) ^ 2 < 1
  uvw : d.uvw.size = 3 * P.rows
  freq : d.freq.size = P.chans
  weight : d.weight.size = P.rows * P.chans
  vis : d.vis.size = P.rows * P.chans
  img : d.img.size = P.image * P.image
  fits : ∀ r c, r < P.rows → c < P.chans → ∀ k < 2,
    ((range P.grid).filter fun x => |P.gridOff x - P.coord d r c k * P.uvScale| ≤ P.support / 2).card ≤ 16

/-- Buffers on the GPU that the calls accept, with an image of the plan's size. -/
structure Accepted (P : Plan) (uvw freq vis weight img : Mem) (deg : Bool) : Prop where
  check : checkBuffers uvw freq vis weight img deg .success = .success
  gpu : vis.location = .gpu
  side : img.shapeDim 0 = P.image

end
end Sdp.EsFft
