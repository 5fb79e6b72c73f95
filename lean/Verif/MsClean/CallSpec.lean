import Verif.Hogbom.CallSpec

/-!
# Specification of the multi-scale CLEAN (C98)

Nothing here refers to the code.
-/

namespace Sdp.MsClean
noncomputable section

/-- Normalised round Gaussian of standard deviation `3/16` of the scale, at offset `(u, v)` from its centre; one
pixel of value 1 for scale 0. -/
def blob (scale : Int) (u v : Int) : ℝ :=
  if scale = 0 then (if u = 0 ∧ v = 0 then 1 else 0)
  else
    let sigma : ℝ := 3 / 16 * (scale : ℝ)
    1 / (2 * Real.pi * sigma ^ 2) * Real.exp (-((u : ℝ) ^ 2 + (v : ℝ) ^ 2) / (2 * sigma ^ 2))

/-- `k` cut to a square of `n` pixels around its centre (for even `n` there is one pixel more on the negative
side). -/
def cutTo (n : Nat) (k : Int → Int → ℝ) (u v : Int) : ℝ :=
  if -((n / 2 : Nat) : Int) ≤ u ∧ u < n - ((n / 2 : Nat) : Int) ∧ -((n / 2 : Nat) : Int) ≤ v ∧
      v < n - ((n / 2 : Nat) : Int) then k u v else 0

/-- Image `m` of side `D`, each pixel replaced by the cut kernel centred `d` pixels further along both axes, at
pixel `(i, j)`. -/
def smear (D n : Nat) (k : Int → Int → ℝ) (d : Int) (m : Nat → Nat → ℝ) (i j : Nat) : ℝ :=
  ∑ s ∈ Finset.range D, ∑ t ∈ Finset.range D, m s t * cutTo n k ((i : Int) - s - d) ((j : Int) - t - d)

/-- A component: number of its scale, pixel, amplitude. -/
structure Piece where
  s : Nat
  x : Nat
  y : Nat
  amp : ℝ

/-- The dirty image at a scale, moved by `d` pixels along both axes. -/
def dirtyAt (D : Nat) (d : Int) (scale : Int) (dirty : Nat → Nat → ℝ) : Nat → Nat → ℝ :=
  smear D (2 * D) (blob scale) d dirty

/-- The PSF of side `2D` at two scales, moved by `d` pixels along both axes for each of them. -/
def psfAt (D : Nat) (d : Int) (scale scale' : Int) (psf : Nat → Nat → ℝ) : Nat → Nat → ℝ :=
  smear (2 * D) (2 * D) (blob scale') d (smear (2 * D) (2 * D) (blob scale) d psf)

/-- What the components `l` leave of the dirty image at scale `s`: the PSF at that scale and at the scale of the
component is taken away at each of them, its pixel `(D, D)` on the component. -/
def left (D : Nat) (d : Int) (scales : Nat → Int) (gain : ℝ) (dirty psf : Nat → Nat → ℝ) (l : List Piece)
    (s i j : Nat) : ℝ :=
  dirtyAt D d (scales s) dirty i j -
    (l.map fun c => gain * c.amp * psfAt D d (scales s) (scales c.s) psf (D + i - c.x) (D + j - c.y)).sum

/-- `v` is the largest of 0 and the values of `f` in a square of side `n`. -/
def Peak (n : Nat) (f : Nat → Nat → ℝ) (v : ℝ) : Prop :=
  0 ≤ v ∧ (∀ i < n, ∀ j < n, f i j ≤ v) ∧ (v = 0 ∨ ∃ i < n, ∃ j < n, v = f i j)

/-- `c` is the component to take from the residuals `r` of `S` scales of weights `w`: its amplitude is the largest
of the residuals divided by the weight of their scale (or 0 if none is positive). -/
def Best (S D : Nat) (w : Nat → ℝ) (r : Nat → Nat → Nat → ℝ) (c : Piece) : Prop :=
  c.s < S ∧ c.x < D ∧ c.y < D ∧ 0 ≤ c.amp ∧ (0 < c.amp → c.amp = r c.s c.x c.y / w c.s) ∧
    ∀ s < S, ∀ i < D, ∀ j < D, r s i j / w s ≤ c.amp

end
end Sdp.MsClean
