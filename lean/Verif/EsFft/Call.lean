import Mathlib.Analysis.SpecialFunctions.Trigonometric.Basic
import Mathlib.Analysis.SpecialFunctions.Pow.Real
import Verif.Common.Outcome
import Verif.EsFft.Model
import Verif.EsFft.Kernels
import Verif.EsFft.Image

/-!
# ES gridder: whole calls

`sdp_grid_uvw_es_fft` and `sdp_ifft_degrid_uvw_es`,
`/repo/src/ska-sdp-func/grid_data/sdp_gridder_uvw_es_fft.cpp` L532-956, in exact real arithmetic.  The plan holds what
`sdp_gridder_uvw_es_fft_create_plan` (L276-529) stores.  A call is a relation to its possible outcomes: the atomic additions
of a gridding launch come in any order, and so do the threads of the other launches, which write disjoint elements; `none` is
a fault.  cuFFT is the exact DFT without a factor, and its plans can be made.
-/

namespace Sdp.EsFft
open Race (Then)
noncomputable section

/-- `sdp_GridderUvwEsFft` (L12-57).  `planes` is `num_total_w_grids`, 0 if negative; `kern` is `conv_corr_kernel`, `nConv`
the rest of the correction as in `scaleThread`.  The pixel sizes along x and y are equal (L293). -/
structure Plan where
  image : Nat
  grid : Nat
  support : Nat
  rows : Nat
  chans : Nat
  planes : Nat
  wstack : Bool
  pixel : ℝ
  beta : ℝ
  uvScale : ℝ
  wScale : ℝ
  minPlane : ℝ
  c0 : ℝ
  kern : Arr ℝ
  nConv : Nat → Nat → ℝ

/-- The buffers of a call. -/
structure Data where
  uvw : Arr ℝ
  freq : Arr ℝ
  weight : Arr ℝ
  vis : Arr (ℝ × ℝ)
  img : Arr ℝ

/-- Complex number of a pair. -/
def toC (z : ℝ × ℝ) : ℂ := ⟨z.1, z.2⟩

/-- Pair of a complex number. -/
def ofC (z : ℂ) : ℝ × ℝ := (z.re, z.im)

/-- Arguments of a (de)gridding launch for plane `b` (L578-585, L626-652, L832-839, L920-946): one plane at a time, and the
exponent of `exp_semicircle` (sdp_gridder_uvw_es_fft_kernels.cu L93-98). -/
def Plan.kargs (P : Plan) (b : Nat) : KArgs ℝ where
  rows := P.rows
  chans := P.chans
  gridSize := P.grid
  startW := b
  numW := 1
  support := P.support
  uvScale := P.uvScale
  wScale := P.wScale
  minPlane := P.minPlane
  c0 := P.c0
  psi x := Real.exp (P.beta * (Real.sqrt (1 - x * x) - 1))
  is3d := P.wstack

/-- `phase_shift` (sdp_gridder_uvw_es_fft_kernels.cu L106-122). -/
def phaseShift (w l m sg : ℝ) : ℝ × ℝ :=
  let sos := l * l + m * m
  let nm1 := -sos / (Real.sqrt (1 - sos) + 1)
  let x := 2 * Real.pi * w * nm1
  let xn := 1 / (nm1 + 1)
  (Real.cos (sg * x) * xn, Real.sin (sg * x) * xn)

/-- `shift` (sdp_gridder_uvw_es_fft_kernels.cu L466-476, L625-636); `inv_w_scale` is `1 / w_scale` (L385). -/
def Plan.screen (P : Plan) (sg : ℝ) (b : Nat) (i j : Nat) : ℝ × ℝ :=
  if P.wstack then phaseShift (b * (1 / P.wScale) + P.minPlane) (P.pixel * i) (P.pixel * j) sg else (1, 0)

/-- `sdp_fft_exec` on the plane (L660, L881): exponent `+` when gridding, `-` when degridding (sdp_fft.cpp L433). -/
def fft (sg : ℝ) (n : Nat) (s : Arr (ℝ × ℝ)) : Arr (ℝ × ℝ) :=
  ⟨s.size, fun k => ofC (∑ x ∈ Finset.range n, ∑ y ∈ Finset.range n, toC (s.get (n * x + y)) *
    Complex.exp (sg * (2 * Real.pi * ((x : ℝ) * (k / n : Nat) + y * (k % n : Nat)) / n : ℝ) * Complex.I))⟩

/-- The plane after `sdp_mem_clear_contents` (L586, L840). -/
def Plan.clear (P : Plan) : Arr (ℝ × ℝ) := ⟨P.grid * P.grid, fun _ => 0⟩

/-- A gridding launch (L589-657): the additions in some order. -/
def GridRun (a : KArgs ℝ) (d : Data) (stack : Arr (ℝ × ℝ)) (o : Option (Arr (ℝ × ℝ))) : Prop :=
  (gridOps a d.uvw d.freq d.weight d.vis = none ∧ o = none) ∨
    ∃ all ops, gridOps a d.uvw d.freq d.weight d.vis = some all ∧ ops.Perm all ∧ o = runOps stack ops

/-- The threads of a two-dimensional launch in some order. -/
def Threads {α : Type} (body : Arr α → Nat × Nat → Option (Arr α)) (m n : Nat) (s : Arr α) (o : Option (Arr α)) : Prop :=
  ∃ order, order.Perm (nest2 m n) ∧ o = loop body s order

/-- A launch of one of the image kernels with the threads for `npix` (L667-673, L709-713, L793-797, L848-854); the host
divides by the number of threads first. -/
def ImageRun {α : Type} (npix : Nat) (body : Arr α → Nat × Nat → Option (Arr α)) (s : Arr α) (o : Option (Arr α)) : Prop :=
  match imageLaunch npix with
  | none => o = none
  | some t => Threads body t t s o

/-- Degridding thread with its guard (sdp_gridder_uvw_es_fft_kernels.cu L154-155). -/
def degridGuard (a : KArgs ℝ) (d : Data) (grid vis : Arr (ℝ × ℝ)) (rc : Nat × Nat) : Option (Arr (ℝ × ℝ)) :=
  if rc.1 < a.rows ∧ rc.2 < a.chans then degridThread a d.uvw d.freq grid vis rc else some vis

/-- One iteration of the loop over planes when gridding (L578-698).  With the status set the loop ends (L587).  Buffers on
the CPU set the status when the arguments are collected (L627-635); no rows or channels make a launch without blocks, which
fails; then the remaining steps return at once. -/
def gridPlane (P : Plan) (npix : Nat) (gpu : Bool) (d : Data) (b : Nat) (s : Status × Arr ℝ)
    (o : Option (Status × Arr ℝ)) : Prop :=
  if s.1 ≠ .success then o = some s
  else if imageThreads npix = 0 then o = none
  else if gpu = false then o = some (.memLocation, s.2)
  else if P.rows = 0 ∨ P.chans = 0 then o = some (.runtime, s.2)
  else Then (GridRun (P.kargs b) d P.clear) (fun g =>
    Then (ImageRun npix (sumThread P.image P.grid 1 (fft 1 P.grid g) fun _ => P.screen (-1) b) s.2) fun img o =>
      o = some (.success, img)) o

/-- Correction of the image (L705-742, L789-826). -/
def scalePart (P : Plan) (npix : Nat) (gpu : Bool) (s : Status × Arr ℝ) (o : Option (Status × Arr ℝ)) : Prop :=
  if imageThreads npix = 0 then o = none
  else if s.1 ≠ .success then o = some s
  else if gpu = false then o = some (.memLocation, s.2)
  else Then (ImageRun npix (scaleThread P.image P.kern P.nConv) s.2) (fun img o => o = some (.success, img)) o

/-- One iteration of the loop over planes when degridding (L832-952); `img` is the corrected image. -/
def degridPlane (P : Plan) (npix : Nat) (gpu : Bool) (d : Data) (img : Arr ℝ) (b : Nat) (s : Status × Arr (ℝ × ℝ))
    (o : Option (Status × Arr (ℝ × ℝ))) : Prop :=
  if s.1 ≠ .success then o = some s
  else if imageThreads npix = 0 then o = none
  else if gpu = false then o = some (.memLocation, s.2)
  else Then (ImageRun npix (reverseThread P.image P.grid 1 img fun _ => P.screen 1 b) P.clear) (fun g o =>
    if P.rows = 0 ∨ P.chans = 0 then o = some (.runtime, s.2)
    else Then (Threads (degridGuard (P.kargs b) d (fft (-1) P.grid g)) (blocks P.rows 256 * 256) (blocks P.chans 1 * 1) s.2)
      (fun vis o => o = some (.success, vis)) o) o

/-- A loop whose steps have several outcomes. -/
def Steps {α : Type} (R : Nat → α → Option α → Prop) : List Nat → α → Option α → Prop
  | [], s, o => o = some s
  | b :: l, s, o => Then (R b s) (Steps R l) o

/-- `sdp_grid_uvw_es_fft` (L532-742): status and image. -/
def gridCall (plan : Option Plan) (uvw freq vis weight img : Mem) (d : Data) (status : Status)
    (o : Option (Status × Arr ℝ)) : Prop :=
  if status ≠ .success then o = some (status, d.img)
  else match plan with
  | none => o = some (status, d.img)
  | some P =>
    if checkBuffers uvw freq vis weight img false status ≠ .success then
      o = some (checkBuffers uvw freq vis weight img false status, d.img)
    else Then (Steps (gridPlane P (img.shapeDim 0).toNat (decide (vis.location = .gpu)) d) (List.range P.planes) (.success, d.img))
      (scalePart P (img.shapeDim 0).toNat (decide (vis.location = .gpu))) o

/-- `sdp_ifft_degrid_uvw_es` (L745-956): status, image and visibilities. -/
def degridCall (plan : Option Plan) (uvw freq vis weight img : Mem) (d : Data) (status : Status)
    (o : Option (Status × Arr ℝ × Arr (ℝ × ℝ))) : Prop :=
  if status ≠ .success then o = some (status, d.img, d.vis)
  else match plan with
  | none => o = some (status, d.img, d.vis)
  | some P =>
    if checkBuffers uvw freq vis weight img true status ≠ .success then
      o = some (checkBuffers uvw freq vis weight img true status, d.img, d.vis)
    else Then (scalePart P (img.shapeDim 0).toNat (decide (vis.location = .gpu)) (.success, d.img)) (fun s o =>
      Then (Steps (degridPlane P (img.shapeDim 0).toNat (decide (vis.location = .gpu)) d s.2) (List.range P.planes) (s.1, d.vis))
        (fun t o => o = some (t.1, s.2, t.2)) o) o

end
end Sdp.EsFft
