import Mathlib.Analysis.SpecialFunctions.Trigonometric.Basic
import Verif.Common.Loops

/-!
# Direct (DFT) gridding and degridding: model

`/repo/src/ska-sdp-func/grid_data/sdp_gridder_utils.{h,cpp}` (`lm_to_n`,
`count_nonzero_pixels`, `dft`, `idft`, `image_to_flmn`, `sdp_gridder_make_w_pattern`,
`sdp_gridder_determine_w_step`), `sdp_gridder_direct.cpp` and
`sdp_gridder_grid_correct.cpp`.  Exact arithmetic, CPU, C-contiguous arrays, status
clear, no integer overflow.  `none` = access outside an array.
-/

namespace Sdp.Direct
noncomputable section

/-- `lm_to_n` (sdp_gridder_utils.h:396-413).  For a negative radicand the code gives
NaN; the model's value there has no meaning. -/
def lmToN (hu hv l m : ℝ) : ℝ :=
  if hu = 0 ∧ hv = 0 then √(1 - l * l - m * m) - 1
  else
    let a := hu * l + hv * m - 1
    let b := hu * hu + hv * hv + 1
    (√(a * a - b * (l * l + m * m)) + a) / b

/-- `sdp_gridder_determine_w_step` (sdp_gridder_utils.cpp:1016-1039). -/
def determineWStep (theta fov hu hv x0 : ℝ) : ℝ :=
  let x0 := if x0 = 0 then fov / theta else x0
  let v1 := lmToN hu hv (-fov / 2) (-fov / 2)
  let v2 := lmToN hu hv (fov / 2) (-fov / 2)
  let v3 := lmToN hu hv (-fov / 2) (fov / 2)
  let v4 := lmToN hu hv (fov / 2) (fov / 2)
  let fovN := 2 * -(min (min v1 v2) (min v3 v4))
  1 / (fovN / x0)

/-- Pixel coordinate `(i - size / 2) * theta / size` (sdp_gridder_utils.cpp:351, 354). -/
def pixCoord (theta : ℝ) (size i : Nat) : ℝ :=
  ((i : ℝ) - ((size / 2 : Nat) : ℝ)) * theta / size

section image
variable {P : Type} [Zero P] [DecidableEq P]

/-- `count_nonzero_pixels` (sdp_gridder_utils.cpp:105-121) on an image of shape
`[n0, n1]`: both loops end at `n0`. -/
def countNonzero (n0 n1 : Nat) (image : Arr P) : Option Nat :=
  loop (fun acc (p : Nat × Nat) =>
    (image.read (index2 n1 p.1 p.2)).bind fun x => some (if x ≠ 0 then acc + 1 else acc))
    0 (nest2 n0 n0)

/-- Parameters of the conversion. -/
structure Geo where
  theta : ℝ
  hu : ℝ
  hv : ℝ

/-- `lmn_(k, 0..2) = ...` (sdp_gridder_utils.cpp:363-365, 376-378). -/
def writeLmn (g : Geo) (n0 n1 : Nat) (lmn : Arr ℝ) (k : Nat) (p : Nat × Nat) :
    Option (Arr ℝ) :=
  let l := pixCoord g.theta n0 p.1
  let m := pixCoord g.theta n1 p.2
  (lmn.write ((3 * k : Nat) : Int) l).bind fun lmn =>
  (lmn.write ((3 * k + 1 : Nat) : Int) m).bind fun lmn =>
  lmn.write ((3 * k + 2 : Nat) : Int) (lmToN g.hu g.hv l m)

/-- `image_taper_1d ? taper_(il) * taper_(im) : 1.0` (sdp_gridder_utils.cpp:359-361,
314). -/
def taperVal (taper : Option (Arr ℝ)) (p : Nat × Nat) : Option ℝ :=
  match taper with
  | none => some 1
  | some t => (t.read p.1).bind fun a => (t.read p.2).bind fun b => some (a * b)

/-- Pixel body of `image_to_flmn` with fluxes (sdp_gridder_utils.cpp:354-367); state:
number of sources so far, `flux`, `lmn`.  `re` is `std::real`. -/
def flmnPixel (re : P → ℝ) (g : Geo) (n0 n1 : Nat) (image : Arr P) (taper : Option (Arr ℝ))
    (st : Nat × Arr ℝ × Arr ℝ) (p : Nat × Nat) : Option (Nat × Arr ℝ × Arr ℝ) :=
  (image.read (index2 n1 p.1 p.2)).bind fun x =>
  if x ≠ 0 then
    (taperVal taper p).bind fun t =>
    (st.2.1.write st.1 (re x * t)).bind fun flux =>
    (writeLmn g n0 n1 st.2.2 st.1 p).bind fun lmn =>
    some (st.1 + 1, flux, lmn)
  else some st

/-- `image_to_flmn` with fluxes (sdp_gridder_utils.cpp:322-368). -/
def imageToFlmn (re : P → ℝ) (g : Geo) (n0 n1 : Nat) (image : Arr P)
    (taper : Option (Arr ℝ)) (flux lmn : Arr ℝ) : Option (Nat × Arr ℝ × Arr ℝ) :=
  loop (flmnPixel re g n0 n1 image taper) (0, flux, lmn) (nest2 n0 n1)
end image

/-- `image_to_flmn` without fluxes (sdp_gridder_utils.cpp:369-380): the counter is
incremented with the pixel, so it is the linear pixel index. -/
def imageToLmn (g : Geo) (n0 n1 : Nat) (lmn : Arr ℝ) : Option (Arr ℝ) :=
  loop (fun lmn (p : Nat × Nat) => writeLmn g n0 n1 lmn (n1 * p.1 + p.2) p) lmn (nest2 n0 n1)

/-- Visibility coordinates: uvw in metres, channels, subgrid offsets, optional channel
ranges. -/
structure Obs where
  numUvw : Nat
  numChan : Nat
  uvw : Arr ℝ
  f0 : ℝ
  df : ℝ
  chs : Option (Arr Int × Arr Int)
  offU : Int
  offV : Int
  offW : Int
  theta : ℝ
  wStep : ℝ

/-- "Scale subgrid offset values" (sdp_gridder_utils.cpp:165-171, 262-268). -/
def Obs.shift (o : Obs) : ℝ × ℝ × ℝ :=
  if 0 < o.theta then (o.offU / o.theta, o.offV / o.theta, o.offW * o.wStep) else (0, 0, 0)

/-- Negation of the skip test (sdp_gridder_utils.cpp:178, 284). -/
def Obs.active (o : Obs) (i : Nat) : Option Bool :=
  match o.chs with
  | none => some true
  | some (s, e) => (s.read i).bind fun a => (e.read i).bind fun b => some (decide (a < b))

/-- Scaled and shifted coordinates (sdp_gridder_utils.cpp:183-188, 294-299). -/
def Obs.coords (o : Obs) (i c : Nat) : Option (ℝ × ℝ × ℝ) :=
  let k := (o.f0 + o.df * c) / 299792458
  (o.uvw.read ((3 * i : Nat) : Int)).bind fun u =>
  (o.uvw.read ((3 * i + 1 : Nat) : Int)).bind fun v =>
  (o.uvw.read ((3 * i + 2 : Nat) : Int)).bind fun w =>
  some (u * k - o.shift.1, v * k - o.shift.2.1, w * k - o.shift.2.2)

/-- `sign * 2 pi (l u + m v + n w)` and its phasor (sdp_gridder_utils.cpp:194-196,
301-303). -/
def phasor (sign : ℝ) (lmn : Arr ℝ) (s : Nat) (q : ℝ × ℝ × ℝ) : Option ℂ :=
  (lmn.read ((3 * s : Nat) : Int)).bind fun l =>
  (lmn.read ((3 * s + 1 : Nat) : Int)).bind fun m =>
  (lmn.read ((3 * s + 2 : Nat) : Int)).bind fun n =>
  let phase := sign * 2 * Real.pi * (l * q.1 + m * q.2.1 + n * q.2.2)
  some ⟨Real.cos phase, Real.sin phase⟩

/-- Source loop of `dft` (sdp_gridder_utils.cpp:191-198). -/
def sourceSum (lmn flux : Arr ℝ) (q : ℝ × ℝ × ℝ) : Option ℂ :=
  loop (fun acc (s : Nat) =>
    (phasor (-1) lmn s q).bind fun ph =>
    (flux.read s).bind fun f => some (acc + (f : ℂ) * ph)) 0 (List.range flux.size)

/-- Row and channel body of `dft` (sdp_gridder_utils.cpp:176-203).  Simplification: the
row test is repeated for every channel. -/
def dftBody (o : Obs) (flux lmn : Arr ℝ) (vis : Arr ℂ) (x : Nat × Nat) : Option (Arr ℂ) :=
  (o.active x.1).bind fun a =>
  if a then
    (o.coords x.1 x.2).bind fun q =>
    (sourceSum lmn flux q).bind fun v =>
    vis.addAt (index2 o.numChan x.1 x.2) v
  else some vis

/-- `dft` (sdp_gridder_utils.cpp:124-206); the OpenMP row loop is a visiting order of
(row, channel) pairs. -/
def dft (o : Obs) (flux lmn : Arr ℝ) (order : List (Nat × Nat)) (vis : Arr ℂ) :
    Option (Arr ℂ) :=
  loop (dftBody o flux lmn) vis order

/-- Visibility loop of `idft` for source/pixel `s` (sdp_gridder_utils.cpp:281-307). -/
def visSum (o : Obs) (vis : Arr ℂ) (lmn : Arr ℝ) (s : Nat) : Option ℂ :=
  loop (fun acc (x : Nat × Nat) =>
    (o.active x.1).bind fun a =>
    if a then
      (o.coords x.1 x.2).bind fun q =>
      (phasor 1 lmn s q).bind fun ph =>
      (vis.read (index2 o.numChan x.1 x.2)).bind fun v => some (acc + v * ph)
    else some acc) 0 (nest2 o.numUvw o.numChan)

/-- Pixel body of `idft` (sdp_gridder_utils.cpp:276-316); both loops end at shape[0], so
the image is taken to be square of side `n`. -/
def idftBody (o : Obs) (n : Nat) (vis : Arr ℂ) (lmn : Arr ℝ) (taper : Option (Arr ℝ))
    (image : Arr ℂ) (p : Nat × Nat) : Option (Arr ℂ) :=
  (visSum o vis lmn (n * p.1 + p.2)).bind fun x =>
  (taperVal taper p).bind fun t =>
  image.addAt (index2 n p.1 p.2) (x * (t : ℂ))

/-- `idft` (sdp_gridder_utils.cpp:211-318). -/
def idft (o : Obs) (n : Nat) (vis : Arr ℂ) (lmn : Arr ℝ) (taper : Option (Arr ℝ))
    (order : List (Nat × Nat)) (image : Arr ℂ) : Option (Arr ℂ) :=
  loop (idftBody o n vis lmn taper) image order

/-- `sdp_gridder_direct_degrid` (sdp_gridder_direct.cpp:60-100), complex image of shape
`[n0, n1]`, double precision, `taper` is `pswf_sg`.  New arrays are zero-filled. -/
def directDegrid (o : Obs) (g : Geo) (n0 n1 : Nat) (image : Arr ℂ) (taper : Arr ℝ)
    (order : List (Nat × Nat)) (vis : Arr ℂ) : Option (Arr ℂ) :=
  open Classical in
  (countNonzero n0 n1 image).bind fun num =>
  (imageToFlmn Complex.re g n0 n1 image (some taper) ⟨num, fun _ => 0⟩
    ⟨3 * num, fun _ => 0⟩).bind fun st =>
  dft o st.2.1 st.2.2 order vis

/-- `sdp_gridder_direct_grid` (sdp_gridder_direct.cpp:123-160), image of shape `[n, n]`. -/
def directGrid (o : Obs) (g : Geo) (n : Nat) (taper : Arr ℝ) (vis : Arr ℂ)
    (order : List (Nat × Nat)) (image : Arr ℂ) : Option (Arr ℂ) :=
  (imageToLmn g n n ⟨3 * (n * n), fun _ => 0⟩).bind fun lmn =>
  idft o n vis lmn (some taper) order image

end
end Sdp.Direct
