import Mathlib.Analysis.SpecialFunctions.Trigonometric.Basic
import Verif.Direct.Model

/-!
# Grid correction of facets: model

`/repo/src/ska-sdp-func/grid_data/sdp_gridder_grid_correct.cpp` L17-116 (CPU), facets of
`nl × nm` complex pixels, C-contiguous, status clear.  Exact arithmetic, no integer
overflow.  `none` = access outside an array.  The rows are visited by an OpenMP loop, so
every function takes the order in which the pixels are visited.
-/

namespace Sdp.GridCorrect
noncomputable section
open Sdp.Direct

/-- Whole image and where the facet lies in it. -/
structure Fac where
  imageSize : Nat
  theta : ℝ
  wStep : ℝ
  hu : ℝ
  hv : ℝ
  nl : Nat
  nm : Nat
  offL : Int
  offM : Int

/-- `pl = il - num_l / 2 + facet_offset_l` (L52, L58, L101, L105). -/
def pixPos (num : Nat) (off : Int) (i : Nat) : Int := i - ((num / 2 : Nat) : Int) + off

/-- `pl * theta / image_size` (L53, L59, L102, L106). -/
def Fac.coord (f : Fac) (p : Int) : ℝ := p * f.theta / f.imageSize

/-- `lm_to_n(l_, m_, shear_u, shear_v)` for pixel `(il, im)` (L63, L107). -/
def Fac.n (f : Fac) (p : Nat × Nat) : ℝ :=
  lmToN f.hu f.hv (f.coord (pixPos f.nl f.offL p.1)) (f.coord (pixPos f.nm f.offM p.2))

/-- `w` for a pixel (L108-110). -/
def wFactor (f : Fac) (wOffset : Int) (inverse : Bool) (p : Nat × Nat) : ℂ :=
  let phase := 2 * Real.pi * f.wStep * f.n p * wOffset
  let w : ℂ := ⟨Real.cos phase, Real.sin phase⟩
  if !inverse then 1 / w else w

/-- `facet_(il, im) *= (T) w` (L111). -/
def wPixel (f : Fac) (wOffset : Int) (inverse : Bool) (a : Arr ℂ) (p : Nat × Nat) :
    Option (Arr ℂ) :=
  (a.read (index2 f.nm p.1 p.2)).bind fun x =>
  a.write (index2 f.nm p.1 p.2) (x * wFactor f wOffset inverse p)

/-- `grid_corr_w_stack` (L77-114). -/
def wStack (f : Fac) (wOffset : Int) (inverse : Bool) (order : List (Nat × Nat))
    (a : Arr ℂ) : Option (Arr ℂ) :=
  if wOffset = 0 then some a else loop (wPixel f wOffset inverse) a order

/-- The n-direction window: parameter `c` and `sdp_pswf_aswfa(0, 0, c, coe, .)`, which is
not modelled. -/
structure NWin where
  c : ℝ
  val : ℝ → ℝ

open Classical in
/-- `pswf_n` for a pixel (L57, L61-68). -/
def nWindow (f : Fac) (win : NWin) (p : Nat × Nat) : ℝ :=
  if 0 < win.c then
    let nx := |f.n p * 2 * f.wStep|
    if nx < 1 then win.val nx else 1
  else 1

/-- `facet_(il, im) *= scale` (L52-70); `pswf` are the values of `pswf_lm`. -/
def pswfPixel (f : Fac) (pswf : Arr ℝ) (win : NWin) (a : Arr ℂ) (p : Nat × Nat) :
    Option (Arr ℂ) :=
  (pswf.read (pixPos f.nl f.offL p.1 + ((f.imageSize / 2 : Nat) : Int))).bind fun pl =>
  (pswf.read (pixPos f.nm f.offM p.2 + ((f.imageSize / 2 : Nat) : Int))).bind fun pm =>
  (a.read (index2 f.nm p.1 p.2)).bind fun x =>
  a.write (index2 f.nm p.1 p.2) (x * ((1 / (pl * pm * nWindow f win p) : ℝ) : ℂ))

/-- `grid_corr_pswf` (L18-73).  The code generates `image_size` window values
(L136). -/
def pswfCorrect (f : Fac) (pswf : Arr ℝ) (win : NWin) (order : List (Nat × Nat))
    (a : Arr ℂ) : Option (Arr ℂ) :=
  loop (pswfPixel f pswf win) a order

end
end Sdp.GridCorrect
