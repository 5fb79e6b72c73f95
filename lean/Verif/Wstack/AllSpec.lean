import Verif.Wstack.Images
import Verif.Wstack.Props
import Verif.WTower.Whole
import Verif.GridCorrect.Props
import Verif.GridUtil.SubgridProps

/-!
# C89: specification of the whole calls

What degridding an image does to one visibility, and what one visibility contributes to the
gridded image, as plain sums.  No schedule, no task, no buffer.
-/

namespace Sdp.Wstack

open Sdp.Clamp Sdp.Fft Sdp.WTower Sdp.GridCorrect Sdp.Direct Finset

noncomputable section

/-- Where a visibility is (de)gridded: w-plane `k` of the stack, box `(a, b)` in `(u, v)`, plane
`p` of the w-tower. -/
structure Spot where
  k : Int
  a : Int
  b : Int
  p : Int

/-- `u`, `v`, `w` (axis 0, 1, 2) of visibility `(i, c)` in wavelengths. -/
def Setup.at (su : Setup) (j i c : Nat) : ℝ :=
  su.uvw.get (3 * i + j) * ((su.f0 + su.df * c) / su.c0)

/-- The box contains the visibility, and so does the plane of the tower. -/
structure Near (su : Setup) (i c : Nat) (q : Spot) : Prop where
  w : |su.at 2 i c - q.k * (su.height * su.pl.wStep)| ≤ su.height * su.pl.wStep / 2
  u : |su.at 0 i c - q.a * (su.eff / su.pl.theta)| ≤ su.eff / su.pl.theta / 2
  v : |su.at 1 i c - q.b * (su.eff / su.pl.theta)| ≤ su.eff / su.pl.theta / 2
  lo : (q.p + su.offW q.k - 1) * su.pl.wStep ≤ su.at 2 i c
  hi : su.at 2 i c ≤ (q.p + su.offW q.k) * su.pl.wStep

/-- The third direction cosine (minus 1, with shear) of image pixel `(x, y)`. -/
def Setup.nAt (su : Setup) (x y : Nat) : ℝ :=
  lmToN su.hu su.hv (direction su.size su.pl.theta su.size 0 x)
    (direction su.size su.pl.theta su.size 0 y)

/-- Window the image is divided by. -/
def Setup.window (su : Setup) (x y : Nat) : ℝ :=
  su.pswf.get x * su.pswf.get y * windowAt su.win su.pl.wStep (su.nAt x y)

/-- Factor of pixel `(x, y)` on w-plane `k`: window, and phase screen of sign `sign`. -/
def Setup.factorAt (su : Setup) (sign : ℝ) (k : Int) (x y : Nat) : ℂ :=
  screen (sign * (su.offW k * su.pl.wStep)) (su.nAt x y) / (su.window x y : ℂ)

/-- Grid of w-plane `k`. -/
def Setup.gridOf (su : Setup) (k : Int) (img : Nat → Nat → ℂ) (X Y : Nat) : ℂ :=
  centred false su.size su.size (fun x y => img x y * su.factorAt (-1) k x y) X Y

/-- Sub-grid of box `(a, b)` of a grid. -/
def Setup.cutOf (su : Setup) (a b : Int) (g : Nat → Nat → ℂ) (x y : Nat) : ℂ :=
  g (GridUtil.pos su.size su.pl.n (a * su.eff) x) (GridUtil.pos su.size su.pl.n (b * su.eff) y)

/-- Image of the sub-grid of box `(a, b)` of a grid. -/
def Setup.subOf (su : Setup) (a b : Int) (g : Nat → Nat → ℂ) (x y : Nat) : ℂ :=
  centred true su.pl.n su.pl.n (su.cutOf a b g) x y * (1 / ((su.pl.n : ℂ) * (su.pl.n : ℂ)))

/-- All visibilities, seen from box `(a, b)` of w-plane `k`. -/
def Setup.obs (su : Setup) (k a b : Int) : Obs ℝ :=
  taskObs su k ({ Task.blank with iu := a, iv := b }, (allStart su.cfg, allEnd su.cfg))

/-- Kernel weight of tower pixel `(l, x, y)` for visibility `(i, c)`. -/
def Setup.tap (su : Setup) (q : Spot) (i c l x y : Nat) : ℂ :=
  wt su.pl (su.obs q.k q.a q.b) q.p i c l x y

/-- Visibility degridded at `q` from sub-grid image `s`: kernel sum over the tower, whose layer
`l` is the transform of `s` moved to w-plane `p + l - w_support / 2`. -/
def Setup.degridSub (su : Setup) (q : Spot) (i c : Nat) (s : Nat → Nat → ℂ) : ℂ :=
  ∑ l ∈ range su.pl.wSupport, ∑ x ∈ range su.pl.n, ∑ y ∈ range su.pl.n, su.tap q i c l x y *
    planeGrid su.pl.n (im su.pl.n su.pat) s (q.p + l - ((su.pl.wSupport / 2 : Nat) : Int)) x y

/-- **Degridded value** of visibility `(i, c)` at `q`. -/
def Setup.degridAt (su : Setup) (q : Spot) (i c : Nat) (img : Nat → Nat → ℂ) : ℂ :=
  su.degridSub q i c (su.subOf q.a q.b (su.gridOf q.k img))

/-- Sub-grid image of a unit visibility `(i, c)` at `q`. -/
def Setup.gridSub (su : Setup) (q : Spot) (i c : Nat) (x y : Nat) : ℂ :=
  ∑ l ∈ range su.pl.wSupport,
    im su.pl.n su.pat x y ^ (q.p + l - ((su.pl.wSupport - su.pl.wSupport / 2 : Nat) : Int)) *
      centred true su.pl.n su.pl.n (su.tap q i c l) x y

/-- A sub-grid placed on the grid. -/
def Setup.placeOf (su : Setup) (a b : Int) (s : Nat → Nat → ℂ) (X Y : Nat) : ℂ :=
  ∑ x ∈ range su.pl.n, ∑ y ∈ range su.pl.n,
    if GridUtil.pos su.size su.pl.n (a * su.eff) x = X ∧
        GridUtil.pos su.size su.pl.n (b * su.eff) y = Y then s x y else 0

/-- Grid of a unit visibility: transform of its sub-grid image, scaled and placed. -/
def Setup.gridGrid (su : Setup) (q : Spot) (i c : Nat) (X Y : Nat) : ℂ :=
  su.placeOf q.a q.b (fun x y => centred false su.pl.n su.pl.n (su.gridSub q i c) x y *
    (((su.size : ℂ) / (su.pl.n : ℂ)) ^ 2)) X Y

/-- **Contribution** of a unit visibility `(i, c)` at `q` to image pixel `(x, y)`. -/
def Setup.gridAt (su : Setup) (q : Spot) (i c : Nat) (x y : Nat) : ℂ :=
  centred true su.size su.size (su.gridGrid q i c) x y *
    (1 / ((su.size : ℂ) * (su.size : ℂ))) * su.factorAt 1 q.k x y

/-- Ordinary inputs. -/
structure Setup.Ok (su : Setup) : Prop where
  plan : su.pl.Made
  env : Env su.pl su.pat
  even : su.size % 2 = 0
  size : 0 < su.size
  theta : 0 < su.pl.theta
  wStep : 0 < su.pl.wStep
  height : 0 < su.height
  threads : 0 < su.threads
  c0 : 0 < su.c0
  df : 0 < su.df
  uvw : su.uvw.size = 3 * su.numRows
  rows : 0 < su.numRows
  chan : 0 < su.numChan
  /-- the used part of a sub-grid leaves room for the kernel -/
  eff : 0 < su.eff
  margin : su.eff + 2 * (((su.pl.support + 1) / 2 : Nat) : Int) + 2 ≤ su.pl.n
  pswf : su.pswf.size = su.size
  window : ∀ x < su.size, ∀ y < su.size, su.window x y ≠ 0
  /-- the numerical guard of the channel selection misjudges no row -/
  guardU : ∀ r < su.numRows, GuardOk (base su.cfg r 0) (step su.cfg r 0) su.cfg.dUv su.numChan
  guardV : ∀ r < su.numRows, GuardOk (base su.cfg r 1) (step su.cfg r 1) su.cfg.dUv su.numChan
  guardW : ∀ r < su.numRows, GuardOk (base su.cfg r 2) (step su.cfg r 2) su.cfg.dW su.numChan
  tower : ∃ W, (∀ i < su.numRows, ∀ c < su.numChan, |su.at 2 i c| ≤ W) ∧
    ∀ i < su.numRows, su.uvw.get (3 * i + 2) = 0 ∨
      2 * W + 4 * su.pl.wStep < 2147483645 * |su.df * su.uvw.get (3 * i + 2) / su.c0|
  chans : (su.numChan : Int) * (2 * su.pl.wOv) < 2147483645

/-- What the adjointness needs in addition: real kernels, unimodular w pattern, even number of
w layers. -/
structure Setup.Symmetric (su : Setup) : Prop where
  kuv : ∀ j, star (su.pl.uvKernel.get j) = su.pl.uvKernel.get j
  kw : ∀ j, star (su.pl.wKernel.get j) = su.pl.wKernel.get j
  pat : ∀ x, x < su.pl.n → ∀ y, y < su.pl.n →
    star (im su.pl.n su.pat x y) * im su.pl.n su.pat x y = 1
  even : su.pl.wSupport % 2 = 0

end
end Sdp.Wstack
