import Verif.Swiftly.Call

/-!
# C116: model of the calls that turn two-dimensional subgrids into a facet, fourier_transforms/sdp_swiftly.cpp

As in `Swiftly.Call`; in addition `sdp_swiftly_extract_from_subgrid_2d`, and the sequence of calls of
tests/fourier_transforms/test_swiftly.py:459-478 for any number of subgrids.
-/

namespace Sdp.Swiftly
open Sdp.Fft Sdp.GridUtil
noncomputable section

/-- `sdp_swiftly_extract_from_subgrid_2d`, sdp_swiftly.cpp:916-1010: the first dimensions are not checked.  The elements are
taken out of the arrays, worked on and put back. -/
def extractFromSubgrid2dCall (c : Cfg) (Fn : Arr ℝ) (mi mo : Mem) (o0 o1 : Int) (st : Sdp.Status) (src out : Arr ℂ) :
    Option (Sdp.Status × Arr ℂ) :=
  if st ≠ .success then some (st, out)
  else
    let v := checkAndViewConst mi .complexDouble 2 .cpu st
    let w := checkAndView mo .complexDouble 2 .cpu (checkShapeDim mi 1 c.xM v.2)
    let s := checkShapeDim mo 1 c.m w.2
    if s ≠ .success then some (s, out)
    else
      let m := c.m.toNat
      ((takeBlock v.1 c.xM.toNat c.xM.toNat src).bind fun x => (takeBlock w.1 m m out).bind fun y =>
        (windowSubgrid2d c o0 o1 Fn x y).bind fun z =>
        (fft2 true m (1 / (m : ℂ) / (m : ℂ)) ((m : Int), 1) ((m : Int), 1) z z).bind fun z =>
        putBlock w.1 m m z out).map fun r => (.success, r)

/-- One subgrid of a two-dimensional sequence with the caller's arrays for it,
tests/fourier_transforms/test_swiftly.py:458-473: the padded subgrid, the contribution extracted along the first axis and along
both, and the contribution added to a facet along the first axis.  `subT` etc. are transposed views. -/
structure SubgridArrays where
  off0 : Int
  off1 : Int
  sub : Mem
  subT : Mem
  data : Arr ℂ
  ext0T : Mem
  ext0 : Mem
  xbuf0 : Arr ℂ
  ext : Mem
  extT : Mem
  xbuf : Arr ℂ
  acc0T : Mem
  acc0 : Mem
  abuf0 : Arr ℂ

/-- Extraction along the two axes one after the other, tests/fourier_transforms/test_swiftly.py:463-466. -/
def extractTwice (c : Cfg) (Fn : Arr ℝ) (o0 o1 : Int) (g : SubgridArrays) (st : Sdp.Status) (a : Arr ℂ) :
    Option (Sdp.Status × Arr ℂ) :=
  (extractFromSubgridCall c Fn g.subT g.ext0T o0 st a g.xbuf0).bind fun e0 =>
  extractFromSubgridCall c Fn g.ext0 g.ext o1 e0.1 e0.2 g.xbuf

/-- Extraction along both axes at once, sdp_swiftly.cpp:916-1010. -/
def extractOnce (c : Cfg) (Fn : Arr ℝ) (o0 o1 : Int) (g : SubgridArrays) (st : Sdp.Status) (a : Arr ℂ) :
    Option (Sdp.Status × Arr ℂ) :=
  extractFromSubgrid2dCall c Fn g.sub g.ext o0 o1 st a g.xbuf

/-- The calls that add one subgrid to a facet, tests/fourier_transforms/test_swiftly.py:459-471; the contribution is extracted
in one call or in two. -/
def addSubgrid2d (c : Cfg) (Fn : Arr ℝ) (once : Bool) (o0 o1 : Int) (acc : Mem) (s : Sdp.Status × Arr ℂ) (g : SubgridArrays) :
    Option (Sdp.Status × Arr ℂ) :=
  (prepareSubgrid2dCall c g.sub g.off0 g.off1 s.1 g.data).bind fun p =>
  (if once then extractOnce c Fn o0 o1 g p.1 p.2 else extractTwice c Fn o0 o1 g p.1 p.2).bind fun e =>
  (addToFacetCall c g.extT g.acc0T g.off0 e.1 e.2 g.abuf0).bind fun a0 =>
  addToFacetCall c g.acc0 acc g.off1 a0.1 a0.2 s.2

/-- The caller's arrays for the facet, tests/fourier_transforms/test_swiftly.py:470-475: the sum over subgrids, the facet
finished along the first axis, and along both. -/
structure FacetOutArrays where
  acc : Mem
  accT : Mem
  sum : Arr ℂ
  facet0T : Mem
  facet0 : Mem
  fbuf0 : Arr ℂ
  facet : Mem
  fbuf : Arr ℂ

/-- Subgrids to a facet in two dimensions, tests/fourier_transforms/test_swiftly.py:459-475: the last array is the facet. -/
def toFacet2d (c : Cfg) (Fn Fb : Arr ℝ) (once : Bool) (gs : List SubgridArrays) (o0 o1 : Int) (f : FacetOutArrays)
    (st : Sdp.Status) : Option (Sdp.Status × Arr ℂ) :=
  (loop (addSubgrid2d c Fn once o0 o1 f.acc) (st, f.sum) gs).bind fun s =>
  (finishFacetCall c Fb f.accT f.facet0T o0 s.1 s.2 f.fbuf0).bind fun f0 =>
  (finishFacetCall c Fb f.facet0 f.facet o1 f0.1 f0.2.2 f.fbuf).map fun r => (r.1, r.2.2)

end
end Sdp.Swiftly
