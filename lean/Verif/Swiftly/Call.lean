import Verif.GridUtil.Scale
import Verif.Swiftly.Pipeline

/-!
# C110: model of whole calls of fourier_transforms/sdp_swiftly.cpp

The functions with their argument checks, on two-dimensional arrays with any strides.  A function that broadcasts along the
first axis takes each row out of the array, works on it (the one-row functions of `Swiftly.Model`) and puts it back: rows that
share no memory do not affect each other, so transforming each row at once and not after all rows were written changes nothing.
Inputs and outputs are different memory.  The tables of the plan pass their own checks; temporaries can be allocated.
-/

namespace Sdp.Swiftly
open Sdp.Fft Sdp.GridUtil
noncomputable section

/-- The `n` elements of row `r` of a view, sdp_mem_view.h:131-147. -/
def takeRow (v : View) (n : Nat) (a : Arr ℂ) (r : Nat) : Option (Arr ℂ) :=
  if ∀ j < n, 0 ≤ addr v (r, j) ∧ addr v (r, j) < a.size then
    some ⟨n, fun j => if j < n then a.get (addr v (r, j)).toNat else 0⟩
  else none

/-- Row `r` put back, sdp_mem_view.h:131-147. -/
def putRow (v : View) (n : Nat) (row a : Arr ℂ) (r : Nat) : Option (Arr ℂ) :=
  loop (fun a (j : Nat) => (row.read j).bind fun x => a.write (addr v (r, j)) x) a (List.range n)

/-- Broadcasting along the first axis from one array to another, e.g. sdp_swiftly.cpp:209-249. -/
def eachRow (vi vo : View) (f : Arr ℂ → Arr ℂ → Option (Arr ℂ)) (src out : Arr ℂ) : Option (Arr ℂ) :=
  loop (fun out (r : Nat) => (takeRow vi (cols vi) src r).bind fun x => (takeRow vo (cols vo) out r).bind fun y =>
    (f x y).bind fun z => putRow vo (cols vo) z out r) out (List.range (rows vo))

/-- Broadcasting along the first axis in place, e.g. sdp_swiftly.cpp:500-508. -/
def eachRowIn (v : View) (f : Arr ℂ → Option (Arr ℂ)) (a : Arr ℂ) : Option (Arr ℂ) :=
  loop (fun a (r : Nat) => (takeRow v (cols v) a r).bind fun x => (f x).bind fun z => putRow v (cols v) z a r) a
    (List.range (rows v))

/-- "Facet (subgrid) data too large", sdp_swiftly.cpp:185-191, 565-572, 1091-1098. -/
def sizeCheck (m : Mem) (limit : Int) (st : Sdp.Status) : Sdp.Status :=
  if (1 : Int) < m.numDims ∧ limit < m.shapeDim 1 then .invalidArgument else st

/-- `sdp_swiftly_prepare_facet`, sdp_swiftly.cpp:173-267. -/
def prepareFacetCall (c : Cfg) (Fb : Arr ℝ) (mi mo : Mem) (o : Int) (st : Sdp.Status) (src out : Arr ℂ) :
    Option (Sdp.Status × Arr ℂ) :=
  if st ≠ .success then some (st, out)
  else
    let v := checkAndViewConst mi .complexDouble 2 .cpu (sizeCheck mi c.yN st)
    let w := checkAndView mo .complexDouble 2 .cpu v.2
    let s := checkSameShape mi 0 mo 0 (checkShapeDim mo 1 c.yN w.2)
    if s ≠ .success then some (s, out)
    else (eachRow v.1 w.1 (fun x y => prepareFacet c (cols v.1) o x Fb y) src out).map fun r => (.success, r)

/-- `sdp_swiftly_extract_from_facet`, sdp_swiftly.cpp:270-343. -/
def extractFromFacetCall (c : Cfg) (mi mo : Mem) (u0 : Int) (st : Sdp.Status) (src out : Arr ℂ) :
    Option (Sdp.Status × Arr ℂ) :=
  if st ≠ .success then some (st, out)
  else
    let v := checkAndViewConst mi .complexDouble 2 .cpu st
    let w := checkAndView mo .complexDouble 2 .cpu (checkShapeDim mi 1 c.yN v.2)
    let s := checkSameShape mi 0 mo 0 (checkShapeDim mo 1 c.m w.2)
    if s ≠ .success then some (s, out)
    else (eachRow v.1 w.1 (extractFromFacet c u0) src out).map fun r => (.success, r)

/-- `sdp_swiftly_add_to_subgrid`, sdp_swiftly.cpp:346-396. -/
def addToSubgridCall (c : Cfg) (Fn : Arr ℝ) (mi mo : Mem) (o : Int) (st : Sdp.Status) (src out : Arr ℂ) :
    Option (Sdp.Status × Arr ℂ) :=
  if st ≠ .success then some (st, out)
  else
    let v := checkAndViewConst mi .complexDouble 2 .cpu st
    let w := checkAndView mo .complexDouble 2 .cpu (checkShapeDim mi 1 c.m v.2)
    let s := checkSameShape mi 0 mo 0 (checkShapeDim mo 1 c.xM w.2)
    if s ≠ .success then some (s, out)
    else (eachRow v.1 w.1 (addToSubgrid c o Fn) src out).map fun r => (.success, r)

/-- `sdp_swiftly_finish_subgrid_inplace`, sdp_swiftly.cpp:481-545. -/
def finishSubgridCall (c : Cfg) (m : Mem) (u0 : Int) (st : Sdp.Status) (a : Arr ℂ) : Option (Sdp.Status × Arr ℂ) :=
  if st ≠ .success then some (st, a)
  else
    let v := checkAndView m .complexDouble 2 .cpu st
    let s := checkShapeDim m 1 c.xM v.2
    if s ≠ .success then some (s, a)
    else if rows v.1 * c.xM = 0 then some (.success, a)
    else (eachRowIn v.1 (finishSubgrid c.xM.toNat u0) a).map fun r => (.success, r)

/-- `sdp_swiftly_finish_subgrid`, sdp_swiftly.cpp:548-624. -/
def finishSubgridOutCall (c : Cfg) (mi mo : Mem) (u0 : Int) (st : Sdp.Status) (src out : Arr ℂ) :
    Option (Sdp.Status × Arr ℂ) :=
  if st ≠ .success then some (st, out)
  else
    let v := checkAndViewConst mi .complexDouble 2 .cpu st
    let w := checkAndView mo .complexDouble 2 .cpu (checkShapeDim mi 1 c.xM v.2)
    let s := checkSameShape mi 0 mo 0 (sizeCheck mo c.xM w.2)
    if s ≠ .success then some (s, out)
    else (eachRow v.1 w.1 (finishSubgridOut c.xM.toNat (cols w.1) u0) src out).map fun r => (.success, r)

/-- `sdp_swiftly_prepare_subgrid_inplace`, sdp_swiftly.cpp:727-776. -/
def prepareSubgridCall (c : Cfg) (m : Mem) (u0 : Int) (st : Sdp.Status) (a : Arr ℂ) : Option (Sdp.Status × Arr ℂ) :=
  if st ≠ .success then some (st, a)
  else
    let v := checkAndView m .complexDouble 2 .cpu st
    let s := checkShapeDim m 1 c.xM v.2
    if s ≠ .success then some (s, a)
    else (eachRowIn v.1 (prepareSubgrid c.xM.toNat u0) a).map fun r => (.success, r)

/-- `sdp_swiftly_extract_from_subgrid`, sdp_swiftly.cpp:848-910. -/
def extractFromSubgridCall (c : Cfg) (Fn : Arr ℝ) (mi mo : Mem) (o : Int) (st : Sdp.Status) (src out : Arr ℂ) :
    Option (Sdp.Status × Arr ℂ) :=
  if st ≠ .success then some (st, out)
  else
    let v := checkAndViewConst mi .complexDouble 2 .cpu st
    let w := checkAndView mo .complexDouble 2 .cpu (checkShapeDim mi 1 c.xM v.2)
    let s := checkSameShape mi 0 mo 0 (checkShapeDim mo 1 c.m w.2)
    if s ≠ .success then some (s, out)
    else (eachRow v.1 w.1 (extractFromSubgrid c o Fn) src out).map fun r => (.success, r)

/-- `sdp_swiftly_add_to_facet`, sdp_swiftly.cpp:1017-1076. -/
def addToFacetCall (c : Cfg) (mi mo : Mem) (u0 : Int) (st : Sdp.Status) (src out : Arr ℂ) :
    Option (Sdp.Status × Arr ℂ) :=
  if st ≠ .success then some (st, out)
  else
    let v := checkAndViewConst mi .complexDouble 2 .cpu st
    let w := checkAndView mo .complexDouble 2 .cpu (checkShapeDim mi 1 c.m v.2)
    let s := checkSameShape mi 0 mo 0 (checkShapeDim mo 1 c.yN w.2)
    if s ≠ .success then some (s, out)
    else (eachRow v.1 w.1 (addToFacet c u0) src out).map fun r => (.success, r)

/-- `sdp_swiftly_finish_facet`, sdp_swiftly.cpp:1079-1157: also transforms its input in place. -/
def finishFacetCall (c : Cfg) (Fb : Arr ℝ) (mi mo : Mem) (o : Int) (st : Sdp.Status) (src out : Arr ℂ) :
    Option (Sdp.Status × Arr ℂ × Arr ℂ) :=
  if st ≠ .success then some (st, src, out)
  else
    let v := checkAndView mi .complexDouble 2 .cpu (sizeCheck mo c.yN st)
    let w := checkAndView mo .complexDouble 2 .cpu (checkShapeDim mi 1 c.yN v.2)
    let s := checkSameShape mo 0 mi 0 w.2
    if s ≠ .success then some (s, src, out)
    else
      (eachRowIn v.1 (fftRow false c.yN.toNat 1) src).bind fun src =>
      (eachRow v.1 w.1 (fun x y => takeFacet c (cols w.1) o x Fb y) src out).map fun r => (.success, src, r)

/-- The elements of an `n0` by `n1` view in row-major order, sdp_mem_view.h:131-147. -/
def takeBlock (v : View) (n0 n1 : Nat) (a : Arr ℂ) : Option (Arr ℂ) :=
  if ∀ i < n0, ∀ j < n1, 0 ≤ addr v (i, j) ∧ addr v (i, j) < a.size then
    some ⟨n0 * n1, fun k => if k < n0 * n1 then a.get (addr v (k / n1, k % n1)).toNat else 0⟩
  else none

/-- The elements of an `n0` by `n1` view put back, sdp_mem_view.h:131-147. -/
def putBlock (v : View) (n0 n1 : Nat) (b a : Arr ℂ) : Option (Arr ℂ) :=
  loop (fun a (p : Nat × Nat) => (b.read (n1 * p.1 + p.2 : Nat)).bind fun x => a.write (addr v p) x) a (nest2 n0 n1)

/-- `sdp_swiftly_add_to_subgrid_2d`, sdp_swiftly.cpp:399-478: the first dimensions are not checked.  The elements are taken
out of the arrays, worked on and put back. -/
def addToSubgrid2dCall (c : Cfg) (Fn : Arr ℝ) (mi mo : Mem) (o0 o1 : Int) (st : Sdp.Status) (src out : Arr ℂ) :
    Option (Sdp.Status × Arr ℂ) :=
  if st ≠ .success then some (st, out)
  else
    let v := checkAndViewConst mi .complexDouble 2 .cpu st
    let w := checkAndView mo .complexDouble 2 .cpu (checkShapeDim mi 1 c.m v.2)
    let s := checkShapeDim mo 1 c.xM w.2
    if s ≠ .success then some (s, out)
    else
      ((takeBlock v.1 c.m.toNat c.m.toNat src).bind fun x => (takeBlock w.1 c.xM.toNat c.xM.toNat out).bind fun y =>
        (addToSubgrid2d c o0 o1 Fn x y).bind fun z => putBlock w.1 c.xM.toNat c.xM.toNat z out).map fun r => (.success, r)

/-- `sdp_swiftly_finish_subgrid_inplace_2d`, sdp_swiftly.cpp:627-723. -/
def finishSubgrid2dCall (c : Cfg) (m : Mem) (u0 u1 : Int) (st : Sdp.Status) (a : Arr ℂ) : Option (Sdp.Status × Arr ℂ) :=
  if st ≠ .success then some (st, a)
  else
    let v := checkAndView m .complexDouble 2 .cpu st
    let s := checkShapeDim m 1 c.xM (checkShapeDim m 0 c.xM v.2)
    if s ≠ .success then some (s, a)
    else (finishSubgrid2d c.xM.toNat (v.1.stride.getD 0 0, v.1.stride.getD 1 0) u0 u1 a).map fun r => (.success, r)

/-- `sdp_swiftly_prepare_subgrid_inplace_2d`, sdp_swiftly.cpp:780-842. -/
def prepareSubgrid2dCall (c : Cfg) (m : Mem) (u0 u1 : Int) (st : Sdp.Status) (a : Arr ℂ) : Option (Sdp.Status × Arr ℂ) :=
  if st ≠ .success then some (st, a)
  else
    let v := checkAndView m .complexDouble 2 .cpu st
    let s := checkShapeDim m 1 c.xM (checkShapeDim m 0 c.xM v.2)
    if s ≠ .success then some (s, a)
    else (prepareSubgrid2d c.xM.toNat (v.1.stride.getD 0 0, v.1.stride.getD 1 0) u0 u1 a).map fun r => (.success, r)

/-- One facet of a two-dimensional sequence with the caller's arrays for it, tests/fourier_transforms/test_swiftly.py:214-236:
the facet, the facet prepared along the first axis and along both, the contribution along the first axis and along both.
`facetT` etc. are transposed views. -/
structure FacetArrays where
  off0 : Int
  off1 : Int
  facetT : Mem
  data : Arr ℂ
  prep0T : Mem
  prep0 : Mem
  buf0 : Arr ℂ
  prep : Mem
  prepT : Mem
  buf : Arr ℂ
  contrib0T : Mem
  contrib0 : Mem
  cbuf0 : Arr ℂ
  contrib : Mem
  cbuf : Arr ℂ

/-- The calls that add one facet to a subgrid, tests/fourier_transforms/test_swiftly.py:218-241. -/
def addFacet2d (c : Cfg) (Fn Fb : Arr ℝ) (u0 u1 : Int) (acc : Mem) (s : Sdp.Status × Arr ℂ) (f : FacetArrays) :
    Option (Sdp.Status × Arr ℂ) :=
  (prepareFacetCall c Fb f.facetT f.prep0T f.off0 s.1 f.data f.buf0).bind fun p0 =>
  (prepareFacetCall c Fb f.prep0 f.prep f.off1 p0.1 p0.2 f.buf).bind fun p =>
  (extractFromFacetCall c f.prepT f.contrib0T u0 p.1 p.2 f.cbuf0).bind fun c0 =>
  (extractFromFacetCall c f.contrib0 f.contrib u1 c0.1 c0.2 f.cbuf).bind fun c1 =>
  addToSubgrid2dCall c Fn f.contrib acc f.off0 f.off1 c1.1 c1.2 s.2

/-- Facets to a subgrid in two dimensions, tests/fourier_transforms/test_swiftly.py:218-256. -/
def toSubgrid2d (c : Cfg) (Fn Fb : Arr ℝ) (fs : List FacetArrays) (u0 u1 : Int) (acc : Mem) (st : Sdp.Status) (a : Arr ℂ) :
    Option (Sdp.Status × Arr ℂ) :=
  (loop (addFacet2d c Fn Fb u0 u1 acc) (st, a) fs).bind fun s => finishSubgrid2dCall c acc u0 u1 s.1 s.2

end
end Sdp.Swiftly
