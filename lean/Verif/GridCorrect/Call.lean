import Verif.GridCorrect.Model
import Verif.GridUtil.Scale
import Verif.Pswf.Model

/-!
# Grid correction as calls, on the CPU and on the GPU

`/repo/src/ska-sdp-func/grid_data/sdp_gridder_grid_correct.{cpp,cu}` with all checks of the arguments.  The facet lies
anywhere in a memory of complex numbers (real facets have imaginary part zero).  Every load and store of a pixel is a
step of the thread of that pixel; so are the iterations of the OpenMP loop (the code runs a row in one thread, which is
one of the interleavings).  Exact arithmetic; pixel counts and positions fit in `int`.  A quotient that is not a number
is a fault.
-/

namespace Sdp.GridCorrect
noncomputable section
open Sdp.Race Sdp.GridUtil

/-- Arguments that say where the facet lies. -/
structure Place where
  imageSize : Int
  theta : ℝ
  wStep : ℝ
  hu : ℝ
  hv : ℝ
  offL : Int
  offM : Int

/-- Extents from the descriptor, sdp_gridder_grid_correct.cpp:43-44, 95-96 and .cu:31-32, 69-70. -/
def Place.fac (g : Place) (v : View) : Fac :=
  ⟨g.imageSize.toNat, g.theta, g.wStep, g.hu, g.hv, rows v, cols v, g.offL, g.offM⟩

/-- A launch of 16 x 16 blocks, sdp_gridder_grid_correct.cpp:235-239 and 320-324, with the guard of the kernels, .cu:33
and 71: no blocks, no launch. -/
def launch (cuda : Bool) (m : Mem) (st : Status) (v : View) (body : Nat × Nat → Prog ℂ) : Run ℂ :=
  if st = .success ∧ (blocks (m.shapeDim 0).toNat 16 = 0 ∨ blocks (m.shapeDim 1).toNat 16 = 0) then Run.none .runtime
  else gpuRun cuda m st v body

/-- Body of the loop, sdp_gridder_grid_correct.cpp:101-111, and of the kernel, .cu:72-80. -/
def wBody (f : Fac) (wOffset : Int) (inverse : Bool) (v : View) (p : Nat × Nat) : Prog ℂ :=
  .read (addr v p) fun x => .write (addr v p) (x * wFactor f wOffset inverse p) .done

/-- `sdp_gridder_grid_correct_w_stack`, sdp_gridder_grid_correct.cpp:246-326 and 77-114. -/
def wStackCall (cuda : Bool) (g : Place) (m : Mem) (wOffset : Int) (inverse : Bool) (st : Status) : Run ℂ :=
  if st ≠ .success ∨ wOffset = 0 then Run.none st
  else match m.location with
  | .cpu =>
    if m.type = .complexDouble ∨ m.type = .complexFloat then
      let v := checkAndView m m.type 2 .cpu st
      if v.2 ≠ .success then Run.none v.2
      else cpuRun v.2 v.1 (wBody (g.fac v.1) wOffset inverse v.1)
    else Run.none .dataType
  | .gpu =>
    if m.type = .complexDouble ∨ m.type = .complexFloat then
      let v := checkAndView m m.type 2 .gpu st
      launch cuda m v.2 v.1 (wBody (g.fac v.1) wOffset inverse v.1)
    else Run.none .dataType
  | .other => Run.none st

open Classical in
/-- `pswf_n` of a pixel, sdp_gridder_grid_correct.cpp:57-68 and .cu:40-47. -/
def nValue (f : Fac) (pn : Pswf.Params) (p : Nat × Nat) : Option ℝ :=
  if 0 < pn.c then
    let nx := |f.n p * 2 * f.wStep|
    if nx < 1 then Pswf.aswfa 0 pn.c pn.coeff nx else some 1
  else some 1

open Classical in
/-- Body of the loop, sdp_gridder_grid_correct.cpp:52-70, and of the kernel, .cu:34-49. -/
def pswfBody (f : Fac) (vals : Arr ℝ) (pn : Pswf.Params) (v : View) (p : Nat × Nat) : Prog ℂ :=
  .need (vals.read (pixPos f.nl f.offL p.1 + ((f.imageSize / 2 : Nat) : Int))) fun pl =>
  .need (vals.read (pixPos f.nm f.offM p.2 + ((f.imageSize / 2 : Nat) : Int))) fun pm =>
  .need (nValue f pn p) fun n =>
  .need (if pl * pm * n = 0 then none else some (1 / (pl * pm * n))) fun scale =>
  .read (addr v p) fun x => .write (addr v p) (x * (scale : ℂ)) .done

/-- Types of facets, sdp_gridder_grid_correct.cpp:142-171 and 189-219. -/
def facetType (t : MemType) : Bool :=
  decide (t = .double ∨ t = .complexDouble ∨ t = .float ∨ t = .complexFloat)

/-- The array behind a cached copy; one without data is never read. -/
def asArr (c : Option Pswf.Cached) : Arr ℝ := let l := (c.getD none).getD []; ⟨l.length, fun i => l.getD i 0⟩

/-- `sdp_gridder_grid_correct_pswf`, sdp_gridder_grid_correct.cpp:119-243 and 18-73; `lm` and `pn` are the plans made in
lines 134-135 (sdp_pswf_create, modelled in `Pswf`), `allocOk` says whether there is memory for the window values. `none`
is the use of a null pointer. -/
def pswfCall (cuda allocOk : Bool) (lm pn : Pswf.Params) (g : Place) (m : Mem) (st : Status) : Option (Run ℂ) :=
  if st ≠ .success then some (Run.none st)
  else
    (Pswf.generateCached lm allocOk g.imageSize.toNat true (Pswf.fresh lm) st).bind fun s =>
    match m.location with
    | .cpu =>
      if facetType m.type then
        if s.2 ≠ .success then some (Run.none s.2)
        else
          let v := checkAndView m m.type 2 .cpu s.2
          (Pswf.queryValues cuda false s.1 v.2).bind fun q =>
          if q.2.2 ≠ .success then some (Run.none q.2.2)
          else some (cpuRun q.2.2 v.1 (pswfBody (g.fac v.1) (asArr q.2.1) pn v.1))
      else some (Run.none .dataType)
    | .gpu =>
      (Pswf.queryValues cuda true s.1 s.2).bind fun q =>
      let c := Pswf.queryCoeff cuda true (Pswf.fresh pn) q.2.2
      if facetType m.type then
        let v := checkAndView m m.type 2 .gpu c.2.2
        some (launch cuda m v.2 v.1
          (pswfBody (g.fac v.1) (asArr q.2.1) { pn with coeff := asArr (some c.2.1) } v.1))
      else some (Run.none .dataType)
    | .other => some (Run.none s.2)

end
end Sdp.GridCorrect
