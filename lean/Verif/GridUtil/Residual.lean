import Verif.GridUtil.Scale
import Mathlib.Analysis.SpecialFunctions.Trigonometric.Basic
import Mathlib.Analysis.SpecialFunctions.Pow.NNReal

/-!
# Model of `sdp_gridder_residual`, `sdp_gridder_rms_diff` and `sdp_gridder_make_kernel`
(grid_data/sdp_gridder_utils.cpp)

Whole calls on descriptors, in the manner of `GridUtil/Scale`.  Exact arithmetic.
-/

namespace Sdp.GridUtil
open Sdp.Race
noncomputable section

/-- Combinations of types, sdp_gridder_utils.cpp:1435-1463 and 1506-1534. -/
def diffTypes (ta tb : MemType) : Bool :=
  decide (ta = .complexDouble ∧ (tb = .complexDouble ∨ tb = .complexFloat) ∨
    ta = .complexFloat ∧ tb = .complexFloat ∨ ta = .double ∧ (tb = .double ∨ tb = .float) ∨
    ta = .float ∧ tb = .float)

/-- An input copied to the memory of the CPU if need be, sdp_gridder_utils.cpp:1425-1434 and 1496-1505; the
copy has the strides of the original and its first `num_elements` values (sdp_mem.cpp:310-322).
`cuda`: copies from a device can be made. -/
def fetch (cuda : Bool) (m : Mem) (src : Option (Arr ℂ)) (st : Status) :
    Option (Mem × Option (Arr ℂ) × Status) :=
  if m.location = .cpu then some (m, src, st)
  else if st ≠ .success then some ({ m with location := .cpu }, src, st)
  else if m.location = .gpu ∧ cuda = true then
    match src with
    | some a =>
      if m.numElements ≤ a.size then
        some ({ m with location := .cpu }, some ⟨m.numElements.toNat, a.get⟩, .success)
      else none
    | none => none
  else some ({ m with location := .cpu }, src, .memLocation)

/-- Body of `residual`, sdp_gridder_utils.cpp:453. -/
def residualBody (vo va vb : View) (a b : Option (Arr ℂ)) (p : Nat × Nat) : Prog ℂ :=
  source a (addr va p) fun x => source b (addr vb p) fun y => .write (addr vo p) (x - y) .done

/-- The tests of `sdp_gridder_residual` before any copy, sdp_gridder_utils.cpp:1394-1424. -/
def residualCheck (ma mb mo : Mem) (st : Status) : Status :=
  if st ≠ .success then st
  else if ma.numDims ≠ 2 ∨ mb.numDims ≠ 2 ∨ mo.numDims ≠ 2 then .invalidArgument
  else if ma.shapeDim 0 ≠ mb.shapeDim 0 ∨ ma.shapeDim 1 ≠ mb.shapeDim 1 ∨
      ma.shapeDim 0 ≠ mo.shapeDim 0 ∨ ma.shapeDim 1 ≠ mo.shapeDim 1 then .invalidArgument
  else if ma.type ≠ mo.type then .invalidArgument
  else if mo.location ≠ .cpu then .memLocation
  else .success

/-- `sdp_gridder_residual`, sdp_gridder_utils.cpp:1383-1466, with `residual`, 430-456; an input `none` is the
output array itself. -/
def residualCall (cuda : Bool) (ma mb mo : Mem) (st : Status) (a b : Option (Arr ℂ)) : Option (Run ℂ) :=
  let s := residualCheck ma mb mo st
  if s ≠ .success then some (Run.none s)
  else
    (fetch cuda ma a s).bind fun fa =>
    (fetch cuda mb b fa.2.2).bind fun fb =>
      if diffTypes ma.type mb.type then
        if fb.2.2 ≠ .success then some (Run.none fb.2.2)
        else
          let va := checkAndViewConst fa.1 ma.type 2 .cpu fb.2.2
          let vb := checkAndViewConst fb.1 mb.type 2 .cpu va.2
          let vo := checkAndView mo mo.type 2 .cpu vb.2
          if vo.2 ≠ .success then some (Run.none vo.2)
          else some ⟨.success, nest2 (rows va.1) (cols va.1), residualBody vo.1 va.1 vb.1 fa.2.1 fb.2.1⟩
      else some (Run.none .dataType)

/-- What `sdp_gridder_rms_diff` returns. -/
inductive Rms
  | infinity | nan | value (x : ℝ)

/-- `rms_diff`, sdp_gridder_utils.cpp:459-482: the number of elements is an `int`; `order` is the order in
which the terms are added. -/
def rmsDiff (va vb : View) (a b : Arr ℂ) (order : List (Nat × Nat)) : Option Rms :=
  if (rows va : Int) * cols va > 2147483647 then none
  else
    (loop (fun acc p => (a.read (addr va p)).bind fun x => (b.read (addr vb p)).bind fun y =>
      some (acc + Complex.normSq (x - y))) (0 : ℝ) order).bind fun sum =>
    some (if rows va * cols va = 0 then .nan else .value (Real.sqrt (sum / (rows va * cols va : Nat))))

/-- `sdp_gridder_rms_diff`, sdp_gridder_utils.cpp:1469-1538. -/
def rmsCall (cuda : Bool) (ma mb : Mem) (st : Status) (a b : Arr ℂ) (order : List (Nat × Nat)) :
    Option (Status × Rms) :=
  if st ≠ .success then some (st, .infinity)
  else if ma.numDims ≠ 2 ∨ mb.numDims ≠ 2 then some (.invalidArgument, .infinity)
  else if ma.shapeDim 0 ≠ mb.shapeDim 0 ∨ ma.shapeDim 1 ≠ mb.shapeDim 1 then some (.invalidArgument, .infinity)
  else
    (fetch cuda ma (some a) st).bind fun fa =>
    (fetch cuda mb (some b) fa.2.2).bind fun fb =>
      if diffTypes ma.type mb.type then
        if fb.2.2 ≠ .success then some (fb.2.2, .infinity)
        else
          let va := checkAndViewConst fa.1 ma.type 2 .cpu fb.2.2
          let vb := checkAndViewConst fb.1 mb.type 2 .cpu va.2
          if vb.2 ≠ .success then some (vb.2, .infinity)
          else (rmsDiff va.1 vb.1 (fa.2.1.getD a) (fb.2.1.getD b) order).map fun x => (.success, x)
      else some (.dataType, .infinity)

/-- Inner loop of `make_kernel`, sdp_gridder_utils.cpp:411-422; `p` is (row, column).  With one row
`du * inv_oversampling` is zero times infinity, no number. -/
def kernelVal (support os : Int) (stride : Int) (window : Arr ℝ) (p : Nat × Nat) : Option ℝ :=
  if os = 0 then none
  else
    let half : Int := support / 2
    let u : ℝ := ((p.2 : Int) - half : Int) - ((p.1 : Int) - os : Int) * (1 / os)
    loop (fun val (s : Nat) => (window.read (stride * s)).bind fun w =>
      some (val + w * Real.cos (2 * Real.pi * u * (((s : Int) - half : Int) * (1 / support))))) 0
      (List.range support.toNat)

/-- Body of `make_kernel`, sdp_gridder_utils.cpp:409-425. -/
def kernelBody (support os : Int) (vk : View) (stride : Int) (window : Arr ℝ) (p : Nat × Nat) : Prog ℝ :=
  .need (kernelVal support os stride window p) fun val => .write (addr vk p) (val * (1 / support)) .done

/-- `sdp_gridder_make_kernel`, sdp_gridder_utils.cpp:1305-1326, with `make_kernel`, 384-428. -/
def kernelCall (mw mk : Mem) (st : Status) (window : Arr ℝ) : Run ℝ :=
  if st ≠ .success then Run.none st
  else if mw.type = .double ∧ mk.type = .double ∨ mw.type = .float ∧ mk.type = .float then
    let w := checkAndViewConst mw mw.type 1 .cpu st
    let v := checkAndView mk mk.type 2 .cpu w.2
    if v.2 ≠ .success then Run.none v.2
    else if mw.shapeDim 0 ≠ mk.shapeDim 1 then Run.none .invalidArgument
    else ⟨.success, nest2 (mk.shapeDim 0).toNat (mw.shapeDim 0).toNat,
      kernelBody (mw.shapeDim 0) (mk.shapeDim 0 - 1) v.1 (w.1.stride.getD 0 0) window⟩
  else Run.none .dataType

/-- The two halves of the double 1e-15, read as floats: 0x9EE75616 and 0x3CD203AF. -/
def lowHalf : ℝ := -7580427 / 2 ^ 88
def highHalf : ℝ := 13763503 / 2 ^ 29

/-- The store of eight bytes at the start of the window, sdp_gridder_utils.cpp:1347; `w` is its contents as
elements of type `t`.  The type of other windows is refused later, their contents do not matter. -/
def pswfPatch (t : MemType) (n : Int) (w : Arr ℝ) : Option (Arr ℝ) :=
  if n.tmod 2 ≠ 0 then some w
  else if n * t.size < 8 then none
  else match t with
    | .double => some (w.put 0 (1 / 10 ^ 15))
    | .float => some ((w.put 0 lowHalf).put 1 highHalf)
    | _ => some w

/-- `sdp_gridder_make_pswf_kernel`, sdp_gridder_utils.cpp:1329-1350.  `gen n` is the window of `n` values that
`sdp_generate_pswf` makes (Verif/Pswf; it refuses other types, sdp_pswf.cpp:752-776, and an empty window is
written at element 0, sdp_pswf.cpp:585).  Allocation succeeds. -/
def pswfKernelCall (gen : Nat → Nat → ℝ) (mk : Mem) (st : Status) : Option (Run ℝ) :=
  if st ≠ .success then some (Run.none st)
  else if mk.numDims ≠ 2 then some (Run.none .invalidArgument)
  else
    let n := mk.shapeDim 1
    let c := createWrapper (some ⟨0, 0⟩) mk.type .cpu [n] none st
    let s := if c.2 ≠ .success then c.2
      else if mk.type = .double ∨ mk.type = .float ∨ mk.type = .complexFloat ∨ mk.type = .complexDouble then
        .success else .dataType
    (pswfPatch mk.type n ⟨n.toNat, gen n.toNat⟩).bind fun w => some (kernelCall c.1 mk s w)

end
end Sdp.GridUtil
