import Verif.Clamp.Model
import Verif.Common.Race
import Verif.Common.Launch
import Verif.Common.Desc

/-!
# Channel clamping as a call, on the CPU and on the GPU

`/repo/src/ska-sdp-func/grid_data/sdp_gridder_clamp_channels.{cpp,cu}`.  The four channel arrays lie somewhere in one
memory of integers, so that inputs and outputs may share cells; every load and store of a channel number is a step
of the thread of its row, and steps of different threads interleave.  The iterations of the OpenMP loop are threads
like those of the kernel.  Exact arithmetic.
-/

namespace Sdp.Clamp
open Sdp.Race

variable {K : Type} [Field K] [LinearOrder K] [IsStrictOrderedRing K] [FloorRing K]

/-- A channel array: its descriptor, and where its data start in the memory. -/
structure Slot where
  desc : Mem
  base : Nat

/-- Where `start_ch_in(i)`, `end_ch_in(i)`, `start_ch_out(i)`, `end_ch_out(i)` are. -/
structure Cells where
  si : Int
  ei : Int
  so : Int
  eo : Int

/-- Statements for one coordinate of one row, sdp_gridder_clamp_channels.cpp:39-64 (`copy`), 100-125 (`copy`) and
128-148 (not `copy`); sdp_gridder_clamp_channels.cu:27-52, 76-101, 104-124.  Simplification: the macros `MAX` and
`MIN` evaluate an argument once. -/
def axisProg (c : Cells) (copy : Bool) (u0 du lo hi : K) (k : Prog Int) : Prog Int :=
  let last := .read c.eo fun e => .read c.so fun s => .write c.eo (max e s) k
  if eta u0 lo hi < |du| then
    .need (ceil64 ((lo - u0) / du)) fun mins =>
    .need (ceil64 ((hi - u0) / du)) fun maxs =>
    .need (cast32 (if 0 < du then mins else maxs)) fun start =>
    .need (cast32 (if 0 < du then maxs else mins)) fun stop =>
    .read c.si fun s => .write c.so (max s start) <| .read c.ei fun e => .write c.eo (min e stop) last
  else if u0 < lo ∨ hi ≤ u0 then .write c.so 0 <| .write c.eo 0 last
  else if copy then .read c.si fun s => .write c.so s <| .read c.ei fun e => .write c.eo e last
  else last

/-- Row `i` of `clamp_channels_single`, sdp_gridder_clamp_channels.cpp:39-64 and .cu:27-52; `vu` is the view of the
coordinates. -/
def singleRow (c0 : K) (uvw : Arr K) (dim : Int) (freq0 dfreq lo hi : K) (vu : View) (c : Cells) (i : Int) :
    Prog Int :=
  .need (uvw.read (dot [i, dim] vu.stride)) fun u =>
  axisProg c true (u * (freq0 / c0)) (u * (dfreq / c0)) lo hi .done

/-- Row `i` of `clamp_channels_uv`, sdp_gridder_clamp_channels.cpp:100-148 and .cu:76-124. -/
def uvRow (c0 : K) (uvw : Arr K) (freq0 dfreq loU hiU loV hiV : K) (vu : View) (c : Cells) (i : Int) : Prog Int :=
  .need (uvw.read (dot [i, 0] vu.stride)) fun u =>
  axisProg c true (u * (freq0 / c0)) (u * (dfreq / c0)) loU hiU <|
  .read c.so fun s => .read c.eo fun e =>
    if s ≥ e then .done
    else .need (uvw.read (dot [i, 1] vu.stride)) fun v =>
      axisProg ⟨c.so, c.eo, c.so, c.eo⟩ false (v * (freq0 / c0)) (v * (dfreq / c0)) loV hiV .done

/-- Address of `view(i)`; a null pointer is no address. -/
def place (b : Nat) (v : View) (i : Int) : Int := if v.ptr = none then -1 else b + dot [i] v.stride

/-- What a call does: the status it returns, and the threads it runs. -/
structure Job where
  status : Status
  threads : List Int
  prog : Int → Prog Int

/-- A call that touches nothing. -/
def Job.none (st : Status) : Job := ⟨st, [], fun _ => .done⟩

/-- The CPU functions, sdp_gridder_clamp_channels.cpp:27-65 and 88-149: the views, then the loop, whatever the
status is. -/
def cpuJob (row : View → Cells → Int → Prog Int) (mU : Mem) (si ei so eo : Slot) (a b : Int) (st : Status) : Job :=
  let u := checkAndViewConst mU mU.type 2 .cpu st
  let v1 := checkAndViewConst si.desc .int 1 .cpu u.2
  let v2 := checkAndViewConst ei.desc .int 1 .cpu v1.2
  let v3 := checkAndView so.desc .int 1 .cpu v2.2
  let v4 := checkAndView eo.desc .int 1 .cpu v3.2
  ⟨v4.2, rowsOf a b, fun i =>
    row u.1 ⟨place si.base v1.1 i, place ei.base v2.1 i, place so.base v3.1 i, place eo.base v4.1 i⟩ i⟩

/-- The launches, sdp_gridder_clamp_channels.cpp:200-248 and 299-348, and the guard of the kernels,
sdp_gridder_clamp_channels.cu:24-26, 73-75.  A launch is refused after an error, without a device and for no
blocks. -/
def gpuJob (cuda : Bool) (row : View → Cells → Int → Prog Int) (mU : Mem) (si ei so eo : Slot) (a b : Int)
    (st : Status) : Job :=
  let v1 := checkAndViewConst si.desc .int 1 .gpu st
  let v2 := checkAndViewConst ei.desc .int 1 .gpu v1.2
  let v3 := checkAndView so.desc .int 1 .gpu v2.2
  let v4 := checkAndView eo.desc .int 1 .gpu v3.2
  if ¬ (mU.type = .double ∨ mU.type = .float) then Job.none .dataType
  else
    let u := checkAndViewConst mU mU.type 2 .gpu v4.2
    if u.2 ≠ .success then Job.none u.2
    else if cuda = false ∨ blocks (mU.shapeDim 0).toNat 256 = 0 then Job.none .runtime
    else ⟨.success, rowsOf 0 (blocks (mU.shapeDim 0).toNat 256 * 256), fun t =>
      let i := t + a
      if i ≥ b ∨ i ≥ u.1.shape.getD 0 0 then .done
      else row u.1 ⟨place si.base v1.1 i, place ei.base v2.1 i, place so.base v3.1 i, place eo.base v4.1 i⟩ i⟩

/-- `sdp_gridder_clamp_channels_single` and `_uv`, sdp_gridder_clamp_channels.cpp:155-250 and 253-350; `row` is
`singleRow ..` or `uvRow ..`. -/
def clampCall (cuda : Bool) (row : View → Cells → Int → Prog Int) (mU : Mem) (si ei so eo : Slot)
    (startRow endRow : Int) (st : Status) : Job :=
  if st ≠ .success then Job.none st
  else
    let rr := rowRange (mU.shapeDim 0) startRow endRow
    match mU.location with
    | .cpu =>
      if mU.type = .double ∨ mU.type = .float then cpuJob row mU si ei so eo rr.1 rr.2 st
      else Job.none .dataType
    | .gpu => gpuJob cuda row mU si ei so eo rr.1 rr.2 st
    | .other => Job.none st

end Sdp.Clamp
