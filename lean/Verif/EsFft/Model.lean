import Mathlib.Algebra.Order.Floor.Ring
import Mathlib.Data.Rat.Floor
import Verif.Mem.Model
import Verif.Sizes.Model
import Verif.Common.Loops
import Verif.EsFft.Table

/-!
# ES gridder (host part): model

`/repo/src/ska-sdp-func/grid_data/sdp_gridder_uvw_es_fft.cpp` and
`sdp_gridder_uvw_es_fft_utils.{cpp,h}`.  `double` is exact; `int` does not overflow.
-/

namespace Sdp.EsFft

/-! ## Checks -/

/-- `sdp_gridder_check_buffers` (sdp_gridder_uvw_es_fft.cpp L72-243): the status after the call.
It does not look at the incoming status, which stays when nothing is wrong. -/
def checkBuffers (uvw freq vis weight img : Mem) (doDegridding : Bool) (status : Status) : Status :=
  if uvw.location ≠ freq.location ∨ uvw.location ≠ vis.location ∨
      uvw.location ≠ weight.location ∨ uvw.location ≠ img.location then .memLocation
  else if uvw.queryComplex then .dataType
  else if freq.queryComplex then .dataType
  else if ¬ vis.queryComplex then .dataType
  else if weight.queryComplex then .dataType
  else if img.queryComplex then .dataType
  else if uvw.shapeDim 0 ≠ vis.shapeDim 0 then .invalidArgument
  else if uvw.shapeDim 1 ≠ 3 then .invalidArgument
  else if freq.shapeDim 0 ≠ vis.shapeDim 1 then .invalidArgument
  else if weight.shapeDim 0 ≠ vis.shapeDim 0 ∨ weight.shapeDim 1 ≠ vis.shapeDim 1 then
    .invalidArgument
  else if img.shapeDim 0 ≠ img.shapeDim 1 then .invalidArgument
  else if uvw.type = .double ∧ (freq.type ≠ .double ∨ vis.type ≠ .complexDouble ∨
      weight.type ≠ .double ∨ img.type ≠ .double) then .dataType
  else if uvw.type ≠ .double ∧ (freq.type ≠ .float ∨ vis.type ≠ .complexFloat ∨
      weight.type ≠ .float ∨ img.type ≠ .float) then .dataType
  else if ¬ uvw.queryCContiguous ∨ ¬ freq.queryCContiguous ∨ ¬ vis.queryCContiguous ∨
      ¬ weight.queryCContiguous ∨ ¬ img.queryCContiguous then .invalidArgument
  else if doDegridding then
    if vis.queryReadOnly then .invalidArgument else status
  else
    if img.queryReadOnly then .invalidArgument else status

/-- `sdp_gridder_check_parameters` (L246-262). -/
def checkParameters (px py : ℚ) (status : Status) : Status :=
  if px ≠ py then .invalidArgument else status

/-! ## Kernel choice -/

/-- `2 * sdp_good_size_complex(int(image_size * os_factor * 0.5) + 1)` (utils.cpp L520-522,
L533). -/
def nuOf (image : Nat) (os : ℚ) : Option Int :=
  (Sizes.goodSize (⌊(image : ℚ) * os * (1 / 2)⌋ + 1)).map (2 * ·)

/-- `max_support` (utils.cpp L497). -/
def maxSupport (double : Bool) : Nat := if double then 16 else 8

/-- State of the first loop: `idx` and `os_factors` (L487-495), 20 entries each. -/
structure Best where
  idx : Arr Nat
  os : Arr ℚ

/-- L488-495. -/
def Best.init : Best := ⟨⟨20, fun _ => 243⟩, ⟨20, fun _ => 13 / 5⟩⟩

/-- Row `i` of a table; reading past its end is an error. -/
def rowAt (db : Array Row) (i : Nat) : Option Row := db[i]?

/-- One iteration of the first loop (L499-511). -/
def bestStep (db : Array Row) (eps : ℚ) (maxSup : Nat) (b : Best) (i : Nat) : Option Best :=
  (rowAt db i).bind fun r =>
  if r.support ≤ maxSup ∧ r.eps ≤ eps ∧ r.corr ≤ 10 then
    (b.os.read r.support).bind fun o =>
    if r.os ≤ o then
      (b.idx.write r.support i).bind fun idx =>
      (b.os.write r.support r.os).map fun os => ⟨idx, os⟩
    else some b
  else some b

/-- One iteration of the second loop (L515-529): `(min_nu, min_idx)`. -/
def minStep (db : Array Row) (image : Nat) (idx : Arr Nat) (s : Int × Nat) (i : Nat) :
    Option (Int × Nat) :=
  (idx.read (i : Int)).bind fun k =>
  (rowAt db k).bind fun r =>
  (nuOf image r.os).map fun nu => if nu ≤ s.1 then (nu, k) else s

/-- Results: `grid_size`, `support`, `beta`. -/
structure Params where
  gridSize : Int
  support : Nat
  beta : ℚ
  deriving DecidableEq

/-- `sdp_calculate_params_from_epsilon` (utils.cpp L224-537) with status clear. -/
def chooseParams (eps : ℚ) (image : Nat) (double : Bool) : Option Params :=
  (loop (bestStep kernelDB eps (maxSupport double)) Best.init (List.range 244)).bind fun b =>
  (loop (minStep kernelDB image b.idx) (80000, 244) (List.range 20)).bind fun s =>
  (rowAt kernelDB s.2).bind fun r =>
  (nuOf image r.os).map fun nu => ⟨nu, r.support, r.beta⟩

/-! ## W planes -/

/-- Results of the w-stacking set-up. -/
structure WPlanes (K : Type) where
  num : Int
  scale : K
  minPlane : K
  maxPlane : K

/-- W-stacking set-up of `sdp_gridder_uvw_es_fft_create_plan` (L344-373).  `nmin` is the
computed extreme of n - 1 (L347-353), not 0; `none` = division by zero. -/
def wPlanes {K : Type} [Field K] [LinearOrder K] [IsStrictOrderedRing K] [FloorRing K]
    (nmin : K) (support : Nat) (lo hi : K) : Option (WPlanes K) :=
  if nmin = 0 ∨ hi = lo then none else
  let s0 : K := 1 / 4 / |nmin|
  let x : K := (hi - lo) / s0 + 2
  let n : Int := if 0 ≤ x then ⌊x⌋ else ⌈x⌉
  if n = 1 then none else
  let s : K := 1 / ((1 + 1 / 10 ^ 13) * (hi - lo) / (((n - 1 : Int) : K)))
  some ⟨n + support - 2, s, lo - (1 / 2 * support - 1) / s, hi + (1 / 2 * support - 1) / s⟩

/-- `get_w_range` (utils.h L16-37) with the caller's initial values; `c0` is the speed of
light.  `none` = no channel. -/
def wRange {K : Type} [Field K] [LinearOrder K] (c0 : K) (rows chans : Nat) (uvw freq : Arr K)
    (lo hi : K) : Option (K × K) :=
  (loop (fun (s : K × K) (i : Nat) => (uvw.read ((3 * i + 2 : Nat) : Int)).map fun w =>
    let s1 : K × K := if |w| < s.1 then (|w|, s.2) else s
    if |w| > s1.2 then (s1.1, |w|) else s1) (lo, hi) (List.range rows)).bind fun s =>
  (freq.read 0).bind fun f0 =>
  (freq.read ((chans : Int) - 1)).map fun f1 => (s.1 * (f0 / c0), s.2 * (f1 / c0))

end Sdp.EsFft
