import Verif.Fft.Props
import Verif.Common.Desc

/-!
# Model of the FFT plan functions of fourier_transforms/sdp_fft.cpp as calls

Build without CUDA, MKL and PocketFFT.  Exact complex arithmetic; sizes fit in `int`, but products of sizes
need not.  Data of C-contiguous arrays; memory allocation succeeds.
-/

namespace Sdp.Fft
noncomputable section

/-- `check_params`, sdp_fft.cpp:295-356.  The error for the types is overwritten if the number of dimensions is
wrong too (340-355). -/
def checkParams (mi mo : Mem) (nd : Int) (st : Status) : Status :=
  let badDims := nd ≠ mi.numDims ∧ nd ≠ (mi.numDims : Int) - 1
  if st ≠ .success then st
  else if mo.queryReadOnly then .runtime
  else if mi.location ≠ mo.location then .memLocation
  else if mi.numDims ≠ mo.numDims then .runtime
  else if ¬ mi.queryCContiguous ∨ ¬ mo.queryCContiguous then .runtime
  else if mi.queryComplex ∧ mo.queryComplex then
    if ∃ i ∈ List.range mi.numDims, mi.shapeDim (i : Nat) ≠ mo.shapeDim (i : Nat) then .runtime
    else if badDims then .runtime else .success
  else if badDims then .runtime else .dataType

/-- `sdp_Fft`, sdp_fft.cpp:270-292: the descriptors given to `sdp_fft_create` and its parameters. -/
structure Plan where
  inM : Mem
  outM : Mem
  dims : Int
  nx : Int
  ny : Int
  batch : Int
  fwd : Int

/-- `sdp_fft_create_native`, sdp_fft.cpp:679-737: sizes and status. -/
def createNative (mi : Mem) (nd : Int) : (Int × Int) × Status :=
  let last : Int := (mi.numDims : Int) - 1
  let nx := if nd = 1 then mi.shapeDim last else if nd = 2 then mi.shapeDim (last - 1) else 0
  let ny := if nd = 1 then 1 else if nd = 2 then mi.shapeDim last else 0
  let xStride := if nd = 1 ∨ nd = 2 then mi.strideElementsDim last else 0
  let yStride := if nd = 1 then nx else if nd = 2 then mi.strideElementsDim (last - 1) else 0
  let bStride := if (mi.numDims : Int) ≠ nd then mi.strideElementsDim 0 else nx * ny
  ((nx, ny), if nd > 2 ∨ (xStride ≠ 1 ∧ yStride ≠ nx ∧ bStride ≠ nx * ny) then .dataType else .success)

/-- `sdp_fft_create`, sdp_fft.cpp:816-880. -/
def fftCreate (mi mo : Mem) (nd fwd : Int) (st : Status) : Option Plan × Status :=
  let s := checkParams mi mo nd st
  if s ≠ .success then (none, s)
  else
    let batch := if (mi.numDims : Int) ≠ nd then mi.shapeDim 0 else 1
    match mi.location with
    | .gpu => (some ⟨mi, mo, nd, 0, 0, batch, fwd⟩, .runtime)
    | .cpu =>
      let c := createNative mi nd
      (some ⟨mi, mo, nd, c.1.1, c.1.2, batch, fwd⟩, c.2)
    | .other => (some ⟨mi, mo, nd, 0, 0, batch, fwd⟩, .memLocation)

/-- Both arrays have the same complex floating-point type, sdp_fft.cpp:752-753, 764-765. -/
def sameFloat (mi mo : Mem) : Prop :=
  (mi.type = .complexFloat ∧ mo.type = .complexFloat) ∨ (mi.type = .complexDouble ∧ mo.type = .complexDouble)

instance (mi mo : Mem) : Decidable (sameFloat mi mo) := by unfold sameFloat; infer_instance

/-- `sdp_fft_exec`, sdp_fft.cpp:883-921, with `sdp_fft_exec_native`, sdp_fft.cpp:741-811.  `same`: input and
output are the same memory.  `o1`, `o2` are the orders of the parallel loops.  Returns the status, the output
and the work array of the plan; `none` if memory outside an array is accessed. -/
def fftExec (p : Option Plan) (mi mo : Mem) (st : Status) (o1 o2 : List Nat) (same : Bool)
    (inp out tmp : Arr ℂ) : Option (Status × Arr ℂ × Arr ℂ) :=
  match p with
  | none => some (st, out, tmp)
  | some p =>
    if st ≠ .success then some (st, out, tmp)
    else
      let s := checkParams mi mo p.dims st
      if s ≠ .success then some (s, out, tmp)
      else if ¬ isMatching p.inM mi true ∨ ¬ isMatching p.outM mo true then some (.runtime, out, tmp)
      else match mi.location with
        | .gpu => some (.runtime, out, tmp)
        | .other => some (.success, out, tmp)
        | .cpu =>
          if p.dims = 1 ∧ sameFloat mi mo then
            (exec1 p.nx.toNat p.batch.toNat o1 p.fwd same inp out tmp).map fun r => (.success, r.inp, r.tmp)
          else if p.dims = 2 ∧ sameFloat mi mo then
            (exec2 p.nx.toNat p.ny.toNat p.batch.toNat o1 o2 p.fwd same inp out tmp).map fun r =>
              (.success, r.inp, r.tmp)
          else if p.dims > 2 then some (.invalidArgument, out, tmp)
          else some (.success, out, tmp)

/-- Status after the view of `sdp_fft_phase` or `sdp_fft_norm`, sdp_fft.cpp:1046-1063, 1126-1138 and 964-981,
984-1000; on the device the launch fails without CUDA. -/
def viewed (m : Mem) (st : Status) : Status :=
  let badType := m.type ≠ .complexDouble ∧ m.type ≠ .complexFloat
  match m.location with
  | .cpu => if badType then .dataType else (checkAndView m m.type 2 .cpu st).2
  | .gpu =>
    if badType then .dataType
    else if (checkAndView m m.type 2 .gpu st).2 ≠ .success then (checkAndView m m.type 2 .gpu st).2
    else .runtime
  | .other => .memLocation

/-- `sdp_fft_phase`, sdp_fft.cpp:1124-1188, `order` as in `phase`. -/
def phaseCall (m : Mem) (st : Status) (order : List (Nat × Nat)) (d : Arr ℂ) : Option (Status × Arr ℂ) :=
  if st ≠ .success then some (st, d)
  else if viewed m st ≠ .success then some (viewed m st, d)
  else (phase (m.shapeDim 1).toNat order d).map fun d => (.success, d)

/-- `sdp_fft_norm`, sdp_fft.cpp:984-1043.  The product of the sizes is an `int` (971): `none` if it does not
fit. -/
def normCall (m : Mem) (st : Status) (order : List (Nat × Nat)) (d : Arr ℂ) : Option (Status × Arr ℂ) :=
  if st ≠ .success then some (st, d)
  else if viewed m st ≠ .success then some (viewed m st, d)
  else if 2 ^ 31 ≤ m.shapeDim 0 * m.shapeDim 1 then none
  else (norm (m.shapeDim 0).toNat (m.shapeDim 1).toNat order d).map fun d => (.success, d)

/-- `sdp_fft_exec_shift`, sdp_fft.cpp:924-936. -/
def execShiftCall (p : Option Plan) (m : Mem) (nrm : Bool) (st : Status) (o1 o2 : List Nat)
    (order : List (Nat × Nat)) (d tmp : Arr ℂ) : Option (Status × Arr ℂ × Arr ℂ) :=
  if st ≠ .success then some (st, d, tmp)
  else
    (phaseCall m st order d).bind fun a =>
    (fftExec p m m a.1 o1 o2 true a.2 a.2 tmp).bind fun b =>
    (phaseCall m b.1 order b.2.1).bind fun c =>
    (if nrm then normCall m c.1 order c.2 else some c).map fun e => (e.1, e.2, b.2.2)

end
end Sdp.Fft
