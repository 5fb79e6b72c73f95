import Verif.Mem.Model

/-!
# Model of utility/sdp_data_model_checks.{h,c}

Log messages are dropped.  An out-parameter that may be NULL is a value that is
either requested (`true`) or not; a record of the values written is returned.
-/

namespace Sdp

/-- The out-parameters of the three metadata functions
(sdp_data_model_checks.c:46-53, 119-128, 205-214); `none` = not written. -/
structure DMeta where
  type : Option MemType := none
  location : Option MemLocation := none
  numTimes : Option Int := none
  numBaselines : Option Int := none
  numChannels : Option Int := none
  numPols : Option Int := none
  deriving DecidableEq, Repr

/-- Which out-pointers the caller passes as non-NULL. -/
structure DWant where
  type : Bool := true
  location : Bool := true
  numTimes : Bool := true
  numBaselines : Bool := true
  numChannels : Bool := true
  numPols : Bool := true
  deriving DecidableEq, Repr

/-- `sdp_data_model_check_uvw_at`, sdp_data_model_checks.c:7-43. -/
def checkUvw (uvw : Mem) (type : MemType) (loc : MemLocation)
    (nTimes nBaselines : Int) (status : Status) : Status :=
  if status ≠ .success then status
  else
    let s := if !uvw.queryFloatingPoint || uvw.queryComplex then .dataType else status
    let s := checkShape uvw [nTimes, nBaselines, 3] s
    let s := checkLocation uvw loc s
    let s := if type ≠ .void then checkType uvw type s else s
    checkCContiguity uvw s

/-- `sdp_data_model_get_uvw_metadata`, sdp_data_model_checks.c:46-71, with the
accessor macros sdp_data_model_checks.h:27-35. -/
def getUvwMetadata (w : DWant) (uvw : Mem) (status : Status) : DMeta × Status :=
  if status ≠ .success then ({}, status)
  else
    let s := if !uvw.queryFloatingPoint || uvw.queryComplex then .dataType else status
    let s := checkNumDims uvw 3 s
    let s := checkDimSize uvw 2 3 s
    ({ type := if w.type then some uvw.type else none
       location := if w.location then some uvw.location else none
       numTimes := if w.numTimes then some (uvw.shapeDim 0) else none
       numBaselines := if w.numBaselines then some (uvw.shapeDim 1) else none }, s)

/-- `sdp_data_model_check_vis_at`, sdp_data_model_checks.c:74-116. -/
def checkVis (vis : Mem) (type : MemType) (loc : MemLocation)
    (nTimes nBaselines nChannels nPols : Int) (status : Status) : Status :=
  if status ≠ .success then status
  else if !vis.queryComplex then .dataType
  else
    let s := checkShape vis [nTimes, nBaselines, nChannels, nPols] status
    let s := checkLocation vis loc s
    let s := if type ≠ .void then checkType vis type s else s
    checkCContiguity vis s

/-- `sdp_data_model_get_vis_metadata`, sdp_data_model_checks.c:119-157, with the
accessor macros sdp_data_model_checks.h:147-168. -/
def getVisMetadata (w : DWant) (vis : Mem) (status : Status) : DMeta × Status :=
  if status ≠ .success then ({}, status)
  else if !vis.queryComplex then ({}, .dataType)
  else
    let s := checkNumDims vis 4 status
    let out : DMeta :=
      { type := if w.type then some vis.type else none
        location := if w.location then some vis.location else none
        numTimes := if w.numTimes then some (vis.shapeDim 0) else none
        numBaselines := if w.numBaselines then some (vis.shapeDim 1) else none
        numChannels := if w.numChannels then some (vis.shapeDim 2) else none
        numPols := if w.numPols then some (vis.shapeDim 3) else none }
    if w.numPols = true ∧ s = .success ∧ vis.shapeDim 3 ≠ 4 ∧ vis.shapeDim 3 ≠ 1 then
      (out, .invalidArgument)
    else (out, s)

/-- `sdp_data_model_check_weights_at`, sdp_data_model_checks.c:160-202. -/
def checkWeights (wts : Mem) (type : MemType) (loc : MemLocation)
    (nTimes nBaselines nChannels nPols : Int) (status : Status) : Status :=
  if status ≠ .success then status
  else if wts.queryComplex then .dataType
  else
    let s := checkShape wts [nTimes, nBaselines, nChannels, nPols] status
    let s := checkLocation wts loc s
    let s := if type ≠ .void then checkType wts type s else s
    checkCContiguity wts s

/-- `sdp_data_model_get_weights_metadata`, sdp_data_model_checks.c:205-235, with
the accessor macros sdp_data_model_checks.h:287-308. -/
def getWeightsMetadata (w : DWant) (wts : Mem) (status : Status) : DMeta × Status :=
  if status ≠ .success then ({}, status)
  else if (wts.numDims : Int) ≠ 4 then ({}, .runtime)
  else if wts.queryComplex then ({}, .dataType)
  else
    ({ type := if w.type then some wts.type else none
       location := if w.location then some wts.location else none
       numTimes := if w.numTimes then some (wts.shapeDim 0) else none
       numBaselines := if w.numBaselines then some (wts.shapeDim 1) else none
       numChannels := if w.numChannels then some (wts.shapeDim 2) else none
       numPols := if w.numPols then some (wts.shapeDim 3) else none }, status)

end Sdp
