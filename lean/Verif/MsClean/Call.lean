import Verif.Hogbom.Call
import Verif.MsClean.Model

/-!
# Model of whole calls of clean/sdp_ms_clean_cornwell.cpp: checks, clean beam, scale kernels, loop, restoration

Exact real arithmetic: the complex images of the code hold real numbers, and only their real parts are kept.
`dirty`, `psf`, `det`, `scales` and the outputs are the values of the type of the dirty image (`int` for the scale
list) found behind the descriptors, whatever their declared type; arrays have data.
-/

namespace Sdp.MsClean
open Sdp.FftConv Sdp.Hogbom
noncomputable section

/-- The kernel of a scale other than 0 at pixel `(x, y)`, sdp_ms_clean_cornwell.cpp:139-160; `n` is `length`. -/
def kernValue (scale : Int) (n x y : Nat) : ℝ :=
  let sigma : ℝ := 3 / 16 * (scale : ℝ)
  let two := 2 * sigma * sigma
  let dx : Int := (x : Int) - (n / 2 : Nat)
  let dy : Int := (y : Int) - (n / 2 : Nat)
  let distance : ℝ := ((dx * dx + dy * dy : Int) : ℝ)
  Real.exp (-distance / two) / (Real.pi * two)

/-- The kernels of one scale, sdp_ms_clean_cornwell.cpp:127-164. -/
def kernOf (scale : Int) (s n : Nat) (kern : Arr ℝ) : Option (Arr ℝ) :=
  if scale = 0 then kern.write (index3 n n s (n / 2) (n / 2)) 1
  else loop (fun kern (p : Nat × Nat) => kern.write (index3 n n s p.1 p.2) (kernValue scale n p.1 p.2)) kern
    (nest2 n n)

/-- `sdp_create_scale_kern`, sdp_ms_clean_cornwell.cpp:111-166. -/
def createKern (scales : Arr Int) (S n : Nat) (kern : Arr ℝ) : Option (Arr ℝ) :=
  loop (fun kern (s : Nat) => (scales.read (s : Int)).bind fun v => kernOf v s n kern) kern (List.range S)

/-- `conv` is `sdp_fft_convolution` on real images whose first image has side `D` or `P` and whose second has
side `P`, sdp_ms_clean_cornwell.cpp:456-465, 490-494, 715-719; the images pass its checks.  The loops of the
transforms may run in a different order for each pair of images. -/
def RealConv (d : Dims) (conv : Arr ℝ → Arr ℝ → Option (Arr ℝ)) : Prop :=
  ∀ a b : Arr ℝ, let n1 := if a.size = d.D * d.D then d.D else d.P
    ∃ o1 o2 : List Nat, o1.Perm (List.range (padDim n1 d.P)) ∧ o2.Perm (List.range (padDim n1 d.P)) ∧
      conv a b = (convolve o1 o2 (complexOf a) (complexOf b) n1 d.P (zeros n1)).map realOf

/-- `ms_clean_cornwell`, sdp_ms_clean_cornwell.cpp:169-770, after the copy of the dirty image into the residual
(874-876).  Any outcome is allowed where it is not modelled: a PSF side that does not fit `int16_t` (34), images
of more than 2^32 elements in total (the indices are `unsigned int`), and a scale whose coupling with itself is
0, by which the code divides (599). -/
def MsRun (dirty psf det : Arr ℝ) (scales : Arr Int) (d : Dims) (gain thr : ℝ) (limit : Nat) (o : Out ℝ)
    (r : Option (Out ℝ)) : Prop :=
  match copyN dirty (d.D * d.D) o.res with
  | none => r = none
  | some res0 =>
    if 32767 < d.P ∨ 2 ^ 32 < d.S * d.S * (d.P * d.P) then True
    else ∃ conv, RealConv d conv ∧
      (r = ((createBeam det d.P (zeros d.P)).bind fun beam =>
          (createKern scales d.S d.P ⟨d.S * (d.P * d.P), fun _ => 0⟩).bind fun kern =>
            clean conv d psf ⟨d.D * d.D, res0.get⟩ kern (realOf beam) gain thr limit ⟨o.model, res0, o.sky⟩) ∨
        ∃ kern su cpl, createKern scales d.S d.P ⟨d.S * (d.P * d.P), fun _ => 0⟩ = some kern ∧
          setup conv d psf ⟨d.D * d.D, res0.get⟩ kern = some su ∧ coupling d su.1 = some cpl ∧
          ∃ s < d.S, cpl.get (d.S * s + s) = 0)

/-- The checks of `sdp_ms_clean_cornwell`, sdp_ms_clean_cornwell.cpp:787-871. -/
def checkMs (dm pm bm lm mm rm sm : Mem) (st : Status) : Status :=
  if st ≠ .success then st
  else if sm.data = none ∨ sm.isReadOnly = true then .runtime
  else if dm.location ≠ sm.location then .memLocation
  else if dm.type ≠ pm.type then .dataType
  else if lm.type ≠ .int then .dataType
  else if dm.type ≠ sm.type then .dataType
  else if mm.shapeDim 0 ≠ dm.shapeDim 0 then .runtime
  else if rm.shapeDim 0 ≠ dm.shapeDim 0 then .runtime
  else if sm.shapeDim 0 ≠ dm.shapeDim 0 then .runtime
  else if bm.shapeDim 0 ≠ 4 then .runtime
  else .success

/-- `sdp_ms_clean_cornwell`, sdp_ms_clean_cornwell.cpp:773-924: possible results, `none` if memory outside an array
is accessed, which includes a device address used on the host.  Any outcome is allowed without CUDA if the dirty
image or the residual is on the device, and for images of another type with the residual on the device. -/
def MsCall (cuda : Bool) (dm pm bm lm mm rm sm : Mem) (st : Status) (dirty psf det : Arr ℝ) (scales : Arr Int)
    (gain thr : ℝ) (limit : Int) (o : Out ℝ) (r : Option (Status × Out ℝ)) : Prop :=
  let s := checkMs dm pm bm lm mm rm sm st
  let d : Dims := ⟨(lm.shapeDim 0).toNat, (dm.shapeDim 0).toNat, (pm.shapeDim 0).toNat⟩
  if s ≠ .success then r = some (s, o)
  else if cuda = false ∧ (dm.location = .gpu ∨ rm.location = .gpu) then True
  else match dm.location with
    | .cpu =>
      let h : Out ℝ := ⟨onHost mm o.model, onHost rm o.res, o.sky⟩
      if dm.type = .double ∨ dm.type = .float then
        ∃ r', MsRun dirty (onHost pm psf) (onHost bm det) (onHost lm scales) d gain thr limit.toNat h r' ∧
          r = r'.map fun x => (.success, x)
      else if rm.location ≠ .cpu then True
      else r = (copyN dirty (d.D * d.D) o.res).map fun res0 => (.dataType, ⟨o.model, res0, o.sky⟩)
    | .gpu => r = (copyN dirty (d.D * d.D) o.res).map fun res0 => (.success, ⟨o.model, res0, o.sky⟩)
    | .other => True

end
end Sdp.MsClean
