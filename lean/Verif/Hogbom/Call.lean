import Mathlib.Analysis.SpecialFunctions.Trigonometric.Basic
import Mathlib.Algebra.Order.Floor.Ring
import Verif.FftConv.Gpu
import Verif.Hogbom.Gpu

/-!
# Model of whole calls of clean/sdp_hogbom_clean.cpp: the checks, the clean beam, the loop and the restoration

Exact real arithmetic.  `dirty`, `psf`, `det` and the outputs are the values of the type of the dirty image found
behind the descriptors, whatever their declared type; arrays have data.
-/

namespace Sdp.Hogbom
open Sdp.FftConv
noncomputable section

/-- Conversion of a floating-point number to an integer: towards zero. -/
def trunc (x : ℝ) : Int := if 0 ≤ x then ⌊x⌋ else ⌈x⌉

/-- `a`, sdp_hogbom_clean.cpp:53-57, sdp_hogbom_clean.cu:90-94. -/
def beamA (sx sy th : ℝ) : ℝ := Real.cos th ^ 2 / (2 * sx ^ 2) + Real.sin th ^ 2 / (2 * sy ^ 2)

/-- `b`, sdp_hogbom_clean.cpp:58-59, sdp_hogbom_clean.cu:95-96. -/
def beamB (sx sy th : ℝ) : ℝ := Real.sin (2 * th) / (4 * sx ^ 2) - Real.sin (2 * th) / (4 * sy ^ 2)

/-- `c`, sdp_hogbom_clean.cpp:60-64, sdp_hogbom_clean.cu:97-101. -/
def beamC (sx sy th : ℝ) : ℝ := Real.sin th ^ 2 / (2 * sx ^ 2) + Real.cos th ^ 2 / (2 * sy ^ 2)

/-- `component` at pixel `(x, y)` of a beam of side `n`, sdp_hogbom_clean.cpp:43-51, 71-75,
sdp_hogbom_clean.cu:80-88, 111-116. -/
def component (sx sy rot : ℝ) (n x y : Nat) : ℝ :=
  let th := Real.pi / 180 * rot
  let u : ℝ := (((x : Int) - (n / 2 : Nat) : Int) : ℝ)
  let v : ℝ := (((y : Int) - (n / 2 : Nat) : Int) : ℝ)
  1 * Real.exp (-(beamA sx sy th * u ^ 2 + 2 * beamB sx sy th * u * v + beamC sx sy th * v ^ 2))

/-- `sdp_create_cbeam`, sdp_hogbom_clean.cpp:34-80; `n` is `cbeam_dim`. -/
def createBeam (det : Arr ℝ) (n : Nat) (cbeam : Arr ℂ) : Option (Arr ℂ) :=
  (det.read 0).bind fun sx => (det.read 1).bind fun sy => (det.read 2).bind fun rot =>
    loop (fun cbeam (p : Nat × Nat) =>
      cbeam.write (index2 n p.1 p.2) ((component sx sy rot n p.1 p.2 : ℝ) : ℂ)) cbeam (nest2 n n)

/-- Thread `i` of `create_cbeam`, sdp_hogbom_clean.cu:71-119. -/
def beamAtThread (sx sy rot : ℝ) (n i : Nat) : Race.Prog ℂ :=
  if i < n * n then .write (i : Int) ((component sx sy rot n (i / n) (i % n) : ℝ) : ℂ) .done else .done

/-- The component image as complex numbers (sdp_hogbom_clean.cpp:211-215, sdp_hogbom_clean.cu:640-655). -/
def complexOf (a : Arr ℝ) : Arr ℂ := ⟨a.size, fun i => (a.get i : ℂ)⟩

/-- The real parts (sdp_hogbom_clean.cpp:98-110, sdp_hogbom_clean.cu:24-52). -/
def realOf (a : Arr ℂ) : Arr ℝ := ⟨a.size, fun i => (a.get i).re⟩

/-- The convolution of the components with the clean beam on the CPU, sdp_hogbom_clean.cpp:241-256: the images
handed to `sdp_fft_convolution` pass its checks.  `o1`, `o2`: orders of the loops of the transforms. -/
def restoreCpu (o1 o2 : List Nat) (beam : Arr ℂ) (D n : Nat) (comps : Arr ℝ) : Option (Arr ℝ) :=
  (convolve o1 o2 (complexOf comps) beam D n (zeros D)).map realOf

/-- The checks of `sdp_hogbom_clean`, sdp_hogbom_clean.cpp:746-858. -/
def checkClean (dm pm bm mm rm sm : Mem) (gain : ℝ) (limit : Int) (st : Status) : Status :=
  open Classical in
  if st ≠ .success then st
  else if sm.data = none ∨ sm.isReadOnly = true then .runtime
  else if dm.location ≠ sm.location then .memLocation
  else if dm.type ≠ pm.type then .dataType
  else if dm.type ≠ sm.type then .dataType
  else if mm.shapeDim 0 ≠ dm.shapeDim 0 then .runtime
  else if rm.shapeDim 0 ≠ dm.shapeDim 0 then .runtime
  else if sm.shapeDim 0 ≠ dm.shapeDim 0 then .runtime
  else if bm.shapeDim 0 ≠ 4 then .runtime
  else if dm.shapeDim 0 ≠ dm.shapeDim 1 then .runtime
  else if pm.shapeDim 0 ≠ pm.shapeDim 1 then .runtime
  else if pm.shapeDim 0 ≠ dm.shapeDim 0 * 2 then .runtime
  else if limit < 1 then .runtime
  else if gain ≤ 0 then .runtime
  else .success

/-- What the host finds behind a descriptor: nothing, if the memory is on the device. -/
def onHost {α : Type} (m : Mem) (a : Arr α) : Arr α := if m.location = .cpu then a else ⟨0, a.get⟩

/-- `sdp_hogbom_clean_cpu`, sdp_hogbom_clean.cpp:114-277, after the copy of the dirty image into the residual
(866-870), for a dirty image of side `D` and PSF of side `P`.  A beam size that does not fit `int16_t` is
undefined behaviour (178); any outcome is allowed for a size below 1, which is not modelled. -/
def CpuRun (dirty psf det : Arr ℝ) (D P : Nat) (gain thr : ℝ) (limit : Nat) (o : Out ℝ)
    (r : Option (Out ℝ)) : Prop :=
  match copyN dirty (D * D) o.res with
  | none => r = none
  | some res0 => match det.read 3 with
    | none => r = none
    | some size =>
      if 32767 < trunc size then r = none
      else if trunc size < 1 then True
      else
        let n := (trunc size).toNat
        ∃ o1 o2 : List Nat, o1.Perm (List.range (padDim D n)) ∧ o2.Perm (List.range (padDim D n)) ∧
          r = (createBeam det n (zeros n)).bind fun beam =>
            cleanCpu (restoreCpu o1 o2 beam D n) psf D P gain thr limit ⟨o.model, res0, o.sky⟩

/-- `sdp_hogbom_clean_gpu`, sdp_hogbom_clean.cpp:281-730: the clean beam is made by a kernel (611-654), and the
convolution is that of `FftConv.ConvGpu`.  `last` is how the last steps of the peak search are scheduled.  A size
that does not fit `int16_t` is cut by the kernel's parameter; for such sizes, and those below 1, any outcome is
allowed. -/
def GpuRun (last : Arr (Cell ℝ) → Arr (Cell ℝ) → Prop) (dirty psf det : Arr ℝ) (D P : Nat) (gain thr : ℝ)
    (limit : Nat) (o o' : Out ℝ) : Prop :=
  ∃ sx sy rot size, det.read 0 = some sx ∧ det.read 1 = some sy ∧ det.read 2 = some rot ∧
    det.read 3 = some size ∧ (1 ≤ trunc size → trunc size ≤ 32767 →
      let n := (trunc size).toNat
      ∃ (beam : Arr ℂ) (conv : Arr ℝ → Option (Arr ℝ)),
        Race.Finishes (threads (n * n)) (beamAtThread sx sy rot n) (zeros n) beam ∧
        (∀ c, ∃ x, ConvGpu (complexOf c) beam D n (zeros D) x ∧ conv c = x.map realOf) ∧
        CleanGpu last conv dirty psf D P gain thr limit o o')

/-- `sdp_hogbom_clean`, sdp_hogbom_clean.cpp:733-951: possible results, `none` if memory outside an array is
accessed, which includes a device address used on the host.  On the GPU only completed runs are described
(C88 says which runs stay inside their arrays); any outcome is allowed there without CUDA, or if the model
or the residual is not on the device, and for images of another type with a residual on the device. -/
def CleanCall (cuda : Bool) (last : Arr (Cell ℝ) → Arr (Cell ℝ) → Prop) (dm pm bm mm rm sm : Mem) (st : Status)
    (dirty psf det : Arr ℝ) (gain thr : ℝ) (limit : Int) (o : Out ℝ) (r : Option (Status × Out ℝ)) : Prop :=
  let s := checkClean dm pm bm mm rm sm gain limit st
  let D := (dm.shapeDim 0).toNat
  let P := (pm.shapeDim 0).toNat
  if s ≠ .success then r = some (s, o)
  else match dm.location with
    | .cpu =>
      let h : Out ℝ := ⟨onHost mm o.model, onHost rm o.res, o.sky⟩
      if dm.type = .double ∨ dm.type = .float then
        ∃ r', CpuRun dirty (onHost pm psf) (onHost bm det) D P gain thr limit.toNat h r' ∧
          r = r'.map fun x => (.success, x)
      else if rm.location ≠ .cpu then True
      else r = (copyN dirty (D * D) o.res).map fun res0 => (.dataType, ⟨o.model, res0, o.sky⟩)
    | .gpu =>
      if dm.type = .double ∨ dm.type = .float then
        if bm.location ≠ .cpu then r = none
        else if cuda = false ∨ mm.location ≠ .gpu ∨ rm.location ≠ .gpu then True
        else ∀ o', r = some (.success, o') → GpuRun last dirty psf det D P gain thr limit.toNat o o'
      else r = some (.dataType, o)
    | .other => r = some (.success, o)

end
end Sdp.Hogbom
