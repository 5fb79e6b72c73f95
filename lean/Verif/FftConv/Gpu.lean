import Verif.FftConv.Model
import Verif.Common.Outcome
import Verif.Common.Launch
import Verif.Common.Desc
import Verif.Fft.Props

/-!
# Model of `sdp_fft_convolution` as a call, and of its GPU path

numeric_functions/sdp_fft_convolution.{cpp,cu}.  Exact complex arithmetic, no index overflow.  The threads of
a kernel interleave at every access to the array they write; the arrays they only read are not written by
anybody during the launch.  cuFFT is taken to compute what it documents: the unnormalised transform, in
place.
-/

namespace Sdp.FftConv
open Sdp.Fft Sdp.Race
noncomputable section

/-- `pad_2D_gpu`, sdp_fft_convolution.cu:10-29, on square arrays. -/
def padAt (data : Arr ℂ) (n e P : Nat) (p : Nat × Nat) : Prog ℂ :=
  if p.1 < n ∧ p.2 < n then
    .need (data.read ((p.1 * n + p.2 : Nat) : Int)) fun v =>
      .write (((p.1 + e) * P + (p.2 + e) : Nat) : Int) v .done
  else .done

/-- `complex_multiply`, sdp_fft_convolution.cu:35-77. -/
def multiplyAt (a b : Arr ℂ) (n i : Nat) : Prog ℂ :=
  if i < n then
    .need (a.read (i : Int)) fun x => .need (b.read (i : Int)) fun y => .write (i : Int) (x * y) .done
  else .done

/-- `fft_normalise_gpu`, sdp_fft_convolution.cu:83-123. -/
def normaliseAt (n i : Nat) : Prog ℂ :=
  if i < n then .read (i : Int) fun v => .write (i : Int) (v / n) .done else .done

/-- `fft_shift_2D_gpu`, sdp_fft_convolution.cu:129-157, on a square array of side `P`, `h = P / 2`. -/
def shiftAt (d : Arr ℂ) (P h : Nat) (p : Nat × Nat) : Prog ℂ :=
  if p.1 < h ∧ p.2 < h then
    .need (d.read (((p.1 + h) * P + p.2 + h : Nat) : Int)) fun v1 =>
    .write ((p.1 * P + p.2 : Nat) : Int) v1 <|
    .need (d.read ((p.1 * P + p.2 + h : Nat) : Int)) fun v2 =>
    .write (((p.1 + h) * P + p.2 : Nat) : Int) v2 <|
    .need (d.read ((p.1 * P + p.2 : Nat) : Int)) fun v3 =>
    .write (((p.1 + h) * P + p.2 + h : Nat) : Int) v3 <|
    .need (d.read (((p.1 + h) * P + p.2 : Nat) : Int)) fun v4 =>
    .write ((p.1 * P + p.2 + h : Nat) : Int) v4 .done
  else .done

/-- `remove_padding_2D_gpu`, sdp_fft_convolution.cu:162-183, on square arrays. -/
def removeAt (padded : Arr ℂ) (P e n : Nat) (p : Nat × Nat) : Prog ℂ :=
  if p.1 < n ∧ p.2 < n then
    .need (padded.read (((p.1 : Int) + ((e : Int) - 1)) * P + ((p.2 : Int) + ((e : Int) - 1)))) fun v =>
      .write ((p.1 * n + p.2 : Nat) : Int) v .done
  else .done

/-- Threads of the launches in blocks of 32 x 32 for `n` x `n` elements, sdp_fft_convolution.cpp:286-290,
333-336, 464-468, 498-502. -/
def threads2 (n : Nat) : List (Nat × Nat) := nest2 (blocks n 32 * 32) (blocks n 32 * 32)

/-- Threads of the launches in blocks of 256 for `n` elements, sdp_fft_convolution.cpp:381-384, 424-427. -/
def threads1 (n : Nat) : List Nat := List.range (blocks n 256 * 256)

/-- `cufftExec` in place on a square array of side `P` (sdp_fft.cpp:424-456). -/
def cufft (inv : Bool) (P : Nat) (a : Arr ℂ) : Arr ℂ :=
  ⟨a.size, fun k => dft2 inv P P (fun i j => a.get (i * P + j)) (k / P) (k % P)⟩

/-- `sdp_fft_convolution_gpu`, sdp_fft_convolution.cpp:247-535, once the kernels can be launched: possible
contents of the output.  New arrays are cleared (280, 327, 379, 459).  `e` is the extra rows and columns (283,
330), and `half` is `pad_dim / 2` (461-462). -/
def ConvGpu (in1 in2 : Arr ℂ) (n1 n2 : Nat) (out : Arr ℂ) : Option (Arr ℂ) → Prop :=
  let P := padDim n1 n2
  let e1 := (P - n1) / 2
  let e2 := (P - n2) / 2
  Then (Launch (padAt in1 n1 e1 P) (threads2 n1) (zeros P)) fun a =>
  Then (Launch (padAt in2 n2 e2 P) (threads2 n2) (zeros P)) fun b =>
  Then (Launch (multiplyAt (cufft false P a) (cufft false P b) (P * P)) (threads1 (P * P)) (zeros P)) fun m =>
  Then (Launch (normaliseAt (P * P)) (threads1 (P * P)) (cufft true P m)) fun m =>
  Then (Launch (shiftAt m P (P / 2)) (threads2 (P / 2)) (zeros P)) fun s =>
  Launch (removeAt s P e1 n1) (threads2 n1) out

/-- The checks of `sdp_fft_convolution`, sdp_fft_convolution.cpp:545-595, and 618-622 for the type
that is only the complex flag. -/
def checkConv (m1 m2 mo : Mem) (st : Status) : Status :=
  if st ≠ .success then st
  else if mo.data = none ∨ mo.isReadOnly = true then .runtime
  else if m1.location ≠ mo.location then .memLocation
  else if m1.type ≠ mo.type then .dataType
  else if m1.data = none ∨ (m1.type ≠ .complexDouble ∧ m1.type ≠ .complexFloat) then .dataType
  else if m1.shapeDim 0 ≠ m1.shapeDim 1 then .dataType
  else if m2.shapeDim 0 ≠ m2.shapeDim 1 then .dataType
  else .success

/-- `sdp_fft_convolution`, sdp_fft_convolution.cpp:538-641: possible results, `none` if memory outside an
array is accessed, which includes a device address used on the host.  `in1`, `in2` and `out` are the values of
type of the first input found in memory, whatever the declared type of the others.  Without CUDA the first
allocation fails (sdp_mem.cpp:76-81); a second input that is not on the device is noticed when the arguments
of its kernel are collected (sdp_mem.cpp:594-604); a launch of no blocks is refused (sdp_device_wrapper.cpp
55-66), which happens if `pad_dim / 2` is 0. -/
def ConvCall (cuda : Bool) (m1 m2 mo : Mem) (st : Status) (in1 in2 out : Arr ℂ)
    (o : Option (Status × Arr ℂ)) : Prop :=
  let s := checkConv m1 m2 mo st
  let n1 := (m1.shapeDim 0).toNat
  let n2 := (m2.shapeDim 0).toNat
  if s ≠ .success then o = some (s, out)
  else match m1.location with
    | .cpu =>
      if m2.location ≠ .cpu then o = none
      else ∃ o1 o2 : List Nat, o1.Perm (List.range (padDim n1 n2)) ∧ o2.Perm (List.range (padDim n1 n2)) ∧
        o = (convolve o1 o2 in1 in2 n1 n2 out).map fun r => (.success, r)
    | .gpu =>
      if cuda = false then o = some (.memLocation, out)
      else if m2.location ≠ .gpu ∧ m2.type ≠ .void then o = some (.memLocation, out)
      else if padDim n1 n2 / 2 = 0 then o = some (.runtime, out)
      else ∃ o', ConvGpu in1 in2 n1 n2 out o' ∧ o = o'.map fun r => (.success, r)
    | .other => o = some (.success, out)

end
end Sdp.FftConv
