import Verif.Fft.Model
import Verif.Common.Race
import Verif.Common.Launch

/-!
# Model of fourier_transforms/sdp_fft.cu

The two kernels on a C-contiguous array, threads interleaving at every access.  Exact complex arithmetic.
-/

namespace Sdp.Fft
open Sdp.Race
noncomputable section

/-- `sdp_fft_phase`, sdp_fft.cu:21-29. -/
def phaseAt (n1 n2 : Nat) (p : Nat × Nat) : Prog ℂ :=
  if p.1 ≥ n1 ∨ p.2 ≥ n2 then .done
  else
    let x : Int := 1 - (((p.1 + p.2) &&& 1) <<< 1 : Nat)
    .read ((p.1 * n2 + p.2 : Nat) : Int) fun v => .write ((p.1 * n2 + p.2 : Nat) : Int) (v * (x : ℂ)) .done

/-- `sdp_fft_norm`, sdp_fft.cu:11-18. -/
def normAt (n1 n2 : Nat) (factor : ℂ) (p : Nat × Nat) : Prog ℂ :=
  if p.1 ≥ n1 ∨ p.2 ≥ n2 then .done
  else .read ((p.1 * n2 + p.2 : Nat) : Int) fun v => .write ((p.1 * n2 + p.2 : Nat) : Int) (v * factor) .done

/-- Threads of the launch of `sdp_fft_phase`, sdp_fft.cpp:1145, 1166-1182. -/
def phaseThreads (n1 n2 : Nat) : List (Nat × Nat) :=
  let tx := if n2 = 1 then 256 else if n1 = 1 then 1 else 32
  let ty := if n2 = 1 then 1 else if n1 = 1 then 256 else 8
  nest2 (blocks n1 tx * tx) (blocks n2 ty * ty)

/-- Threads of the launch of `sdp_fft_norm`, sdp_fft.cpp:1004-1008. -/
def normThreads (n1 n2 : Nat) : List (Nat × Nat) := nest2 (blocks n1 32 * 32) (blocks n2 8 * 8)

end
end Sdp.Fft
