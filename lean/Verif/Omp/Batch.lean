import Verif.Common.Team2
import Verif.Fft.Model

/-!
# The OpenMP loop of the built-in FFT

One iteration of the parallel loop over the batch in `sdp_1d_fft_inplace`: a program of single reads and
writes of the two buffers `input` (of `n` elements) and `temp` (of `m` elements).  The arithmetic is that of
`Verif/Fft/Model.lean`; `memcpy` copies one element after the other.
-/

namespace Sdp.Omp
open Race
noncomputable section

/-- One butterfly of stage `r`, sdp_fft.cpp:109-126. -/
def butterflyProg (n m b len r : Nat) (inverse : Bool) (s : Nat) : Prog ℂ :=
  let PoTm1 := 2 ^ r
  let PoT := PoTm1 <<< 1
  let half := len >>> 1
  let j := s >>> r
  let k := s &&& (PoTm1 - 1)
  let w := Fft.twiddle PoT k inverse
  .read1 n (b + (j * PoTm1 + k + half) : Nat) fun v2 =>
  .read1 n (b + (j * PoTm1 + k) : Nat) fun v1 =>
  .write2 n m (b + (j * PoT + k) : Nat)
    ⟨v1.re + w.re * v2.re - w.im * v2.im, v1.im + w.re * v2.im + w.im * v2.re⟩ <|
  .write2 n m (b + (j * PoT + k + PoTm1) : Nat)
    ⟨v1.re - w.re * v2.re + w.im * v2.im, v1.im - w.re * v2.im - w.im * v2.re⟩ .done

/-- `memcpy(input, temp, …)`, sdp_fft.cpp:127 and 184. -/
def copyBack (n m b len : Nat) : Prog ℂ :=
  .seqAll ((List.range len).map fun (i : Nat) =>
    .read2 n m (b + i : Nat) fun v => .write1 n (b + i : Nat) v .done)

/-- `perform_cpu_fft_power_of_two_inplace`, sdp_fft.cpp:87-129. -/
def pow2Prog (n m b len bits : Nat) (inverse : Bool) : Prog ℂ :=
  .seqAll ((List.range bits).map fun (r : Nat) =>
    (Prog.seqAll ((List.range (len >>> 1)).map (butterflyProg n m b len r inverse))).andThen (copyBack n m b len))

/-- The inner sum of `perform_cpu_dft_general`, sdp_fft.cpp:142-153. -/
def sumProg (n b len : Nat) (inverse : Bool) (i : Nat) : List Nat → ℂ → (ℂ → Prog ℂ) → Prog ℂ
  | [], sum, next => next sum
  | s :: ss, sum, next =>
    .read1 n (b + s : Nat) fun v =>
      let w := Fft.twiddle len (i * s) inverse
      sumProg n b len inverse i ss
        ⟨sum.re + (w.re * v.re - w.im * v.im), sum.im + (w.re * v.im + w.im * v.re)⟩ next

/-- `perform_cpu_dft_general`, sdp_fft.cpp:133-155. -/
def generalProg (n m b len : Nat) (inverse : Bool) : Prog ℂ :=
  .seqAll ((List.range len).map fun (i : Nat) =>
    sumProg n b len inverse i (List.range len) 0 fun v => .write2 n m (b + i : Nat) v .done)

/-- Iteration `f` of the parallel loop, sdp_fft.cpp:170-186. -/
def batchProg (n m b len : Nat) (inverse : Bool) (f : Nat) : Prog ℂ :=
  let c := Fft.bitCount len
  if c.1 = 1 then pow2Prog n m (b + f * len) len (c.2 - 1) inverse
  else (generalProg n m (b + f * len) len inverse).andThen (copyBack n m (b + f * len) len)

end
end Sdp.Omp
