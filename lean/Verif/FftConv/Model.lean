import Mathlib.Data.Nat.Log
import Verif.Fft.Model

/-!
# Model of numeric_functions/sdp_fft_convolution.cpp (CPU path)

Exact complex arithmetic, built-in FFT back end, no index overflow, allocations succeed.
Buffers are bounds-checked (`none` = out-of-bounds access).
-/

namespace Sdp.FftConv
open Sdp.Fft
noncomputable section

theorem pow2_and_pred (k : Nat) : 2 ^ k &&& (2 ^ k - 1) = 0 := by
  rw [Nat.and_two_pow_sub_one_eq_mod]; simp

theorem step_decreases {p : Nat} (h : ¬ p &&& (p - 1) = 0) :
    2 ^ Nat.clog 2 (p + 1) - (p + 1) < 2 ^ Nat.clog 2 p - p := by
  have h1 : p ≤ 2 ^ Nat.clog 2 p := Nat.le_pow_clog (by norm_num) p
  have h2 : p ≠ 2 ^ Nat.clog 2 p := by
    intro e; apply h; rw [e]; exact pow2_and_pred _
  have h3 : Nat.clog 2 (p + 1) ≤ Nat.clog 2 p := by
    apply (Nat.clog_le_iff_le_pow (by norm_num)).2; omega
  have h4 : 2 ^ Nat.clog 2 (p + 1) ≤ 2 ^ Nat.clog 2 p := Nat.pow_le_pow_right (by norm_num) h3
  omega

/-- The loop that looks for a power of two, sdp_fft_convolution.cpp:141-144. -/
def nextPow2 (p : Nat) : Nat :=
  if p &&& (p - 1) = 0 then p else nextPow2 (p + 1)
termination_by 2 ^ Nat.clog 2 p - p
decreasing_by exact step_decreases (by assumption)

/-- `pad_dim`, sdp_fft_convolution.cpp:136-144. -/
def padDim (n1 n2 : Nat) : Nat := nextPow2 (n1 + n2 - 1)

/-- `sdp_pad_2d` with equal sides and paddings, sdp_fft_convolution.cpp:57-79. -/
def pad (data : Arr ℂ) (n e : Nat) (padded : Arr ℂ) : Option (Arr ℂ) :=
  let paddedCols := n + 2 * e
  loop (fun padded (p : Nat × Nat) =>
    (data.read (p.1 * n + p.2 : Nat)).bind fun v =>
      padded.write ((p.1 + e) * paddedCols + (p.2 + e) : Nat) v) padded (nest2 n n)

/-- One swap of two elements. -/
def swap (a : Arr ℂ) (i j : Nat) : Option (Arr ℂ) :=
  (a.read i).bind fun tmp =>
  (a.read j).bind fun v =>
  (a.write i v).bind fun a => a.write j tmp

/-- `sdp_fft_shift_2d`, sdp_fft_convolution.cpp:22-54. -/
def shift (rows cols : Nat) (d : Arr ℂ) : Option (Arr ℂ) :=
  let hr := rows / 2
  let hc := cols / 2
  (loop (fun d (p : Nat × Nat) => swap d (p.1 * cols + p.2) ((p.1 + hr) * cols + p.2)) d
    (nest2 hr cols)).bind fun d =>
  loop (fun d (p : Nat × Nat) => swap d (p.1 * cols + p.2) (p.1 * cols + p.2 + hc)) d
    (nest2 rows hc)

/-- `sdp_remove_padding_2d` on a square array, sdp_fft_convolution.cpp:82-105. -/
def removePad (padded : Arr ℂ) (P e : Nat) (out : Arr ℂ) : Option (Arr ℂ) :=
  let n := P - 2 * e
  loop (fun out (p : Nat × Nat) =>
    (padded.read (((p.1 : Int) + ((e : Int) - 1)) * P + ((p.2 : Int) + ((e : Int) - 1)))).bind
      fun v => out.write (p.1 * n + p.2 : Nat) v) out (nest2 n n)

/-- `sdp_fft_normalise`, sdp_fft_convolution.cpp:108-121. -/
def normalise (n : Nat) (d : Arr ℂ) : Option (Arr ℂ) :=
  loop (fun d (i : Nat) => (d.read i).bind fun v => d.write i (v / n)) d (List.range n)

/-- Multiplication of the spectra, sdp_fft_convolution.cpp:214-217. -/
def multiply (a b : Arr ℂ) (n : Nat) (d : Arr ℂ) : Option (Arr ℂ) :=
  loop (fun d (i : Nat) => (a.read i).bind fun x => (b.read i).bind fun y => d.write i (x * y))
    d (List.range n)

/-- A zeroed `P` by `P` array (`sdp_mem_create` and `sdp_mem_clear_contents`). -/
def zeros (P : Nat) : Arr ℂ := ⟨P * P, fun _ => 0⟩

/-- `sdp_fft_convolution_cpu`, sdp_fft_convolution.cpp:124-244; `o1`, `o2` are the orders of the
two batch loops inside the transforms. -/
def convolve (o1 o2 : List Nat) (in1 in2 : Arr ℂ) (n1 n2 : Nat) (out : Arr ℂ) :
    Option (Arr ℂ) :=
  let P := padDim n1 n2
  let e1 := (P - n1) / 2
  let e2 := (P - n2) / 2
  (pad in1 n1 e1 (zeros P)).bind fun a =>
  (pad in2 n2 e2 (zeros P)).bind fun b =>
  (exec2 P P 1 o1 o2 1 true a a (zeros P)).bind fun fa =>
  (exec2 P P 1 o1 o2 1 true b b (zeros P)).bind fun fb =>
  (multiply fa.inp fb.inp (P * P) (zeros P)).bind fun m =>
  (exec2 P P 1 o1 o2 0 true m m (zeros P)).bind fun fm =>
  (normalise (P * P) fm.inp).bind fun m =>
  (shift P P m).bind fun m =>
  removePad m P e1 out

end
end Sdp.FftConv
