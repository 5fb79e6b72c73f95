import Mathlib.Analysis.SpecialFunctions.Trigonometric.Basic
import Verif.Common.Loops

/-!
# Model of fourier_transforms/sdp_fft.cpp: the built-in CPU transform

Exact complex arithmetic; `int` and `int64_t` indices do not overflow.  The MKL, PocketFFT
and cuFFT back ends are not modelled.  `memcpy` of a block is one step.  The `omp parallel
for` over batches is modelled by letting the batch entries run in an arbitrary order (each
one only touches its own segment of both buffers).
-/

namespace Sdp.Fft
noncomputable section

/-- `is_power_of_two`, sdp_fft.cpp:43-59: number of one bits and of halvings (`bits` + 1). -/
def bitCount (n : Nat) : Nat × Nat :=
  if h : n = 0 then (0, 0) else
    let r := bitCount (n >>> 1)
    ((if n &&& 1 = 1 then 1 else 0) + r.1, r.2 + 1)
termination_by n
decreasing_by simp only [Nat.shiftRight_eq_div_pow]; omega

/-- `get_twiddle_value`, sdp_fft.cpp:63-81. -/
def twiddle (n m : Nat) (inverse : Bool) : ℂ :=
  let division : ℝ := m / n
  if inverse then ⟨Real.cos (2 * Real.pi * division), Real.sin (2 * Real.pi * division)⟩
  else ⟨Real.cos (-2 * Real.pi * division), Real.sin (-2 * Real.pi * division)⟩

/-- The pair of buffers `input` and `temp`. -/
structure Bufs where
  inp : Arr ℂ
  tmp : Arr ℂ

/-- `memcpy` of `n` elements. -/
def copyBlock (dst : Arr ℂ) (db : Nat) (src : Arr ℂ) (sb n : Nat) : Option (Arr ℂ) :=
  if db + n ≤ dst.size ∧ sb + n ≤ src.size then
    some ⟨dst.size, fun i => if db ≤ i ∧ i < db + n then src.get (sb + (i - db)) else dst.get i⟩
  else none

/-- One butterfly, sdp_fft.cpp:109-126, for buffers starting at `b`: two values written to
`temp`. -/
def butterfly (inp : Arr ℂ) (b n r : Nat) (inverse : Bool) (tmp : Arr ℂ) (s : Nat) :
    Option (Arr ℂ) :=
  let PoTm1 := 2 ^ r
  let PoT := PoTm1 <<< 1
  let half := n >>> 1
  let j := s >>> r
  let k := s &&& (PoTm1 - 1)
  let w := twiddle PoT k inverse
  (inp.read (b + (j * PoTm1 + k + half) : Nat)).bind fun v2 =>
  (inp.read (b + (j * PoTm1 + k) : Nat)).bind fun v1 =>
    let even : ℂ := ⟨v1.re + w.re * v2.re - w.im * v2.im, v1.im + w.re * v2.im + w.im * v2.re⟩
    let odd : ℂ := ⟨v1.re - w.re * v2.re + w.im * v2.im, v1.im - w.re * v2.im - w.im * v2.re⟩
    (tmp.write (b + (j * PoT + k) : Nat) even).bind fun tmp =>
      tmp.write (b + (j * PoT + k + PoTm1) : Nat) odd

/-- One stage (`r` counts from 0 here), sdp_fft.cpp:103-128. -/
def stage (b n : Nat) (inverse : Bool) (st : Bufs) (r : Nat) : Option Bufs :=
  (loop (fun tmp (s : Nat) => butterfly st.inp b n r inverse tmp s) st.tmp
    (List.range (n >>> 1))).bind fun tmp =>
  (copyBlock st.inp b tmp b n).map fun inp => ⟨inp, tmp⟩

/-- `perform_cpu_fft_power_of_two_inplace`, sdp_fft.cpp:87-129. -/
def fftPow2 (b n bits : Nat) (inverse : Bool) (st : Bufs) : Option Bufs :=
  loop (fun st (r : Nat) => stage b n inverse st r) st (List.range bits)

/-- Inner sum of `perform_cpu_dft_general`, sdp_fft.cpp:142-153. -/
def dftRow (inp : Arr ℂ) (b n : Nat) (inverse : Bool) (i : Nat) : Option ℂ :=
  loop (fun (sum : ℂ) (s : Nat) =>
    (inp.read (b + s : Nat)).bind fun v =>
      let w := twiddle n (i * s) inverse
      some ⟨sum.re + (w.re * v.re - w.im * v.im), sum.im + (w.re * v.im + w.im * v.re)⟩)
    0 (List.range n)

/-- `perform_cpu_dft_general`, sdp_fft.cpp:133-155. -/
def dftGeneral (b n : Nat) (inverse : Bool) (st : Bufs) : Option (Arr ℂ) :=
  loop (fun tmp (i : Nat) =>
    (dftRow st.inp b n inverse i).bind fun v => tmp.write (b + i : Nat) v)
    st.tmp (List.range n)

/-- One batch entry of `sdp_1d_fft_inplace`, sdp_fft.cpp:172-186. -/
def fft1 (b n : Nat) (inverse : Bool) (st : Bufs) : Option Bufs :=
  let c := bitCount n
  if c.1 = 1 then fftPow2 b n (c.2 - 1) inverse st
  else (dftGeneral b n inverse st).bind fun tmp =>
    (copyBlock st.inp b tmp b n).map fun inp => ⟨inp, tmp⟩

/-- `sdp_1d_fft_inplace`, sdp_fft.cpp:159-187, running the batch entries in the given
order; both pointers start at `b`. -/
def fft1Batch (b n : Nat) (order : List Nat) (inverse : Bool) (st : Bufs) : Option Bufs :=
  loop (fun st (f : Nat) => fft1 (b + f * n) n inverse st) st order

/-- `sdp_transpose_simple`, sdp_fft.cpp:210-224. -/
def transpose (out : Arr ℂ) (inp : Arr ℂ) (b nx ny : Nat) : Option (Arr ℂ) :=
  loop (fun out (p : Nat × Nat) =>
    (inp.read (b + (p.1 * nx + p.2) : Nat)).bind fun v => out.write (b + (p.2 * ny + p.1) : Nat) v)
    out (nest2 ny nx)

/-- One batch entry of `sdp_2d_fft_inplace`, sdp_fft.cpp:239-246; `o1`, `o2` are the orders
of the two inner batch loops. -/
def fft2 (nx ny : Nat) (o1 o2 : List Nat) (inverse : Bool) (st : Bufs) (f : Nat) : Option Bufs :=
  let pos := nx * ny * f
  (transpose st.tmp st.inp pos ny nx).bind fun tmp =>
  (fft1Batch pos nx o1 inverse ⟨tmp, st.inp⟩).bind fun st1 =>
  (transpose st1.tmp st1.inp pos nx ny).bind fun inp =>
    fft1Batch pos ny o2 inverse ⟨inp, st1.inp⟩

/-- `sdp_2d_fft_inplace`, sdp_fft.cpp:228-248. -/
def fft2Batch (nx ny batch : Nat) (o1 o2 : List Nat) (inverse : Bool) (st : Bufs) :
    Option Bufs :=
  loop (fun st (f : Nat) => fft2 nx ny o1 o2 inverse st f) st (List.range batch)

/-- A one-dimensional plan execution: `sdp_fft_exec_native` with `num_dims` = 1 and
`sdp_1d_fft`, sdp_fft.cpp:191-205 and sdp_fft.cpp:751-774.  `is_forward` must be 1 for a
forward transform; any other value gives the inverse.  Returns `(output, temp)`.
`inplace` says that input and output are the same array. -/
def exec1 (nx batch : Nat) (order : List Nat) (isForward : Int) (inplace : Bool)
    (inp out tmp : Arr ℂ) : Option Bufs :=
  (if inplace then some out else copyBlock out 0 inp 0 (nx * batch)).bind fun out =>
    fft1Batch 0 nx order (!(isForward = 1)) ⟨out, tmp⟩

/-- A two-dimensional plan execution: `sdp_fft_exec_native` with `num_dims` = 2 and
`sdp_2d_fft`, sdp_fft.cpp:253-268 and sdp_fft.cpp:775-803; `nx` is the slow axis. -/
def exec2 (nx ny batch : Nat) (o1 o2 : List Nat) (isForward : Int) (inplace : Bool)
    (inp out tmp : Arr ℂ) : Option Bufs :=
  (if inplace then some out else copyBlock out 0 inp 0 (nx * ny * batch)).bind fun out =>
    fft2Batch nx ny batch o1 o2 (!(isForward = 1)) ⟨out, tmp⟩

/-- `fft_phase`, sdp_fft.cpp:1046-1063, on a contiguous array; `order` are the pixels in
some order (parallel loop). -/
def phase (n2 : Nat) (order : List (Nat × Nat)) (d : Arr ℂ) : Option (Arr ℂ) :=
  loop (fun d (p : Nat × Nat) =>
    (d.read (index2 n2 p.1 p.2)).bind fun v =>
      d.write (index2 n2 p.1 p.2) (v * ((1 - (((p.1 + p.2) &&& 1) <<< 1 : Nat) : Int) : ℂ)))
    d order

/-- `fft_norm`, sdp_fft.cpp:964-981. -/
def norm (n1 n2 : Nat) (order : List (Nat × Nat)) (d : Arr ℂ) : Option (Arr ℂ) :=
  let factor : ℂ := 1 / (n1 * n2)
  loop (fun d (p : Nat × Nat) =>
    (d.read (index2 n2 p.1 p.2)).bind fun v => d.write (index2 n2 p.1 p.2) (v * factor))
    d order

/-- `sdp_fft_exec_shift`, sdp_fft.cpp:924-936, for a two-dimensional array. -/
def execShift (n1 n2 : Nat) (o1 o2 : List Nat) (oph : List (Nat × Nat)) (isForward : Int)
    (norm? : Bool) (d tmp : Arr ℂ) : Option (Arr ℂ × Arr ℂ) :=
  (phase n2 oph d).bind fun d =>
  (exec2 n1 n2 1 o1 o2 isForward true d d tmp).bind fun st =>
  (phase n2 oph st.inp).bind fun d =>
  (if norm? then norm n1 n2 oph d else some d).map fun d => (d, st.tmp)

end
end Sdp.Fft
