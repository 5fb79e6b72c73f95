import Verif.GridUtil.ResidualProps
import Verif.Fft.Roots
import Verif.EsFft.KernelProps
import Mathlib.Algebra.BigOperators.Field

/-!
# C83: kernels from windows
-/

namespace Sdp.GridUtil
open Sdp.Race Sdp.Fft

/-! ## The kernel -/

/-- The value of the kernel in row `i` of `os + 1` and column `s`, for a window of `n` values: the real part of
the Fourier transform of the window at the offset `s - n/2 + (os - i) / os`, positions in the window counted
from its centre `n/2`. -/
noncomputable def kernelEntry (w : Nat → ℝ) (n os i s : Nat) : ℝ :=
  (∑ t ∈ Finset.range n, w t * Real.cos (2 * Real.pi * ((s : ℝ) - (n / 2 : Nat) + ((os : ℝ) - i) / os) *
    ((t : ℝ) - (n / 2 : Nat)) / n)) / n

/-- A window of `n` values with a stride, read through a descriptor. -/
structure Window (m : Mem) (size n : Nat) (pos : Nat → Nat) : Prop where
  dims : m.numDims = 1
  rows : m.shapeDim 0 = n
  strides : ∀ s, s < n → (pos s : Int) = s * m.strideElementsDim 0
  fits : ∀ s, s < n → pos s < size

theorem kernelVal_spec {n os : Nat} (hos : 0 < os) {stride : Int} {window : Arr ℝ} {posW : Nat → Nat}
    (hst : ∀ s, s < n → (posW s : Int) = s * stride) (hfit : ∀ s, s < n → posW s < window.size)
    (i s : Nat) :
    (kernelVal n os stride window (i, s)).map (fun v => v * (1 / (((n : Nat) : Int) : ℝ))) =
      some (kernelEntry (fun t => window.get (posW t)) n os i s) := by
  unfold kernelVal
  rw [if_neg (by omega)]
  simp only
  rw [EsFft.loop_sum' _ _ (fun (t : Nat) => window.get (posW t) *
    Real.cos (2 * Real.pi * ((s : ℝ) - (n / 2 : Nat) + ((os : ℝ) - i) / os) * ((t : ℝ) - (n / 2 : Nat)) / n)) ?_]
  · rw [Option.map_some, zero_add, list_sum_range, Int.toNat_natCast]
    unfold kernelEntry
    rw [Int.cast_natCast, mul_one_div]
  · intro t ht acc
    rw [List.mem_range, Int.toNat_natCast] at ht
    rw [mul_comm stride, ← hst t ht, Arr.read_nat, if_pos (hfit t ht), Option.bind_some]
    congr 4
    have e : ((n : Int) / 2) = ((n / 2 : Nat) : Int) := by simp
    rw [e]
    generalize n / 2 = h
    have : (os : ℝ) ≠ 0 := by exact_mod_cast hos.ne'
    push_cast
    field_simp
    ring

theorem viewConst1_ok {m : Mem} {t : MemType} (h : m.numDims = 1) (ht : m.type = t) (hl : m.location = .cpu) :
    checkAndViewConst m t 1 .cpu .success = (mkView m 1 .success, .success) := by
  have := (viewConst_status m t 1 .cpu .success).2 ⟨rfl, ht, by simpa using h, hl⟩
  have e : (checkAndViewConst m t 1 .cpu .success).1 = mkView m 1 (checkAndViewConst m t 1 .cpu .success).2 := rfl
  rw [this] at e
  exact Prod.ext e this

/-- **C83, kernels.**  For a kernel of at least two rows every schedule fills every element with the value of
the definition. -/
theorem C83_kernel_partial (mw mk : Mem) (window out : Arr ℝ) (n os : Nat) (posW : Nat → Nat)
    (pos : Nat → Nat → Nat) (hw : Window mw window.size n posW) (hk : Plane mk out.size (os + 1) n pos)
    (hd : Distinct (os + 1) n pos) (hos : 0 < os) (hlw : mw.location = .cpu) (hlk : mk.location = .cpu)
    (hdata : mk.data ≠ none) (hro : mk.isReadOnly = false)
    (ht : mw.type = .double ∧ mk.type = .double ∨ mw.type = .float ∧ mk.type = .float) :
    (kernelCall mw mk .success window).status = .success ∧
      ∃ r, Yields (kernelCall mw mk .success window).prog (kernelCall mw mk .success window).threads out r ∧
        r.size = out.size ∧
        (∀ i s, i < os + 1 → s < n → r.get (pos i s) = kernelEntry (fun t => window.get (posW t)) n os i s) ∧
        ∀ x, (∀ i s, i < os + 1 → s < n → pos i s ≠ x) → r.get x = out.get x := by
  have hs0 : ((mkView mw 1 .success).stride.getD 0 0) = mw.strideElementsDim 0 := by
    simp [mkView, List.range_succ]
  have e : kernelCall mw mk .success window = cpuRun .success (mkView mk 2 .success)
      (kernelBody n os (mkView mk 2 .success) (mw.strideElementsDim 0) window) := by
    unfold kernelCall
    rw [if_neg (by simp), if_pos ht, viewConst1_ok hw.dims rfl hlw]
    simp only
    rw [view_ok (t := mk.type) hk.dims rfl hlk hdata hro]
    simp only
    rw [if_neg (by simp), if_neg (by rw [hw.rows, hk.cols]; simp), hs0, hw.rows, hk.rows]
    unfold cpuRun
    rw [(plane_rows hk).1, (plane_rows hk).2]
    have : ((os + 1 : Nat) : Int) - 1 = os := by omega
    rw [this]
    rfl
  refine run_yields false false (by simp) mk out hk hd
    (kernelBody n os (mkView mk 2 .success) (mw.strideElementsDim 0) window)
    (kernelEntry (fun t => window.get (posW t)) n os) ?_ _ (by rw [e]; rfl)
  intro i s hi hs
  unfold kernelBody
  rw [plane_addr hk hi hs]
  constructor
  · exact within_need _ _ fun v _ => ⟨rfl, trivial⟩
  · rw [exec_need]
    have := kernelVal_spec hos hw.strides hw.fits i s
    rw [Option.map_eq_some_iff] at this
    obtain ⟨v, hv, hval⟩ := this
    rw [hv, Option.bind_some]
    simp only [Prog.exec]
    rw [hval, Arr.write_nat, if_pos (hk.fits i s hi hs)]
    rfl

/-- **C83 fails** for a kernel of one row (no oversampling): every element is zero times infinity. -/
theorem C83_kernel_false (mw mk : Mem) (window : Arr ℝ) (n : Nat) (posW : Nat → Nat) (pos : Nat → Nat → Nat)
    (size : Nat) (hw : Window mw window.size n posW) (hk : Plane mk size 1 n pos)
    (hlw : mw.location = .cpu) (hlk : mk.location = .cpu) (hdata : mk.data ≠ none) (hro : mk.isReadOnly = false)
    (ht : mw.type = .double ∧ mk.type = .double ∨ mw.type = .float ∧ mk.type = .float) :
    (kernelCall mw mk .success window).status = .success ∧
      ∀ p ∈ nest2 1 n, p ∈ (kernelCall mw mk .success window).threads ∧
        (kernelCall mw mk .success window).prog p = .fault := by
  unfold kernelCall
  rw [if_neg (by simp), if_pos ht, viewConst1_ok hw.dims rfl hlw]
  simp only
  rw [view_ok (t := mk.type) hk.dims rfl hlk hdata hro]
  simp only
  rw [if_neg (by simp), if_neg (by rw [hw.rows, hk.cols]; simp), hw.rows, hk.rows]
  refine ⟨rfl, fun p hp => ⟨hp, ?_⟩⟩
  simp only [kernelBody, kernelVal]
  rw [if_pos (by simp)]
  rfl

/-! ## What the definition implies -/

theorem cos_root (n : Nat) (x : ℝ) (k : Int) (s : Nat) :
    Real.cos (2 * Real.pi * ((s : ℝ) + x) * k / n) =
      (Complex.exp (2 * Real.pi * Complex.I * (x * k / n)) * root n (s * k)).re := by
  unfold root
  rw [← Complex.exp_add]
  have : (2 * Real.pi * Complex.I * ((x : ℂ) * k / n) + 2 * Real.pi * Complex.I * (((s * k : Int) : ℂ) / n)) =
      ((2 * Real.pi * ((s : ℝ) + x) * k / n : ℝ) : ℂ) * Complex.I := by
    push_cast
    ring
  rw [this, Complex.exp_ofReal_mul_I_re]

/-- **C83, normalisation.**  Every row of the kernel sums to the value of the window at its centre. -/
theorem C83_kernel_sum (w : Nat → ℝ) (n os i : Nat) (hn : 0 < n) :
    ∑ s ∈ Finset.range n, kernelEntry w n os i s = w (n / 2) := by
  unfold kernelEntry
  rw [← Finset.sum_div, Finset.sum_comm]
  have hnR : (n : ℝ) ≠ 0 := by exact_mod_cast hn.ne'
  have key : ∀ t ∈ Finset.range n, (∑ s ∈ Finset.range n, w t * Real.cos (2 * Real.pi *
      ((s : ℝ) - (n / 2 : Nat) + ((os : ℝ) - i) / os) * ((t : ℝ) - (n / 2 : Nat)) / n)) =
      if t = n / 2 then n * w t else 0 := by
    intro t ht
    rw [Finset.mem_range] at ht
    rw [← Finset.mul_sum]
    have e : ∀ s ∈ Finset.range n, Real.cos (2 * Real.pi *
        ((s : ℝ) - (n / 2 : Nat) + ((os : ℝ) - i) / os) * ((t : ℝ) - (n / 2 : Nat)) / n) =
        (Complex.exp (2 * Real.pi * Complex.I * (((-((n / 2 : Nat) : ℝ) + ((os : ℝ) - i) / os : ℝ) : ℂ) *
          (((t : Int) - ((n / 2 : Nat) : Int) : Int) : ℂ) / n)) * root n (s * ((t : Int) - ((n / 2 : Nat) : Int)))).re := by
      intro s _
      rw [← cos_root]
      generalize n / 2 = h
      congr 1
      push_cast
      ring
    rw [Finset.sum_congr rfl e, ← Complex.re_sum, ← Finset.mul_sum, root_sum hn]
    by_cases h : t = n / 2
    · rw [if_pos h, if_pos (by rw [h]; simp), h]
      simp [mul_comm]
    · rw [if_neg h, if_neg, mul_zero]
      · simp
      · rintro ⟨k, hk⟩
        have h1 : (t : Int) - ((n / 2 : Nat) : Int) < n := by omega
        have h2 : -(n : Int) < (t : Int) - ((n / 2 : Nat) : Int) := by omega
        have h3 : (t : Int) - ((n / 2 : Nat) : Int) ≠ 0 := by omega
        rw [hk] at h1 h2 h3
        have hk1 : k < 1 := by
          by_contra hc
          have : (n : Int) * 1 ≤ n * k := Int.mul_le_mul_of_nonneg_left (by omega) (by omega)
          omega
        have hk2 : -1 < k := by
          by_contra hc
          have : (n : Int) * k ≤ n * (-1) := Int.mul_le_mul_of_nonneg_left (by omega) (by omega)
          omega
        have : k = 0 := by omega
        simp [this] at h3
  rw [Finset.sum_congr rfl key, Finset.sum_ite_eq', if_pos (by rw [Finset.mem_range]; omega)]
  field_simp

/-- **C83, mirror.**  For a window of even size, a row and the row as far from the other end mirror each other. -/
theorem C83_kernel_mirror (w : Nat → ℝ) (n os i s : Nat) (hn : 2 ∣ n) (hos : 0 < os) (hi : i ≤ os) (hs : s < n) :
    kernelEntry w n os (os - i) (n - 1 - s) = kernelEntry w n os i s := by
  unfold kernelEntry
  congr 1
  refine Finset.sum_congr rfl fun t _ => ?_
  congr 1
  rw [← Real.cos_neg]
  congr 1
  have h1 : ((os - i : Nat) : ℝ) = os - i := by rw [Nat.cast_sub hi]
  obtain ⟨h, rfl⟩ := hn
  have h2 : ((2 * h - 1 - s : Nat) : ℝ) = 2 * h - 1 - s := by
    rw [Nat.cast_sub (by omega), Nat.cast_sub (by omega)]
    push_cast
    ring
  have h3 : 2 * h / 2 = h := by omega
  rw [h1, h2, h3]
  have : (os : ℝ) ≠ 0 := by exact_mod_cast hos.ne'
  rw [← neg_div, ← neg_mul, ← mul_neg]
  congr 2
  field_simp
  ring

/-- **C83, edges.**  The first row is the last row moved by one column. -/
theorem C83_kernel_edge (w : Nat → ℝ) (n os s : Nat) (hos : 0 < os) :
    kernelEntry w n os 0 s = kernelEntry w n os os (s + 1) := by
  unfold kernelEntry
  have : (os : ℝ) ≠ 0 := by exact_mod_cast hos.ne'
  congr 1
  refine Finset.sum_congr rfl fun t _ => ?_
  congr 4
  field_simp
  push_cast
  ring

/-! ## Kernels of prolate spheroidal functions -/

/-- What `sdp_gridder_make_pswf_kernel` documents: the kernel of the window with its first value, which is zero,
replaced by 1e-15 if the number of columns is even. -/
noncomputable def pswfWindow (gen : Nat → Nat → ℝ) (n t : Nat) : ℝ :=
  if t = 0 ∧ 2 ∣ n then 1 / 10 ^ 15 else gen n t

theorem window_made (t : MemType) (n : Nat) (ht : t = .double ∨ t = .float) (size : Nat) (hs : n ≤ size) :
    (createWrapper (some ⟨0, 0⟩) t .cpu [(n : Int)] none .success).2 = .success ∧
    (createWrapper (some ⟨0, 0⟩) t .cpu [(n : Int)] none .success).1.type = t ∧
    (createWrapper (some ⟨0, 0⟩) t .cpu [(n : Int)] none .success).1.location = .cpu ∧
    Window (createWrapper (some ⟨0, 0⟩) t .cpu [(n : Int)] none .success).1 size n id := by
  rcases ht with rfl | rfl
  all_goals
    refine ⟨rfl, rfl, rfl, ⟨rfl, rfl, ?_, fun s h => by simp only [id]; omega⟩⟩
    intro s _
    simp [createWrapper, Mem.strideElementsDim, Mem.strideBytesDim, MemType.size, defaultStrideLoop]

theorem tmod_two (n : Nat) : (n : Int).tmod 2 = ((n % 2 : Nat) : Int) := by
  rw [Int.tmod_eq_emod_of_nonneg (by omega)]
  simp

/-- **C83, kernels of prolate spheroidal functions**, in double precision, or of an odd number of columns. -/
theorem C83_pswf_partial (gen : Nat → Nat → ℝ) (mk : Mem) (out : Arr ℝ) (n os : Nat) (pos : Nat → Nat → Nat)
    (hk : Plane mk out.size (os + 1) n pos) (hd : Distinct (os + 1) n pos) (hos : 0 < os) (hn : 0 < n)
    (hlk : mk.location = .cpu) (hdata : mk.data ≠ none) (hro : mk.isReadOnly = false)
    (ht : mk.type = .double ∨ mk.type = .float ∧ ¬ 2 ∣ n) :
    ∃ run, pswfKernelCall gen mk .success = some run ∧ run.status = .success ∧
      ∃ r, Yields run.prog run.threads out r ∧ r.size = out.size ∧
        (∀ i s, i < os + 1 → s < n → r.get (pos i s) = kernelEntry (pswfWindow gen n) n os i s) ∧
        ∀ x, (∀ i s, i < os + 1 → s < n → pos i s ≠ x) → r.get x = out.get x := by
  have ht' : mk.type = .double ∨ mk.type = .float := ht.imp id And.left
  have hpatch : ∃ w : Arr ℝ, pswfPatch mk.type n ⟨n, gen n⟩ = some w ∧ w.size = n ∧
      ∀ t, t < n → w.get t = pswfWindow gen n t := by
    unfold pswfPatch
    rw [tmod_two]
    by_cases h2 : 2 ∣ n
    · rw [if_neg (by omega)]
      have hd : mk.type = .double := ht.resolve_right fun h => h.2 h2
      rw [hd, if_neg (by simp [MemType.size]; omega)]
      refine ⟨_, rfl, rfl, fun t _ => ?_⟩
      by_cases h0 : t = 0 <;> simp [Arr.put, pswfWindow, h0, h2]
    · rw [if_pos (by omega)]
      exact ⟨_, rfl, rfl, fun t _ => by rw [pswfWindow, if_neg (fun h => h2 h.2)]⟩
  obtain ⟨w, hw1, hw2, hw3⟩ := hpatch
  obtain ⟨c1, c2, c3, c4⟩ := window_made mk.type n ht' w.size hw2.ge
  have e : pswfKernelCall gen mk .success =
      some (kernelCall (createWrapper (some ⟨0, 0⟩) mk.type .cpu [(n : Int)] none .success).1 mk .success w) := by
    unfold pswfKernelCall
    rw [if_neg (by simp), if_neg (by have := hk.dims; omega)]
    simp only
    rw [hk.cols, Int.toNat_natCast, hw1, Option.bind_some, c1, if_neg (by simp),
      if_pos (by rcases ht' with h | h <;> simp [h])]
  refine ⟨_, e, ?_⟩
  obtain ⟨q0, r, q1, q2, q3, q4⟩ := C83_kernel_partial _ mk w out n os id pos c4 hk hd hos c3 hlk hdata hro
    (by rw [c2]; rcases ht' with h | h <;> simp [h])
  refine ⟨q0, r, q1, q2, fun i s hi hs => ?_, q4⟩
  rw [q3 i s hi hs]
  unfold kernelEntry
  congr 1
  refine Finset.sum_congr rfl fun t ht => ?_
  simp only [id]
  rw [hw3 t (Finset.mem_range.1 ht)]

/-- **C83 fails** for single precision and an even number of columns: the double 1e-15 is stored over the first
two values, so the second is 0.0256…, whatever the function is. -/
theorem C83_pswf_false (gen : Nat → Nat → ℝ) (mk : Mem) (out : Arr ℝ) (n os : Nat) (pos : Nat → Nat → Nat)
    (hk : Plane mk out.size (os + 1) n pos) (hd : Distinct (os + 1) n pos) (hos : 0 < os) (hn : 0 < n)
    (h2 : 2 ∣ n) (hlk : mk.location = .cpu) (hdata : mk.data ≠ none) (hro : mk.isReadOnly = false)
    (ht : mk.type = .float) :
    ∃ run, pswfKernelCall gen mk .success = some run ∧ run.status = .success ∧
      ∃ r, Yields run.prog run.threads out r ∧ ∀ i s, i < os + 1 → s < n →
        r.get (pos i s) = kernelEntry (fun t => if t = 1 then 13763503 / 2 ^ 29 else if t = 0 then lowHalf
          else gen n t) n os i s := by
  have hpatch : pswfPatch mk.type n ⟨n, gen n⟩ =
      some (((⟨n, gen n⟩ : Arr ℝ).put 0 lowHalf).put 1 highHalf) := by
    unfold pswfPatch
    rw [tmod_two, if_neg (by omega), ht, if_neg (by simp [MemType.size]; omega)]
  obtain ⟨c1, c2, c3, c4⟩ := window_made mk.type n (Or.inr ht) n le_rfl
  have e : pswfKernelCall gen mk .success =
      some (kernelCall (createWrapper (some ⟨0, 0⟩) mk.type .cpu [(n : Int)] none .success).1 mk .success
        (((⟨n, gen n⟩ : Arr ℝ).put 0 lowHalf).put 1 highHalf)) := by
    unfold pswfKernelCall
    rw [if_neg (by simp), if_neg (by have := hk.dims; omega)]
    simp only
    rw [hk.cols, Int.toNat_natCast, hpatch, Option.bind_some, c1, if_neg (by simp),
      if_pos (by simp [ht])]
  refine ⟨_, e, ?_⟩
  obtain ⟨q0, r, q1, q2, q3, q4⟩ := C83_kernel_partial _ mk
    (((⟨n, gen n⟩ : Arr ℝ).put 0 lowHalf).put 1 highHalf) out n os id pos c4 hk hd hos c3 hlk hdata hro
    (by rw [c2]; simp [ht])
  refine ⟨q0, r, q1, fun i s hi hs => ?_⟩
  rw [q3 i s hi hs]
  rfl

/-- **C83 fails** where the window has fewer than eight bytes: a kernel of type `char` with two columns, which
should be refused, has eight bytes stored in a block of two. -/
theorem C83_pswf_overflow_false (gen : Nat → Nat → ℝ) (mk : Mem) (size rows : Nat) (pos : Nat → Nat → Nat)
    (hk : Plane mk size rows 2 pos) (ht : mk.type = .char) : pswfKernelCall gen mk .success = none := by
  unfold pswfKernelCall
  rw [if_neg (by simp), if_neg (by have := hk.dims; omega)]
  simp only
  rw [hk.cols, ht]
  rfl

/-! ## Cases that meet the hypotheses -/

/-- A kernel of three rows and four columns. -/
def kernelExample : Mem := (createWrapper (some ⟨0, 0⟩) .double .cpu [3, 4] none .success).1

theorem kernelExample_plane : Plane kernelExample 12 3 4 (fun i j => i * 4 + j) := by
  refine ⟨rfl, rfl, rfl, fun i j hi hj => ?_, fun i j hi hj => by omega⟩
  simp [kernelExample, createWrapper, Mem.strideElementsDim, Mem.strideBytesDim, MemType.size, defaultStrideLoop]

example (gen : Nat → Nat → ℝ) (out : Arr ℝ) (h : out.size = 12) :
    ∃ run, pswfKernelCall gen kernelExample .success = some run ∧ run.status = .success ∧
      ∃ r, Yields run.prog run.threads out r ∧
        r.get (1 * 4 + 2) = kernelEntry (pswfWindow gen 4) 4 2 1 2 := by
  obtain ⟨run, h1, h2, r, h3, -, h4, -⟩ := C83_pswf_partial gen kernelExample out 4 2 (fun i j => i * 4 + j)
    (h ▸ kernelExample_plane) (fun i j i' j' _ _ _ _ h => by simp only at h; omega) (by omega) (by omega) rfl (by decide) rfl
    (Or.inl rfl)
  exact ⟨run, h1, h2, r, h3, h4 1 2 (by omega) (by omega)⟩

end Sdp.GridUtil
