import Mathlib.Analysis.SpecialFunctions.Complex.Circle
import Mathlib.Analysis.SpecialFunctions.Trigonometric.Basic
import Mathlib.Algebra.Field.GeomSum
import Mathlib.Tactic.FieldSimp
import Mathlib.Tactic.LinearCombination
import Verif.Common.Loops

/-!
# Roots of unity and the discrete Fourier transform (specification)
-/

namespace Sdp.Fft
noncomputable section
open Complex

/-- `exp(2 pi i m / n)`. -/
def root (n : Nat) (m : Int) : ℂ := cexp (2 * Real.pi * I * (m / n))

/-- Sign of the exponent: the forward transform uses `exp(-2 pi i ..)`. -/
def sgn (inverse : Bool) : Int := if inverse then 1 else -1

/-- Specification: the unnormalised discrete Fourier transform of length `n`. -/
def dft (inverse : Bool) (n : Nat) (x : Nat → ℂ) (k : Nat) : ℂ :=
  ∑ s ∈ Finset.range n, root n (sgn inverse * (s * k)) * x s

/-- Specification: the two-dimensional transform (first axis slow). -/
def dft2 (inverse : Bool) (n1 n2 : Nat) (x : Nat → Nat → ℂ) (k1 k2 : Nat) : ℂ :=
  ∑ s1 ∈ Finset.range n1, ∑ s2 ∈ Finset.range n2,
    root n1 (sgn inverse * (s1 * k1)) * root n2 (sgn inverse * (s2 * k2)) * x s1 s2

theorem root_zero (n : Nat) : root n 0 = 1 := by simp [root]

theorem root_add (n : Nat) (a b : Int) : root n (a + b) = root n a * root n b := by
  unfold root
  rw [← Complex.exp_add]; congr 1; push_cast; ring

theorem root_neg (n : Nat) (a : Int) : root n (-a) * root n a = 1 := by
  rw [← root_add]; simp [root_zero]

theorem root_eq_one_iff {n : Nat} (hn : 0 < n) (m : Int) : root n m = 1 ↔ (n : Int) ∣ m := by
  unfold root
  rw [Complex.exp_eq_one_iff]
  have hn' : (n : ℂ) ≠ 0 := by exact_mod_cast hn.ne'
  have hpi : (2 * (Real.pi : ℂ) * I) ≠ 0 := by
    simp [Real.pi_ne_zero, I_ne_zero]
  constructor
  · rintro ⟨k, hk⟩
    refine ⟨k, ?_⟩
    have : (m : ℂ) / n = k := by
      apply mul_left_cancel₀ hpi; rw [hk]; ring
    have h2 : (m : ℂ) = n * k := by
      rw [← this]; field_simp
    exact_mod_cast h2
  · rintro ⟨k, rfl⟩
    refine ⟨k, ?_⟩
    push_cast
    field_simp

theorem root_mul_period (n : Nat) (k : Int) : root n (n * k) = 1 := by
  rcases Nat.eq_zero_or_pos n with rfl | hn
  · simp [root]
  · exact (root_eq_one_iff hn _).2 ⟨k, rfl⟩

theorem root_add_period (n : Nat) (a k : Int) : root n (a + n * k) = root n a := by
  rw [root_add, root_mul_period, mul_one]

theorem root_double (n : Nat) (m : Int) : root (2 * n) (2 * m) = root n m := by
  unfold root
  congr 1
  push_cast
  rcases Nat.eq_zero_or_pos n with rfl | hn
  · simp
  · have hn' : (n : ℂ) ≠ 0 := by exact_mod_cast hn.ne'
    field_simp

theorem root_half {n : Nat} (hn : 0 < n) : root (2 * n) n = -1 := by
  unfold root
  have hn' : (n : ℂ) ≠ 0 := by exact_mod_cast hn.ne'
  rw [← Complex.exp_pi_mul_I]
  congr 1
  push_cast
  field_simp

theorem root_neg_half {n : Nat} (hn : 0 < n) : root (2 * n) (-n) = -1 := by
  have := root_neg (2 * n) n
  rw [root_half hn] at this
  linear_combination -this

theorem root_pow (n : Nat) (m : Int) (k : Nat) : root n m ^ k = root n (k * m) := by
  induction k with
  | zero => simp [root_zero]
  | succ k ih => rw [pow_succ, ih, ← root_add]; congr 1; push_cast; ring

/-- Orthogonality of the roots of unity. -/
theorem root_sum {n : Nat} (hn : 0 < n) (d : Int) :
    ∑ k ∈ Finset.range n, root n (k * d) = if (n : Int) ∣ d then (n : ℂ) else 0 := by
  simp only [← root_pow]
  by_cases h : (n : Int) ∣ d
  · rw [if_pos h, (root_eq_one_iff hn d).2 h]; simp
  · rw [if_neg h]
    have h1 : root n d ≠ 1 := fun hh => h ((root_eq_one_iff hn d).1 hh)
    rw [geom_sum_eq h1, root_pow, root_mul_period]; simp

theorem sgn_not (b : Bool) : sgn (!b) = -sgn b := by cases b <;> rfl

theorem sgn_dvd (b : Bool) (n d : Int) : n ∣ sgn b * d ↔ n ∣ d := by
  cases b <;> simp [sgn]

/-- Specification-level inversion: transforming forth and back multiplies by the length. -/
theorem dft_dft (inv : Bool) (n : Nat) (x : Nat → ℂ) (j : Nat) (hj : j < n) :
    dft (!inv) n (dft inv n x) j = n * x j := by
  have hn : 0 < n := by omega
  unfold dft
  have e : ∀ k ∈ Finset.range n,
      root n (sgn (!inv) * (k * j)) * ∑ s ∈ Finset.range n, root n (sgn inv * (s * k)) * x s =
      ∑ s ∈ Finset.range n, root n (k * (sgn inv * (s - j))) * x s := by
    intro k _
    rw [Finset.mul_sum]
    refine Finset.sum_congr rfl fun s _ => ?_
    rw [← mul_assoc, ← root_add, sgn_not]
    congr 2; ring
  rw [Finset.sum_congr rfl e, Finset.sum_comm]
  simp only [← Finset.sum_mul, root_sum hn, sgn_dvd]
  rw [Finset.sum_eq_single_of_mem j (Finset.mem_range.2 hj)]
  · simp
  · intro s hs hne
    rw [Finset.mem_range] at hs
    rw [if_neg, zero_mul]
    rintro ⟨k, hk⟩
    apply hne
    have h1 : (s : Int) - j < n := by omega
    have h2 : -(n : Int) < (s : Int) - j := by omega
    rw [hk] at h1 h2
    have hk0 : k = 0 := by
      have : k < 1 := by
        by_contra hh
        have : (n : Int) * 1 ≤ n * k := mul_le_mul_of_nonneg_left (by omega) (by omega)
        omega
      have : -1 < k := by
        by_contra hh
        have : (n : Int) * k ≤ n * (-1) := mul_le_mul_of_nonneg_left (by omega) (by omega)
        omega
      omega
    rw [hk0] at hk
    omega

theorem dft2_rows_cols (inv : Bool) (n1 n2 : Nat) (x : Nat → Nat → ℂ) (k1 k2 : Nat) :
    dft2 inv n1 n2 x k1 k2 = dft inv n2 (fun s2 => dft inv n1 (fun s1 => x s1 s2) k1) k2 := by
  unfold dft2 dft
  rw [Finset.sum_comm]
  refine Finset.sum_congr rfl fun s2 _ => ?_
  rw [Finset.mul_sum]
  refine Finset.sum_congr rfl fun s1 _ => ?_
  ring

theorem dft_congr (inv : Bool) (n : Nat) {x y : Nat → ℂ} (h : ∀ i < n, x i = y i) (k : Nat) :
    dft inv n x k = dft inv n y k := by
  unfold dft
  exact Finset.sum_congr rfl fun s hs => by rw [h s (Finset.mem_range.1 hs)]

theorem dft2_congr (inv : Bool) (n1 n2 : Nat) {x y : Nat → Nat → ℂ}
    (h : ∀ i < n1, ∀ j < n2, x i j = y i j) (k1 k2 : Nat) :
    dft2 inv n1 n2 x k1 k2 = dft2 inv n1 n2 y k1 k2 := by
  unfold dft2
  exact Finset.sum_congr rfl fun s hs => Finset.sum_congr rfl fun t ht => by
    rw [h s (Finset.mem_range.1 hs) t (Finset.mem_range.1 ht)]

theorem dft2_cols_rows (inv : Bool) (n1 n2 : Nat) (x : Nat → Nat → ℂ) (k1 k2 : Nat) :
    dft2 inv n1 n2 x k1 k2 = dft inv n1 (fun s1 => dft inv n2 (fun s2 => x s1 s2) k2) k1 := by
  unfold dft2 dft
  refine Finset.sum_congr rfl fun s1 _ => ?_
  rw [Finset.mul_sum]
  refine Finset.sum_congr rfl fun s2 _ => ?_
  ring

theorem dft2_dft2 (inv : Bool) (n1 n2 : Nat) (x : Nat → Nat → ℂ) (i j : Nat) (hi : i < n1)
    (hj : j < n2) : dft2 (!inv) n1 n2 (dft2 inv n1 n2 x) i j = n1 * n2 * x i j := by
  have e : ∀ s1 < n1, dft (!inv) n2 (fun s2 => dft2 inv n1 n2 x s1 s2) j =
      n2 * dft inv n1 (fun t => x t j) s1 := by
    intro s1 _
    simp only [dft2_rows_cols]
    exact dft_dft inv n2 (fun s2 => dft inv n1 (fun s1 => x s1 s2) s1) j hj
  rw [dft2_cols_rows, dft_congr (!inv) n1 e]
  have := dft_dft inv n1 (fun t => x t j) i hi
  unfold dft at this ⊢
  rw [mul_comm (n1 : ℂ) n2, mul_assoc, ← this, Finset.mul_sum]
  refine Finset.sum_congr rfl fun s _ => ?_
  ring

end
end Sdp.Fft
