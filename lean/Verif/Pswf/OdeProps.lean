import Verif.Pswf.Ode
import Verif.Pswf.Small
import Mathlib.Analysis.SpecialFunctions.Pow.Deriv

/-!
# The function of a plan is a prolate spheroidal wave function (C87)
-/

namespace Sdp.Pswf
noncomputable section
open Polynomial Sdp.Legendre
open scoped Nat

/-! ## Multiplication by `x²` -/

theorem mul_x0 (m : Nat) : C (2 * (m : ℝ) + 1) * X * Q m m = Q m (m + 1) := by
  unfold Q
  cases m with
  | zero => rw [P_zero, P_one]; simp
  | succ m =>
    have h := rec (K := ℝ) m (m + 1)
    rw [(top m).2, mul_zero, sub_zero] at h
    push_cast at h ⊢
    rw [show ((m : ℝ) + 2 - (m + 1)) = 1 by ring, C_1, one_mul] at h
    rw [show m + 1 + 1 = m + 2 from rfl, h]
    congr 3
    ring

theorem mul_x (m j : Nat) : C (2 * ((m : ℝ) + j) + 3) * X * Q m (m + (j + 1)) =
    C ((j : ℝ) + 2) * Q m (m + (j + 2)) + C (2 * (m : ℝ) + j + 1) * Q m (m + j) := by
  have h := rec (K := ℝ) (m + j) m
  push_cast at h
  have e1 : (m : ℝ) + j + 2 - m = j + 2 := by ring
  have e2 : (m : ℝ) + j + 1 + m = 2 * m + j + 1 := by ring
  rw [e1, e2] at h
  unfold Q
  rw [show m + (j + 2) = m + j + 2 from rfl, show m + (j + 1) = m + j + 1 from rfl]
  linear_combination -h

/-- The square of `x` times the function of degree `m + 2 i`. -/
theorem mul_sq (m i : Nat) (cs : ℝ) : C cs * X ^ 2 * Q m (m + 2 * i) =
    C (coefG m (2 * (i + 1)) cs) * Q m (m + 2 * (i + 1)) +
    C (coefD m (2 * i) cs - ((m + 2 * i : ℕ) : ℝ) * ((m + 2 * i : ℕ) + 1 : ℝ)) * Q m (m + 2 * i) +
    (if i = 0 then 0 else C (coefA m (2 * (i - 1)) cs) * Q m (m + 2 * (i - 1))) := by
  apply Polynomial.funext
  intro x
  rcases i with _ | i
  · have h0 := congrArg (eval x) (mul_x0 m)
    have h1 := congrArg (eval x) (mul_x m 0)
    rw [if_pos rfl, coefD_al]
    unfold coefG al
    simp only [eval_mul, eval_add, eval_C, eval_X, eval_pow, eval_zero, add_zero, mul_zero, zero_add, Nat.cast_zero,
      mul_one, Nat.cast_add, Nat.cast_mul, Nat.cast_ofNat, Nat.cast_one, Nat.reduceMul] at h0 h1 ⊢
    generalize eval x (Q m m) = r0 at *
    generalize eval x (Q m (m + 1)) = r1 at *
    generalize eval x (Q m (m + 2)) = r2 at *
    have d1 : 2 * (m : ℝ) + 1 ≠ 0 := by positivity
    have d3 : 2 * (m : ℝ) + 3 ≠ 0 := by positivity
    have dm := odd_ne m
    have e2 : r2 = ((2 * (m : ℝ) + 3) * x * r1 - (2 * m + 1) * r0) / 2 := by linear_combination -(1 / 2) * h1
    have f1 : 2 * ((m : ℝ) + 2) - 3 = 2 * m + 1 := by ring
    have f2 : 2 * ((m : ℝ) + 2) - 1 = 2 * m + 3 := by ring
    have f3 : 2 * ((m : ℝ) + 1) - 1 = 2 * m + 1 := by ring
    have f4 : 2 * ((m : ℝ) + 1) + 1 = 2 * m + 3 := by ring
    rw [f1, f2, f3, f4, e2, ← h0]
    field_simp
    ring
  · have h0 := congrArg (eval x) (mul_x m (2 * i))
    have h1 := congrArg (eval x) (mul_x m (2 * i + 1))
    have h2 := congrArg (eval x) (mul_x m (2 * i + 2))
    rw [if_neg (by omega), coefD_al, Nat.add_sub_cancel]
    unfold coefG coefA al
    have g1 : 2 * (i + 1) = 2 * i + 2 := by ring
    have g2 : 2 * (i + 1 + 1) = 2 * i + 4 := by ring
    rw [g1, g2]
    simp only [eval_mul, eval_add, eval_C, eval_X, eval_pow, Nat.cast_add, Nat.cast_mul, Nat.cast_ofNat, Nat.cast_one,
      Nat.add_assoc, Nat.reduceAdd] at h0 h1 h2 ⊢
    generalize eval x (Q m (m + 2 * i)) = r0 at *
    generalize eval x (Q m (m + (2 * i + 1))) = r1 at *
    generalize eval x (Q m (m + (2 * i + 2))) = r2 at *
    generalize eval x (Q m (m + (2 * i + 3))) = r3 at *
    generalize eval x (Q m (m + (2 * i + 4))) = r4 at *
    generalize hM : (m : ℝ) = M at *
    generalize hI : (2 * (i : ℝ)) = I at *
    have hM0 : 0 ≤ M := hM ▸ Nat.cast_nonneg m
    have hI0 : 0 ≤ I := by rw [← hI]; positivity
    have d3 : 2 * (M + I) + 3 ≠ 0 := by positivity
    have d5 : 2 * (M + I) + 5 ≠ 0 := by positivity
    have d7 : 2 * (M + I) + 7 ≠ 0 := by positivity
    have x1 : x * r1 = ((I + 2) * r2 + (2 * M + I + 1) * r0) / (2 * (M + I) + 3) := by
      rw [eq_div_iff d3]; linear_combination h0
    have x3 : x * r3 = ((I + 4) * r4 + (2 * M + I + 3) * r2) / (2 * (M + I) + 7) := by
      rw [eq_div_iff d7]; linear_combination h2
    have x2 : x ^ 2 * r2 = ((I + 3) * (x * r3) + (2 * M + I + 2) * (x * r1)) / (2 * (M + I) + 5) := by
      rw [eq_div_iff d5]; linear_combination x * h1
    rw [mul_assoc, x2, x1, x3]
    have f1 : 2 * (M + (I + 4)) - 3 = 2 * (M + I) + 5 := by ring
    have f2 : 2 * (M + (I + 4)) - 1 = 2 * (M + I) + 7 := by ring
    have f3 : 2 * (M + (I + 3)) - 1 = 2 * (M + I) + 5 := by ring
    have f4 : 2 * (M + (I + 3)) + 1 = 2 * (M + I) + 7 := by ring
    have f5 : 2 * (M + (I + 2)) - 1 = 2 * (M + I) + 3 := by ring
    have f6 : 2 * (M + (I + 2)) + 1 = 2 * (M + I) + 5 := by ring
    rw [f1, f2, f3, f4, f5, f6]
    field_simp
    ring

/-! ## Specification -/

/-- A sum of Legendre functions of degrees `m`, `m + 2`, …, `n` terms, without the factor `(1 - x²)^(m/2)`. -/
def expansion (m : Nat) (y : Nat → ℝ) (n : Nat) (x : ℝ) : ℝ := ∑ i ∈ Finset.range n, y i * (Q m (m + 2 * i)).eval x

/-- The left-hand side of the prolate spheroidal equation (Abramowitz and Stegun, 21.6.2) for a function `g`. -/
def Prolate (m : Nat) (c lam : ℝ) (g : ℝ → ℝ) (x : ℝ) : ℝ :=
  deriv (fun t => (1 - t ^ 2) * deriv g t) x + (lam - c ^ 2 * x ^ 2 - (m : ℝ) ^ 2 / (1 - x ^ 2)) * g x

/-! ## The equation for polynomials -/

theorem row_poly (m : Nat) (c lam : ℝ) (i : Nat) :
    op m (lam - m * (m + 1)) (Q m (m + 2 * i)) + C (c * c) * X ^ 2 * Q m (m + 2 * i) =
    C (coefG m (2 * (i + 1)) (c * c)) * Q m (m + 2 * (i + 1)) + C (coefD m (2 * i) (c * c) - lam) * Q m (m + 2 * i) +
    (if i = 0 then 0 else C (coefA m (2 * (i - 1)) (c * c)) * Q m (m + 2 * (i - 1))) := by
  have h := op_Q m (m + 2 * i)
  rw [mul_sq]
  generalize (if i = 0 then (0 : ℝ[X]) else C (coefA m (2 * (i - 1)) (c * c)) * Q m (m + 2 * (i - 1))) = t
  unfold op at h ⊢
  push_cast at h ⊢
  simp only [map_mul, map_add, map_sub, map_natCast, map_ofNat, map_one] at h ⊢
  linear_combination h

theorem sum_poly (m : Nat) (c lam : ℝ) (y : Nat → ℝ) (n : Nat) :
    op m (lam - m * (m + 1)) (∑ i ∈ Finset.range (n + 1), C (y i) * Q m (m + 2 * i)) +
        C (c * c) * X ^ 2 * (∑ i ∈ Finset.range (n + 1), C (y i) * Q m (m + 2 * i)) =
      (∑ i ∈ Finset.range (n + 1), C (Row m c lam y i) * Q m (m + 2 * i)) -
        C (coefA m (2 * n) (c * c) * y (n + 1)) * Q m (m + 2 * n) +
        C (coefG m (2 * (n + 1)) (c * c) * y n) * Q m (m + 2 * (n + 1)) := by
  induction n with
  | zero =>
    have h := row_poly m c lam 0
    rw [if_pos rfl] at h
    rw [Finset.sum_range_one, Finset.sum_range_one, op_C_mul, row_eq, if_pos rfl]
    simp only [map_mul, map_add, map_sub, C_0, add_zero, zero_add] at h ⊢
    linear_combination C (y 0) * h
  | succ n ih =>
    have h := row_poly m c lam (n + 1)
    rw [if_neg (by omega), Nat.add_sub_cancel] at h
    rw [Finset.sum_range_succ, Finset.sum_range_succ (fun i => C (Row m c lam y i) * Q m (m + 2 * i)), op_add, op_C_mul,
      row_eq m c lam y (n + 1), if_neg (by omega), Nat.add_sub_cancel]
    simp only [map_mul, map_add, map_sub] at h ih ⊢
    linear_combination C (y (n + 1)) * h + ih

/-! ## The equation for functions -/

theorem prolate_poly (m : Nat) (c lam : ℝ) (p : ℝ[X]) (x : ℝ) (hx : |x| < 1) :
    Prolate m c lam (fun t => (1 - t ^ 2) ^ ((m : ℝ) / 2) * p.eval t) x =
      -((1 - x ^ 2) ^ ((m : ℝ) / 2) * (op m (lam - m * (m + 1)) p + C (c * c) * X ^ 2 * p).eval x) := by
  have pos : ∀ t : ℝ, |t| < 1 → 0 < 1 - t ^ 2 := fun t ht => by
    have := sq_lt_one_iff_abs_lt_one t |>.2 ht
    linarith
  have du : ∀ t : ℝ, HasDerivAt (fun t : ℝ => 1 - t ^ 2) (-(2 * t)) t := fun t => by
    have := (hasDerivAt_pow 2 t).const_sub 1
    simpa using this
  have dp : ∀ t : ℝ, |t| < 1 → HasDerivAt (fun t : ℝ => (1 - t ^ 2) ^ ((m : ℝ) / 2))
      (-(m * t) * ((1 - t ^ 2) ^ ((m : ℝ) / 2) / (1 - t ^ 2))) t := fun t ht => by
    have h := (du t).rpow_const (p := (m : ℝ) / 2) (Or.inl (pos t ht).ne')
    rw [Real.rpow_sub (pos t ht), Real.rpow_one] at h
    convert h using 1
    ring
  have dg : ∀ t : ℝ, |t| < 1 → HasDerivAt (fun t : ℝ => (1 - t ^ 2) ^ ((m : ℝ) / 2) * p.eval t)
      (-(m * t) * ((1 - t ^ 2) ^ ((m : ℝ) / 2) / (1 - t ^ 2)) * p.eval t +
        (1 - t ^ 2) ^ ((m : ℝ) / 2) * (derivative p).eval t) t := fun t ht => (dp t ht).mul (p.hasDerivAt t)
  unfold Prolate
  have ev : (fun t => (1 - t ^ 2) * deriv (fun t : ℝ => (1 - t ^ 2) ^ ((m : ℝ) / 2) * p.eval t) t) =ᶠ[nhds x]
      fun t => (1 - t ^ 2) ^ ((m : ℝ) / 2) * (-(m * t) * p.eval t + (1 - t ^ 2) * (derivative p).eval t) := by
    have : ∀ᶠ t in nhds x, |t| < 1 := (continuous_abs.tendsto x).eventually_lt_const hx
    filter_upwards [this] with t ht
    rw [(dg t ht).deriv]
    have := (pos t ht).ne'
    field_simp
  have d2 : HasDerivAt (fun t => (1 - t ^ 2) ^ ((m : ℝ) / 2) * (-(m * t) * p.eval t + (1 - t ^ 2) * (derivative p).eval t))
      (-(m * x) * ((1 - x ^ 2) ^ ((m : ℝ) / 2) / (1 - x ^ 2)) * (-(m * x) * p.eval x + (1 - x ^ 2) * (derivative p).eval x) +
        (1 - x ^ 2) ^ ((m : ℝ) / 2) * ((-(m * 1) * p.eval x + -(m * x) * (derivative p).eval x) +
          (-(2 * x) * (derivative p).eval x + (1 - x ^ 2) * (derivative (derivative p)).eval x))) x :=
    (dp x hx).mul (((((hasDerivAt_id x).const_mul (m : ℝ)).neg).mul (p.hasDerivAt x)).add
      ((du x).mul ((derivative p).hasDerivAt x)))
  rw [ev.deriv_eq, d2.deriv]
  unfold op
  simp only [eval_mul, eval_add, eval_sub, eval_C, eval_X, eval_pow, eval_one]
  have hu := (pos x hx).ne'
  generalize (1 - x ^ 2) ^ ((m : ℝ) / 2) = r
  generalize eval x p = p0
  generalize eval x (derivative p) = p1
  generalize eval x (derivative (derivative p)) = p2
  field_simp
  ring

theorem expansion_eval (m : Nat) (y : Nat → ℝ) (n : Nat) (x : ℝ) :
    expansion m y n x = (∑ i ∈ Finset.range n, C (y i) * Q m (m + 2 * i)).eval x := by
  unfold expansion
  rw [eval_finsetSum]
  refine Finset.sum_congr rfl fun i _ => ?_
  rw [eval_mul, eval_C]


/-! ## The series -/

theorem powWeight_low (m k i : Nat) (h : i < k) : powWeight m k i = 0 := by
  unfold powWeight
  rw [Nat.choose_eq_zero_of_lt h]
  simp

theorem Q_eval (m i n : Nat) (h : i < n) (x : ℝ) : (Q m (m + 2 * i)).eval x =
    ∑ k ∈ Finset.range n, (-1) ^ k / (2 ^ m * ((m + k)! : ℝ)) * powWeight m k i * (1 - x ^ 2) ^ k := by
  rw [Q_pow, eval_finsetSum, ← Finset.sum_subset (Finset.range_subset_range.2 (show i + 1 ≤ n by omega))]
  · refine Finset.sum_congr rfl fun k _ => ?_
    unfold pc
    simp only [eval_mul, eval_C, eval_pow, eval_sub, eval_one, eval_X]
  · intro k _ hk
    rw [powWeight_low m k i (by rw [Finset.mem_range] at hk; omega)]
    ring

theorem expansion_series (m : Nat) (y : Nat → ℝ) (n : Nat) (x : ℝ) : expansion m y n x =
    ∑ k ∈ Finset.range n, (-1) ^ k / (2 ^ m * ((m + k)! : ℝ)) * (∑ i ∈ Finset.Ico k n, powWeight m k i * y i) *
      (1 - x ^ 2) ^ k := by
  unfold expansion
  have e : ∀ k ∈ Finset.range n, (-1) ^ k / (2 ^ m * ((m + k)! : ℝ)) * (∑ i ∈ Finset.Ico k n, powWeight m k i * y i) *
      (1 - x ^ 2) ^ k = ∑ i ∈ Finset.range n, (-1) ^ k / (2 ^ m * ((m + k)! : ℝ)) * powWeight m k i * (1 - x ^ 2) ^ k * y i := by
    intro k hk
    have : ∑ i ∈ Finset.Ico k n, powWeight m k i * y i = ∑ i ∈ Finset.range n, powWeight m k i * y i := by
      refine Finset.sum_subset (fun i hi => Finset.mem_range.2 (Finset.mem_Ico.1 hi).2) fun i hi hi2 => ?_
      rw [Finset.mem_Ico] at hi2
      rw [Finset.mem_range] at hi
      rw [powWeight_low m k i (by omega), zero_mul]
    rw [this, Finset.mul_sum, Finset.sum_mul]
    exact Finset.sum_congr rfl fun i _ => by ring
  rw [Finset.sum_congr rfl e, Finset.sum_comm]
  refine Finset.sum_congr rfl fun i hi => ?_
  rw [Q_eval m i n (Finset.mem_range.1 hi), mul_comm, Finset.sum_mul]

theorem Q_zero (m i : Nat) : (Q m (m + 2 * i)).eval 0 = weight m i / 2 ^ m := by
  induction i with
  | zero =>
    have h := Q_at_one m m le_rfl
    have hd := (top (K := ℝ) m).2
    have hq : derivative (Q m m) = 0 := by
      unfold Q
      rw [← Function.iterate_succ_apply' derivative]
      exact hd
    have hc := eq_C_of_natDegree_eq_zero (derivative_eq_zero.1 hq)
    rw [hc, eval_C, Nat.sub_self, Nat.factorial_zero, Nat.cast_one, mul_one] at h
    rw [mul_zero, add_zero, hc, eval_C]
    unfold weight
    rw [mul_zero, zero_add, pow_zero, pow_zero, one_mul, one_mul, Nat.factorial_zero, Nat.cast_one, one_mul, zero_add,
      div_div, eq_div_iff (mul_ne_zero (fact_ne m) (by positivity)), two_mul, ← h]
    ring
  | succ i ih =>
    have h := congrArg (eval 0) (mul_x m (2 * i))
    simp only [eval_mul, eval_add, eval_C, eval_X, mul_zero, zero_mul] at h
    rw [ih, ← wt_eq] at h
    rw [show 2 * (i + 1) = 2 * i + 2 by ring, ← wt_eq, wt]
    unfold rNext
    push_cast at h ⊢
    have h2 : (2 * (i : ℝ) + 2) ≠ 0 := by positivity
    have h3 : (i : ℝ) + 2 - 1 ≠ 0 := by
      have : (0 : ℝ) ≤ i := Nat.cast_nonneg i
      linarith
    refine mul_left_cancel₀ h2 ?_
    have e : (2 * (i : ℝ) + 2) * (-wt m i * ((i : ℝ) + 2 + m - 3 / 2) / ((i : ℝ) + 2 - 1) / 2 ^ m) =
        -((2 * (m : ℝ) + 2 * i + 1) * (wt m i / 2 ^ m)) := by
      field_simp
      ring
    rw [e]
    linear_combination -h

theorem expansion_weight (m : Nat) (y : Nat → ℝ) (n : Nat) :
    expansion m y n 0 = (∑ i ∈ Finset.range n, weight m i * y i) / 2 ^ m := by
  unfold expansion
  rw [Finset.sum_div]
  refine Finset.sum_congr rfl fun i _ => ?_
  rw [Q_zero]
  ring

theorem coefA_abs (m k : Nat) {cs : ℝ} (h : 0 ≤ cs) : |coefA m k cs| ≤ cs := by
  unfold coefA
  have hk : (0 : ℝ) ≤ k := Nat.cast_nonneg k
  have hm : (0 : ℝ) ≤ m := Nat.cast_nonneg m
  rw [abs_mul, abs_of_nonneg h, abs_of_nonneg (by positivity)]
  refine mul_le_of_le_one_left h ?_
  rw [div_le_one (by positivity)]
  exact mul_le_mul (by linarith) (by linarith) (by positivity) (by positivity)

theorem coefG_abs (m k : Nat) {cs : ℝ} (h : 0 ≤ cs) : |coefG m (k + 2) cs| ≤ cs := by
  unfold coefG
  have hk : (0 : ℝ) ≤ k := Nat.cast_nonneg k
  have hm : (0 : ℝ) ≤ m := Nat.cast_nonneg m
  push_cast
  have e1 : 2 * ((m : ℝ) + (k + 2)) - 3 = 2 * (m + k) + 1 := by ring
  have e2 : 2 * ((m : ℝ) + (k + 2)) - 1 = 2 * (m + k) + 3 := by ring
  have e3 : (k : ℝ) + 2 - 1 = k + 1 := by ring
  rw [e1, e2, e3, abs_mul, abs_of_nonneg h, abs_of_nonneg (by positivity)]
  refine mul_le_of_le_one_left h ?_
  rw [div_le_one (by positivity), mul_comm]
  exact mul_le_mul (by linarith) (by linarith) (by positivity) (by positivity)

/-! ## Theorems -/

/-- C87: the function that the coefficients of a plan describe is a sum of Legendre functions, up to what the sums for
the coefficients left out; each sum kept its first two terms, and ended with a term that hardly changed it or with the
last. -/
theorem C87_legendre (m : Nat) (c cv : ℝ) (h1 : 1 / 10 ^ 10 ≤ c) (h2 : c < 174) (df : Buf) (hdf : sdmn m c cv = .ok df)
    (y : Nat → ℝ) (hy : ∀ i, i < ⌊c⌋₊ + 25 → df i = some (y i)) :
    ∃ (ck : Buf) (v : Nat → ℝ) (s : Nat → Nat), planCoef m c cv = .ok ck ∧ (∀ k, k < 200 → ck k = some (v k)) ∧
      (∀ k, k < ⌊c⌋₊ + 25 → k < s k ∧ (⌊c⌋₊ + 25 ≤ s k ∨ s k = k + 2 ∨ k + 2 < s k ∧
        |powWeight m k (s k - 1) * y (s k - 1)| < |∑ i ∈ Finset.Ico k (s k), powWeight m k i * y i| * (1 / 10 ^ 14))) ∧
      ∀ x, ∑ k ∈ Finset.range 200, v k * (1 - x ^ 2) ^ k = expansion m y (⌊c⌋₊ + 25) x -
        ∑ k ∈ Finset.range (⌊c⌋₊ + 25), (-1) ^ k / (2 ^ m * ((m + k)! : ℝ)) *
          (∑ i ∈ Finset.Ico (s k) (⌊c⌋₊ + 25), powWeight m k i * y i) * (1 - x ^ 2) ^ k := by
  have hc : 0 < c := lt_of_lt_of_le (by positivity) h1
  have hfl : ⌊c⌋₊ < 174 := (Nat.floor_lt hc.le).2 (by exact_mod_cast h2)
  rcases C86_series m c cv h1 h2 with h | ⟨df', z, ck, hd, hz, hz0, hck, h3, h4⟩
  · rw [h] at hdf
    exact absurd hdf (by simp)
  rw [hd, Res.ok.injEq] at hdf
  subst hdf
  generalize hn : ⌊c⌋₊ + 25 = nm at *
  have hzy : ∀ i, i < nm → z i = y i := fun i hi => by
    have := hz i hi.le
    rw [hy i hi] at this
    exact (Option.some.inj this).symm
  choose! v hv s hs1 hs2 hvs hs3 using h3
  refine ⟨ck, fun k => if k < nm then v k else 0, s, hck, fun k hk => ?_, fun k hk => ⟨hs1 k hk, ?_⟩, fun x => ?_⟩
  · show _ = some (if k < nm then v k else 0)
    by_cases e : k < nm
    · rw [if_pos e, hv k e]
    · rw [if_neg e, h4 k (by omega) hk]
  · by_cases e : nm ≤ s k
    · exact Or.inl e
    · right
      rcases hs3 k hk with h | h | ⟨h, h'⟩
      · omega
      · exact Or.inl h
      · refine Or.inr ⟨h, ?_⟩
        rw [← hzy (s k - 1) (by omega)]
        refine lt_of_lt_of_eq h' ?_
        congr 2
        exact Finset.sum_congr rfl fun i hi => by rw [hzy i (by have := Finset.mem_Ico.1 hi; omega)]
  · rw [← Finset.sum_subset (Finset.range_subset_range.2 (show nm ≤ 200 by omega))
      (fun k _ hk => by
        rw [Finset.mem_range] at hk
        simp only
        rw [if_neg hk, zero_mul]), expansion_series, ← Finset.sum_sub_distrib]
    refine Finset.sum_congr rfl fun k hk => ?_
    have hk := Finset.mem_range.1 hk
    have h5 := hs1 k hk
    have h6 := hs2 k hk
    simp only
    rw [if_pos hk, hvs k hk, ← sub_mul, ← mul_sub]
    congr 2
    rw [eq_sub_iff_add_eq]
    by_cases e : s k = nm + 1
    · rw [e, Finset.Ico_eq_empty (a := nm + 1) (by omega), Finset.sum_empty, add_zero, Finset.sum_Ico_succ_top (by omega), hz0, mul_zero,
        add_zero]
      exact Finset.sum_congr rfl fun i hi => by rw [hzy i (by have := Finset.mem_Ico.1 hi; omega)]
    · rw [← Finset.sum_Ico_consecutive _ h5.le (show s k ≤ nm by omega)]
      congr 1
      exact Finset.sum_congr rfl fun i hi => by rw [hzy i (by have := Finset.mem_Ico.1 hi; omega)]

/-- C87: the sum of Legendre functions solves the prolate spheroidal equation up to one term for the row where the
two halves of the expansion meet — absent if the characteristic value is exact for the number of terms kept — and two
for the end of the expansion; at zero it has the value of the Legendre function of degree and order `m`, up to terms
after one that hardly matters. -/
theorem C87_equation_partial (m : Nat) (c cv : ℝ) (h1 : 1 / 10 ^ 10 ≤ c) (h2 : c < 174) (df : Buf)
    (hdf : sdmn m c cv = .ok df)
    (hfwd : ∀ y : Nat → ℝ, y 0 = 1 / 10 ^ 100 → (∀ i, i < ⌊c⌋₊ + 25 → Row m c cv y i = 0) →
      ∀ i, i ≤ ⌊c⌋₊ + 25 → |y i| ≤ 10 ^ 100) :
    ∃ (y : Nat → ℝ) (kb : Nat) (a b e : ℝ), kb < ⌊c⌋₊ + 25 ∧ (∀ i, i < ⌊c⌋₊ + 25 → df i = some (y i)) ∧
      (CharValue m c (⌊c⌋₊ + 26) cv → e = 0) ∧ |a| ≤ (c * c) * |y (⌊c⌋₊ + 25)| ∧ |b| ≤ (c * c) * |y (⌊c⌋₊ + 24)| ∧
      (∀ x, |x| < 1 → Prolate m c cv (fun t => (1 - t ^ 2) ^ ((m : ℝ) / 2) * expansion m y (⌊c⌋₊ + 25) t) x =
        (1 - x ^ 2) ^ ((m : ℝ) / 2) * (e * (Q m (m + 2 * kb)).eval x + a * (Q m (m + 2 * (⌊c⌋₊ + 24))).eval x +
          b * (Q m (m + 2 * (⌊c⌋₊ + 25))).eval x)) ∧
      ∃ s, s ≤ ⌊c⌋₊ + 25 ∧ expansion m y s 0 = (Q m m).eval 0 ∧
        (s = ⌊c⌋₊ + 25 ∨ ∃ k, k < s ∧ |y (s - 1) * (Q m (m + 2 * (s - 1))).eval 0| <
          |expansion m y s 0 - expansion m y k 0| * (1 / 10 ^ 14)) := by
  obtain ⟨y, hy, hy0, ⟨kb, hkb, hrow⟩, hcv, k0, s, hs1, hs2, hs3, hs4⟩ := C86_expansion_partial m c cv h1 h2 df hdf hfwd
  refine ⟨y, kb, coefA m (2 * (⌊c⌋₊ + 24)) (c * c) * y (⌊c⌋₊ + 25), -(coefG m (2 * (⌊c⌋₊ + 25)) (c * c) * y (⌊c⌋₊ + 24)),
    -Row m c cv y kb, hkb, hy, fun h => by rw [hcv h kb hkb.le, neg_zero], ?_, ?_, fun x hx => ?_, s, hs2, ?_, ?_⟩
  · rw [abs_mul]
    exact mul_le_mul_of_nonneg_right (coefA_abs m _ (mul_self_nonneg c)) (abs_nonneg _)
  · rw [abs_neg, abs_mul, show 2 * (⌊c⌋₊ + 25) = 2 * (⌊c⌋₊ + 24) + 2 by ring]
    exact mul_le_mul_of_nonneg_right (coefG_abs m _ (mul_self_nonneg c)) (abs_nonneg _)
  · have e : (fun t => (1 - t ^ 2) ^ ((m : ℝ) / 2) * expansion m y (⌊c⌋₊ + 25) t) =
        fun t => (1 - t ^ 2) ^ ((m : ℝ) / 2) * (∑ i ∈ Finset.range (⌊c⌋₊ + 25), C (y i) * Q m (m + 2 * i)).eval t := by
      funext t
      rw [expansion_eval]
    rw [e, prolate_poly m c cv _ x hx, show ⌊c⌋₊ + 25 = ⌊c⌋₊ + 24 + 1 by omega, sum_poly, Finset.sum_eq_single kb]
    · simp only [eval_mul, eval_add, eval_sub, eval_C]
      ring
    · intro i hi hne
      rw [hrow i (by have := Finset.mem_range.1 hi; omega) hne, C_0, zero_mul]
    · intro h
      exact absurd (Finset.mem_range.2 (by omega)) h
  · have h0 := Q_zero m 0
    rw [mul_zero, add_zero] at h0
    rw [expansion_weight, hs3, h0]
    unfold weight
    simp
  · refine hs4.imp id fun h => ⟨k0, h.1, ?_⟩
    have e : ∑ i ∈ Finset.Ico k0 s, weight m i * y i = 2 ^ m * (expansion m y s 0 - expansion m y k0 0) := by
      rw [expansion_weight, expansion_weight, Finset.sum_Ico_eq_sub _ hs1]
      field_simp
    have h5 := h.2
    rw [e, abs_mul (2 ^ m)] at h5
    rw [Q_zero]
    have hp : (0 : ℝ) < 2 ^ m := by positivity
    have e2 : |y (s - 1) * (weight m (s - 1) / 2 ^ m)| = |weight m (s - 1) * y (s - 1)| / 2 ^ m := by
      rw [mul_div_assoc', abs_div, abs_of_pos hp, mul_comm]
    rw [e2, div_lt_iff₀ hp]
    rw [abs_of_pos hp] at h5
    linarith


theorem Q_order (l : Nat) : Q 0 l = P l := rfl

/-- Non-vacuity: mode 0, bandwidth 1, and any characteristic value from 0 to 1 (the right one is about 0.319). -/
example (cv : ℝ) (h : 0 ≤ cv) (h' : cv ≤ 1) : ∃ (df : Buf) (y : Nat → ℝ) (kb : Nat) (a b e : ℝ), sdmn 0 1 cv = .ok df ∧
    (∀ i, i < 26 → df i = some (y i)) ∧ |a| ≤ |y 26| ∧ |b| ≤ |y 25| ∧
    ∀ x, |x| < 1 → Prolate 0 1 cv (expansion 0 y 26) x =
      e * (P (2 * kb)).eval x + a * (P 50).eval x + b * (P 52).eval x := by
  obtain ⟨df, hd⟩ := small_ok 1 cv (by norm_num) le_rfl h'
  obtain ⟨y, kb, a, b, e, -, h1, -, h2, h3, h4, -⟩ := C87_equation_partial 0 1 cv (by norm_num) (by norm_num) df hd
    (small_fwd 1 cv (by norm_num) le_rfl h h')
  rw [Nat.floor_one] at h1 h2 h3
  rw [mul_one, one_mul] at h2 h3
  refine ⟨df, y, kb, a, b, e, hd, h1, h2, h3, fun x hx => ?_⟩
  have h5 := h4 x hx
  rw [Nat.floor_one] at h5
  simp only [Nat.cast_zero, zero_div, Real.rpow_zero, one_mul, zero_add, Nat.reduceAdd, Nat.reduceMul, Q_order] at h5
  exact h5

end
end Sdp.Pswf
