import Verif.Pswf.SeriesProps
import Verif.Legendre.Props

/-!
# Legendre functions in powers of `1 - x²`, and the prolate spheroidal equation

Mathematics: no code is modelled here.
-/

namespace Sdp.Pswf
noncomputable section
open Polynomial Sdp.Legendre
open scoped Nat

/-- The Legendre function of degree `l` and order `m`, without its factor `(1 - x²)^(m/2)`. -/
def Q (m l : Nat) : ℝ[X] := derivative^[m] (P l)

/-- The differential operator of these functions. -/
def op (m : Nat) (lam : ℝ) (p : ℝ[X]) : ℝ[X] :=
  (X ^ 2 - 1) * derivative (derivative p) + C (2 * ((m : ℝ) + 1)) * X * derivative p - C lam * p

theorem op_add (m : Nat) (lam : ℝ) (p q : ℝ[X]) : op m lam (p + q) = op m lam p + op m lam q := by
  unfold op
  simp only [derivative_add]
  ring

theorem op_C_mul (m : Nat) (lam a : ℝ) (p : ℝ[X]) : op m lam (C a * p) = C a * op m lam p := by
  unfold op
  simp only [derivative_C_mul]
  ring

theorem op_Q (m l : Nat) : op m (((l : ℝ) - m) * (l + m + 1)) (Q m l) = 0 := by
  unfold op Q
  have d := der (K := ℝ) l (m + 1)
  have a := A_iter (K := ℝ) l m
  have e2 : (w : ℝ[X]) = X ^ 2 - 1 := rfl
  rw [e2] at d
  rw [← Function.iterate_succ_apply' derivative, ← Function.iterate_succ_apply' derivative]
  simp only [Nat.succ_eq_add_one, map_mul, map_add, map_sub, map_natCast, map_ofNat, map_one,
    Nat.cast_add, Nat.cast_one] at a d ⊢
  linear_combination d + ((l : ℝ[X]) - m) * a

/-! ## A solution is known from its value at 1 -/

theorem op_der (m : Nat) (lam : ℝ) (p : ℝ[X]) (h : op m lam p = 0) :
    op (m + 1) (lam - 2 * ((m : ℝ) + 1)) (derivative p) = 0 := by
  have hd := congrArg derivative h
  unfold op at hd ⊢
  simp only [derivative_sub, derivative_add, derivative_mul, derivative_C, derivative_X, derivative_X_pow,
    derivative_one, derivative_zero] at hd
  simp only [map_mul, map_add, map_sub, map_natCast, map_ofNat, map_one, Nat.cast_add, Nat.cast_one] at hd ⊢
  linear_combination hd

theorem op_unique (n : Nat) : ∀ (m : Nat) (lam : ℝ) (p : ℝ[X]), p.natDegree ≤ n → op m lam p = 0 → p.eval 1 = 0 → p = 0 := by
  induction n with
  | zero =>
    intro m lam p hn _ h1
    rw [eq_C_of_natDegree_le_zero hn] at h1 ⊢
    rw [eval_C] at h1
    rw [h1, C_0]
  | succ n ih =>
    intro m lam p hn h h1
    have hv : (derivative p).eval 1 = 0 := by
      have := congrArg (eval 1) h
      unfold op at this
      simp only [eval_sub, eval_add, eval_mul, eval_pow, eval_X, eval_one, eval_C, eval_zero, h1] at this
      have hm : (0 : ℝ) ≤ m := Nat.cast_nonneg m
      have h3 : 2 * ((m : ℝ) + 1) * (derivative p).eval 1 = 0 := by linear_combination this
      exact (mul_eq_zero.1 h3).resolve_left (by positivity)
    have hz := ih (m + 1) _ (derivative p) (by have := natDegree_derivative_le p; omega) (op_der m lam p h) hv
    have hc := derivative_eq_zero.1 hz
    rw [eq_C_of_natDegree_eq_zero hc] at h1 ⊢
    rw [eval_C] at h1
    rw [h1, C_0]

/-! ## Values at 1 -/

theorem P_at_one (l : Nat) : (P l : ℝ[X]).eval 1 = 1 ∧ (P (l + 1) : ℝ[X]).eval 1 = 1 := by
  induction l with
  | zero => rw [P_zero, P_one]; simp
  | succ l ih =>
    refine ⟨ih.2, ?_⟩
    have h := congrArg (eval 1) (rec (K := ℝ) l 0)
    simp only [Function.iterate_zero, id, eval_sub, eval_mul, eval_C, eval_X, ih.1, ih.2, Nat.cast_zero] at h
    have hl : (l : ℝ) + 2 ≠ 0 := by positivity
    have : ((l : ℝ) + 2) * (P (l + 2) : ℝ[X]).eval 1 = ((l : ℝ) + 2) * 1 := by linear_combination h
    exact mul_left_cancel₀ hl this

theorem Q_at_one (l m : Nat) (h : m ≤ l) :
    (Q m l).eval 1 * ((l - m)! : ℝ) * (2 ^ m * (m ! : ℝ)) = ((l + m)! : ℝ) := by
  induction m with
  | zero =>
    unfold Q
    simp only [Function.iterate_zero, id, (P_at_one l).1]
    simp
  | succ m ih =>
    have ih := ih (by omega)
    have ho := congrArg (eval 1) (op_Q m l)
    unfold op at ho
    simp only [eval_sub, eval_add, eval_mul, eval_pow, eval_X, eval_one, eval_C, eval_zero] at ho
    have e : derivative (Q m l) = Q (m + 1) l := by
      unfold Q
      rw [← Function.iterate_succ_apply' derivative]
    rw [e] at ho
    have h1 : 2 * ((m : ℝ) + 1) * (Q (m + 1) l).eval 1 = ((l : ℝ) - m) * (l + m + 1) * (Q m l).eval 1 := by
      linear_combination ho
    have e3 : l - m = (l - (m + 1)) + 1 := by omega
    have e4 : ((l - m : ℕ) : ℝ) = (l : ℝ) - m := Nat.cast_sub (by omega)
    rw [e3, Nat.factorial_succ, ← e3] at ih
    rw [show l + (m + 1) = (l + m) + 1 by omega, Nat.factorial_succ (l + m), Nat.factorial_succ m, pow_succ]
    push_cast at ih ⊢
    rw [← ih, e4]
    linear_combination ((l - (m + 1))! : ℝ) * (2 ^ m * (m ! : ℝ)) * h1

/-! ## Powers of `1 - x²` -/

/-- The coefficient of `(1 - x²)^k` in the function of degree `m + 2 i`. -/
def pc (m k i : Nat) : ℝ := (-1) ^ k / (2 ^ m * ((m + k)! : ℝ)) * powWeight m k i

theorem op_pow (m i k : Nat) : op m ((2 * (i : ℝ)) * (2 * m + 2 * i + 1)) ((1 - X ^ 2) ^ k) =
    C (-(4 * ((i : ℝ) - k) * (i + k + m + 1 / 2))) * (1 - X ^ 2) ^ k - C (4 * (k : ℝ) * (k + m)) * (1 - X ^ 2) ^ (k - 1) := by
  have d1 : ∀ n : Nat, derivative ((1 - X ^ 2 : ℝ[X]) ^ (n + 1)) = -(2 * ((n : ℝ[X]) + 1)) * X * (1 - X ^ 2) ^ n := by
    intro n
    rw [derivative_pow_succ]
    simp only [derivative_sub, derivative_X_pow, derivative_one, map_add, map_natCast, map_one, Nat.cast_ofNat]
    rw [show (C (2 : ℝ) : ℝ[X]) = 2 from rfl]
    ring
  have half : (C (1 / 2 : ℝ) : ℝ[X]) * 2 = 1 := by
    rw [show (2 : ℝ[X]) = C 2 from rfl, ← C_mul]
    norm_num
  unfold op
  rcases k with _ | _ | k
  · simp only [pow_zero, derivative_one, derivative_zero, mul_zero, zero_add, Nat.cast_zero, map_mul, map_add, map_sub,
      map_natCast, map_ofNat, map_one, map_neg, map_zero]
    linear_combination (2 * (i : ℝ[X])) * half
  · have := d1 0
    simp only [zero_add, pow_zero, Nat.cast_zero, mul_one] at this
    simp only [zero_add]
    rw [this]
    simp only [Nat.sub_self, pow_zero, derivative_mul, derivative_neg, derivative_X, derivative_ofNat,
      map_mul, map_add, map_sub, map_natCast, map_ofNat, map_one, map_neg, pow_one, Nat.cast_one]
    linear_combination (2 * ((i : ℝ[X]) - 1) * (1 - X ^ 2)) * half
  · have e1 := d1 (k + 1)
    have e2 := d1 k
    simp only [derivative_mul, derivative_neg, derivative_X, derivative_add, derivative_natCast, derivative_one,
      derivative_ofNat, e1, e2, map_mul, map_add, map_sub, map_natCast, map_ofNat, map_one, map_neg, Nat.cast_add, Nat.cast_one,
      Nat.add_sub_cancel]
    linear_combination (2 * ((i : ℝ[X]) - (k + 1 + 1)) * (1 - X ^ 2) ^ (k + 1 + 1)) * half

theorem pc_step (m k i : Nat) :
    pc m (k + 1) i * (4 * ((k : ℝ) + 1) * (k + 1 + m)) = -(pc m k i * (4 * ((i : ℝ) - k) * (i + k + m + 1 / 2))) := by
  unfold pc powWeight
  have hr : rising m i (k + 1) = rising m i k * ((i : ℝ) + m + k + 1 / 2) := by
    unfold rising
    rw [Finset.prod_range_succ]
    push_cast
    rfl
  have hc : (i.choose (k + 1) : ℝ) * ((k : ℝ) + 1) = (i.choose k : ℝ) * ((i : ℝ) - k) := by
    by_cases h : k ≤ i
    · have := Nat.choose_succ_right_eq i k
      have h3 : ((i.choose (k + 1) * (k + 1) : ℕ) : ℝ) = ((i.choose k * (i - k) : ℕ) : ℝ) := by rw [this]
      rw [Nat.cast_mul, Nat.cast_mul, Nat.cast_sub h] at h3
      push_cast at h3
      exact h3
    · rw [Nat.choose_eq_zero_of_lt (by omega), Nat.choose_eq_zero_of_lt (by omega)]
      simp
  have hm : (0 : ℝ) < (k : ℝ) + 1 + m := by positivity
  rw [hr, show m + (k + 1) = m + k + 1 by omega, Nat.factorial_succ, pow_succ]
  push_cast
  have f1 := fact_ne (m + k)
  have e5 : ((m : ℝ) + k + 1) = k + 1 + m := by ring
  rw [e5]
  have key : (i.choose (k + 1) : ℝ) * (4 * ((k : ℝ) + 1) * (k + 1 + m)) = 4 * (k + 1 + m) * (i.choose k * ((i : ℝ) - k)) := by
    rw [← hc]; ring
  calc _ = (-1) ^ k * -1 / (2 ^ m * ((k + 1 + m) * ((m + k)! : ℝ))) * (((2 * m + 2 * i)! : ℝ) / ((2 * i)! : ℝ) *
        (rising m i k * ((i : ℝ) + m + k + 1 / 2))) * (i.choose (k + 1) * (4 * ((k : ℝ) + 1) * (k + 1 + m))) := by ring
    _ = _ := by
      rw [key]
      field_simp
      ring

/-- The function of degree `m + 2 i` in powers of `1 - x²`. -/
theorem Q_pow (m i : Nat) : Q m (m + 2 * i) = ∑ k ∈ Finset.range (i + 1), C (pc m k i) * (1 - X ^ 2) ^ k := by
  have hop : ∀ n, op m ((2 * (i : ℝ)) * (2 * m + 2 * i + 1)) (∑ k ∈ Finset.range (n + 1), C (pc m k i) * (1 - X ^ 2) ^ k) =
      C (-(pc m n i * (4 * ((i : ℝ) - n) * (i + n + m + 1 / 2)))) * (1 - X ^ 2) ^ n := by
    intro n
    induction n with
    | zero =>
      rw [Finset.sum_range_one, op_C_mul, op_pow]
      simp only [Nat.cast_zero, mul_zero, zero_mul, C_0, sub_zero]
      rw [← mul_assoc, ← C_mul]
      congr 2
      ring
    | succ n ih =>
      rw [Finset.sum_range_succ, op_add, ih, op_C_mul, op_pow, ← pc_step, Nat.add_sub_cancel]
      push_cast
      simp only [map_mul, map_add, map_neg]
      ring
  have hs : op m ((2 * (i : ℝ)) * (2 * m + 2 * i + 1)) (∑ k ∈ Finset.range (i + 1), C (pc m k i) * (1 - X ^ 2) ^ k) = 0 := by
    rw [hop, sub_self]
    simp
  have hq := op_Q m (m + 2 * i)
  have el : (((m + 2 * i : ℕ) : ℝ) - m) * (((m + 2 * i : ℕ) : ℝ) + m + 1) = (2 * (i : ℝ)) * (2 * m + 2 * i + 1) := by
    push_cast; ring
  rw [el] at hq
  rw [← sub_eq_zero]
  refine op_unique _ m ((2 * (i : ℝ)) * (2 * m + 2 * i + 1)) _ le_rfl ?_ ?_
  · rw [sub_eq_add_neg, op_add, hq, ← neg_one_mul, show (-1 : ℝ[X]) = C (-1) by simp, op_C_mul, hs]
    simp
  · rw [eval_sub, eval_finsetSum, Finset.sum_eq_single 0]
    · have h1 := Q_at_one (m + 2 * i) m (by omega)
      rw [show m + 2 * i - m = 2 * i by omega, show m + 2 * i + m = 2 * m + 2 * i by omega] at h1
      unfold pc powWeight rising
      simp only [eval_mul, eval_C, pow_zero, eval_one, mul_one, Nat.choose_zero_right, Nat.cast_one, Finset.range_zero,
        Finset.prod_empty, add_zero]
      rw [← h1]
      have f1 := fact_ne (2 * i)
      have f2 := fact_ne m
      field_simp
      ring
    · intro k _ hk
      simp only [eval_mul, eval_C, eval_pow, eval_sub, eval_one, eval_X, one_pow, sub_self]
      rw [zero_pow hk, mul_zero]
    · intro h
      exact absurd (Finset.mem_range.2 (by omega)) h

end
end Sdp.Pswf
