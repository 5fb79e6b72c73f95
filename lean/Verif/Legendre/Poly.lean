import Mathlib.Algebra.Polynomial.Derivative
import Mathlib.Tactic.LinearCombination
import Mathlib.Tactic.FieldSimp

/-!
# Legendre polynomials from Rodrigues' formula

Mathematics used as specification: `P l = D^l (X^2 - 1)^l / (2^l l!)`, and the identities between
the derivatives of these polynomials.
-/

set_option linter.unusedSectionVars false
set_option linter.unusedSimpArgs false

namespace Sdp.Legendre

open Polynomial

variable {K : Type} [Field K] [CharZero K]

/-- `X^2 - 1`. -/
noncomputable def w : K[X] := X ^ 2 - 1

/-- The Legendre polynomial of degree `l` (Rodrigues' formula). -/
noncomputable def P (l : Nat) : K[X] := C (1 / (2 ^ l * (l.factorial : K))) * derivative^[l] (w ^ l)

theorem D_w_pow (l : Nat) : derivative (w ^ (l + 1) : K[X]) = C (2 * (l + 1 : K)) * (X * w ^ l) := by
  unfold w
  rw [derivative_pow_succ]
  simp only [derivative_sub, derivative_X_pow, derivative_one]
  simp only [map_mul, map_add, map_natCast, map_ofNat, map_one, Nat.cast_ofNat]
  ring

theorem iter_C_mul (n : Nat) (a : K) (p : K[X]) : derivative^[n] (C a * p) = C a * derivative^[n] p := by
  exact iterate_derivative_C_mul a p n

/-- Leibniz' rule for a factor `X`. -/
theorem iter_X_mul (n : Nat) (p : K[X]) :
    derivative^[n + 1] (X * p) = X * derivative^[n + 1] p + C (n + 1 : K) * derivative^[n] p := by
  induction n with
  | zero => simp; ring
  | succ n ih =>
    rw [Function.iterate_succ_apply', ih, Function.iterate_succ_apply' derivative (n + 1)]
    simp only [derivative_add, derivative_mul, derivative_X, derivative_C]
    rw [← Function.iterate_succ_apply' derivative n]
    simp only [map_add, map_natCast, map_one, Nat.cast_add, Nat.cast_one]
    ring

theorem iter_X_mul' (n : Nat) (p : K[X]) :
    derivative^[n] (X * p) = X * derivative^[n] p + C (n : K) * derivative^[n - 1] p := by
  cases n with
  | zero => simp
  | succ n => rw [iter_X_mul]; simp

theorem coef (l : Nat) : (1 / (2 ^ (l + 1) * ((l + 1).factorial : K))) * (2 * (l + 1 : K)) =
    1 / (2 ^ l * (l.factorial : K)) := by
  have h1 : (l.factorial : K) ≠ 0 := by exact_mod_cast l.factorial_ne_zero
  have h2 : (l + 1 : K) ≠ 0 := by exact_mod_cast l.succ_ne_zero
  rw [Nat.factorial_succ]
  push_cast
  field_simp
  try ring

/-- `P' (l+1) = X P' l + (l + 1) P l`. -/
theorem A (l : Nat) : derivative (P (l + 1) : K[X]) = X * derivative (P l) + C (l + 1 : K) * P l := by
  unfold P
  rw [Function.iterate_succ_apply, D_w_pow, iter_C_mul, ← mul_assoc, ← C_mul, coef]
  simp only [derivative_mul, derivative_C, zero_mul, zero_add]
  rw [← Function.iterate_succ_apply' derivative, iter_X_mul]
  rw [← Function.iterate_succ_apply' derivative]
  ring

/-- `P' (l+2) = P' l + (2 l + 3) P (l+1)`. -/
theorem B (l : Nat) : derivative (P (l + 2) : K[X]) = derivative (P l) + C (2 * l + 3 : K) * P (l + 1) := by
  have e : derivative (derivative (w ^ (l + 2) : K[X])) =
      C (2 * (l + 2 : K)) * (C (2 * l + 3 : K) * w ^ (l + 1) + C (2 * (l + 1 : K)) * w ^ l) := by
    rw [D_w_pow]
    simp only [derivative_mul, derivative_C, zero_mul, zero_add, derivative_X, one_mul]
    rw [D_w_pow]
    have : (X * (X * w ^ l) : K[X]) = w ^ (l + 1) + w ^ l := by unfold w; ring
    push_cast
    simp only [map_mul, map_add, map_natCast, map_ofNat, map_one]
    linear_combination (2 * ((l : K[X]) + 1 + 1) * (2 * (l + 1))) * this
  unfold P
  rw [Function.iterate_succ_apply, Function.iterate_succ_apply]
  simp only [derivative_mul, derivative_C, zero_mul, zero_add]
  rw [← Function.iterate_succ_apply' derivative, ← Function.iterate_succ_apply' derivative,
    ← Function.iterate_succ_apply derivative, ← Function.iterate_succ_apply derivative]
  rw [Function.iterate_succ_apply, Function.iterate_succ_apply, e, iter_C_mul, iterate_map_add,
    iter_C_mul, iter_C_mul]
  have c1 := coef (K := K) (l + 1)
  have c2 := coef (K := K) l
  push_cast at c1
  rw [← mul_assoc, ← C_mul, show (l + 2 : K) = l + 1 + 1 by ring, c1, mul_add, ← mul_assoc, ← mul_assoc,
    ← C_mul, ← C_mul, c2, mul_comm (1 / _) (2 * (l : K) + 3), C_mul]
  ring

/-- Derivatives of order `m` of `A`. -/
theorem A_iter (l m : Nat) : derivative^[m + 1] (P (l + 1) : K[X]) =
    X * derivative^[m + 1] (P l) + C (l + 1 + m : K) * derivative^[m] (P l) := by
  rw [Function.iterate_succ_apply, A, iterate_map_add, iter_C_mul, iter_X_mul',
    ← Function.iterate_succ_apply derivative]
  cases m with
  | zero => simp
  | succ m =>
    rw [Nat.add_sub_cancel, ← Function.iterate_succ_apply derivative]
    simp only [map_add, map_natCast, map_one, Nat.cast_add, Nat.cast_one]
    ring

theorem B_iter (l m : Nat) : derivative^[m + 1] (P (l + 2) : K[X]) =
    derivative^[m + 1] (P l) + C (2 * l + 3 : K) * derivative^[m] (P (l + 1)) := by
  rw [Function.iterate_succ_apply, B, iterate_map_add, iter_C_mul,
    ← Function.iterate_succ_apply derivative]

theorem next (l : Nat) : (P (l + 2) : K[X]) = X * P (l + 1) +
    C (1 / (2 ^ (l + 1) * ((l + 1).factorial : K))) * (C (l + 1 : K) * derivative^[l] (w ^ (l + 1))) := by
  have c1 := coef (K := K) (l + 1)
  conv_lhs => rw [P]
  rw [Function.iterate_succ_apply, D_w_pow, iter_C_mul, ← mul_assoc, ← C_mul, c1, iter_X_mul]
  unfold P
  ring

/-- The differential equation of `(X^2 - 1)^(l+1)`, differentiated `l + 1` times. -/
theorem ode (l : Nat) : (w : K[X]) * derivative^[l + 2] (w ^ (l + 1)) =
    C ((l + 2 : K) * (l + 1)) * derivative^[l] (w ^ (l + 1)) := by
  have e : X * (X * derivative (w ^ (l + 1) : K[X])) - derivative (w ^ (l + 1)) =
      C (2 * (l + 1 : K)) * (X * w ^ (l + 1)) := by
    rw [D_w_pow]; unfold w; ring
  have h := congrArg derivative^[l + 1] e
  rw [iterate_map_sub, iter_C_mul, iter_X_mul, iter_X_mul, iter_X_mul, iter_X_mul'] at h
  simp only [← Function.iterate_succ_apply derivative] at h
  have hl : C (l : K) * derivative^[(l - 1).succ] (w ^ (l + 1) : K[X]) =
      C (l : K) * derivative^[l] (w ^ (l + 1)) := by
    cases l with
    | zero => simp
    | succ l => simp
  rw [hl] at h
  have e2 : (w : K[X]) = X ^ 2 - 1 := rfl
  rw [show (w : K[X]) * derivative^[l + 2] (w ^ (l + 1)) = (X ^ 2 - 1) * derivative^[l + 2] (w ^ (l + 1)) by
    rw [← e2]]
  simp only [map_mul, map_add, map_natCast, map_ofNat, map_one] at h ⊢
  simp only [Nat.succ_eq_add_one, show l + 1 + 1 = l + 2 from rfl] at h
  linear_combination h

/-- `(X^2 - 1) P' l = (l + 1) (P (l+1) - X P l)`. -/
theorem D0 (l : Nat) : w * derivative (P l : K[X]) = C (l + 1 : K) * (P (l + 1) - X * P l) := by
  cases l with
  | zero =>
    have : (P 0 : K[X]) = 1 := by simp [P]
    have h1 : (P 1 : K[X]) = X := by
      unfold P w
      simp only [Function.iterate_one, pow_one, derivative_sub, derivative_X_pow, derivative_one]
      simp only [Nat.factorial_one, Nat.cast_one, mul_one, sub_zero, Nat.cast_ofNat]
      rw [← mul_assoc, ← C_mul]
      simp
    rw [zero_add, h1, this]; simp
  | succ l =>
    rw [next]
    conv_lhs => rw [P]
    simp only [derivative_mul, derivative_C, zero_mul, zero_add]
    rw [← Function.iterate_succ_apply' derivative]
    have := ode (K := K) l
    simp only [Nat.succ_eq_add_one, show l + 1 + 1 = l + 2 from rfl]
    simp only [map_mul, map_add, map_natCast, map_ofNat, map_one, Nat.cast_add, Nat.cast_one] at this ⊢
    linear_combination C (1 / (2 ^ (l + 1) * ((l + 1).factorial : K))) * this

/-- **Recurrence** at every order `m`:
`(l + 2 - m) P (l+2) = (2 l + 3) X P (l+1) - (l + 1 + m) P l`, for `m`-th derivatives. -/
theorem rec (l m : Nat) : C (l + 2 - m : K) * derivative^[m] (P (l + 2)) =
    C (2 * l + 3 : K) * X * derivative^[m] (P (l + 1)) - C (l + 1 + m : K) * derivative^[m] (P l) := by
  cases m with
  | zero =>
    have h := D0 (K := K) (l + 1)
    have a := A (K := K) l
    have a1 := A (K := K) (l + 1)
    have b := B (K := K) l
    have e2 : (w : K[X]) = X ^ 2 - 1 := rfl
    rw [e2] at h
    simp only [Function.iterate_zero, id, map_mul, map_add, map_sub, map_natCast, map_ofNat, map_one,
      Nat.cast_add, Nat.cast_one, Nat.cast_zero, sub_zero, add_zero] at h a a1 b ⊢
    linear_combination -h - a + X * (b - a1)
  | succ m =>
    have a := A_iter (K := K) (l + 1) m
    have b := B_iter (K := K) l m
    simp only [map_mul, map_add, map_sub, map_natCast, map_ofNat, map_one,
      Nat.cast_add, Nat.cast_one] at a b ⊢
    linear_combination (2 * (l : K[X]) + 3) * a - (l + 2 + m : K[X]) * b

/-- **Derivative** at every order. -/
theorem der (l m : Nat) : w * derivative^[m + 1] (P l : K[X]) =
    C (l + 1 - m : K) * derivative^[m] (P (l + 1)) - C (l + 1 + m : K) * X * derivative^[m] (P l) := by
  induction m with
  | zero =>
    have h := D0 (K := K) l
    simp only [Function.iterate_zero, id, Function.iterate_one, zero_add, map_mul, map_add, map_sub,
      map_natCast, map_ofNat, map_one, Nat.cast_zero, sub_zero, add_zero] at h ⊢
    linear_combination h
  | succ m ih =>
    have h := congrArg derivative ih
    have a := A_iter (K := K) l m
    have e2 : derivative (w : K[X]) = 2 * X := by
      unfold w; simp [one_add_one_eq_two]; rfl
    simp only [derivative_mul, derivative_sub, derivative_C, derivative_X, e2, zero_mul, zero_add,
      mul_one, ← Function.iterate_succ_apply' derivative] at h
    simp only [Nat.succ_eq_add_one, map_mul, map_add, map_sub, map_natCast, map_ofNat, map_one,
      Nat.cast_add, Nat.cast_one, show m + 1 + 1 = m + 2 from rfl] at a h ⊢
    linear_combination h + a

/-- `P m` differentiated `m` times. -/
theorem top (m : Nat) : derivative^[m + 1] (P (m + 1) : K[X]) = C (2 * m + 1 : K) * derivative^[m] (P m) ∧
    derivative^[m + 1] (P m : K[X]) = 0 := by
  induction m with
  | zero =>
    have h0 : (P 0 : K[X]) = 1 := by simp [P]
    have a := A_iter (K := K) 0 0
    refine ⟨?_, by simp [h0]⟩
    rw [zero_add] at a ⊢
    rw [a]; simp [h0]
  | succ m ih =>
    have z : derivative^[m + 1 + 1] (P (m + 1) : K[X]) = 0 := by
      rw [Function.iterate_succ_apply', ih.1, derivative_C_mul, ← Function.iterate_succ_apply' derivative,
        ih.2, mul_zero]
    refine ⟨?_, z⟩
    have a := A_iter (K := K) (m + 1) (m + 1)
    rw [z] at a
    rw [a, mul_zero, zero_add]
    push_cast
    congr 2
    ring

end Sdp.Legendre
