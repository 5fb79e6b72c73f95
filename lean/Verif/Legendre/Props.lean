import Mathlib.Analysis.SpecialFunctions.Trigonometric.Deriv
import Mathlib.Analysis.SpecialFunctions.Sqrt
import Mathlib.Analysis.Calculus.Deriv.Polynomial
import Mathlib.Tactic.Linarith
import Verif.Legendre.Model
import Verif.Legendre.Poly

/-!
# C54: associated Legendre functions; C74: Legendre polynomials and Newton's iteration

Specification: `P l` (Rodrigues' formula) from `Verif.Legendre.Poly`; the associated function is
`(-1)^m sin^m (d/dx)^m P l (cos)`, with the Condon-Shortley phase.
-/

set_option linter.unusedSectionVars false

namespace Sdp.Legendre

open Polynomial

/-- `P_l^m` at an angle with cosine `x` and sine `s`. -/
noncomputable def assoc {K : Type} [Field K] (l m : Nat) (x s : K) : K :=
  (-1) ^ m * s ^ m * (derivative^[m] (P l)).eval x

variable {K : Type} [Field K] [CharZero K]

theorem P_zero : (P 0 : K[X]) = 1 := by simp [P]

theorem P_one : (P 1 : K[X]) = X := by
  have a := D0 (K := K) 0
  rw [P_zero] at a
  simp at a
  linear_combination a.symm

theorem start_spec (m : Nat) (s : K) :
    start m s = (assoc m m 0 s, 2 * (m : K) + 1) ∧ ∀ x, assoc m m x s = assoc m m 0 s := by
  induction m with
  | zero => simp [start, assoc, P_zero]
  | succ m ih =>
    have e : ∀ x, assoc (m + 1) (m + 1) x s = assoc m m 0 s * (-(2 * (m : K) + 1) * s) := by
      intro x
      unfold assoc
      rw [(top m).1]
      have := ih.2 x
      unfold assoc at this
      rw [eval_C_mul, pow_succ, pow_succ]
      linear_combination (-(2 * (m : K) + 1) * s) * this
    refine ⟨?_, fun x => by rw [e, e]⟩
    unfold start at ih ⊢
    rw [List.range_succ, List.foldl_append, ih.1, e]
    simp only [List.foldl_cons, List.foldl_nil, Nat.cast_add, Nat.cast_one]
    congr 1
    ring

theorem assoc_step (l m : Nat) (hm : m ≤ l + 1) (x s : K) :
    assoc (l + 2) m x s = ((2 * (l + 2) - 1) * x * assoc (l + 1) m x s -
      ((l + 2) + m - 1) * assoc l m x s) / ((l + 2) - m) := by
  have h := congrArg (eval x) (rec (K := K) l m)
  have hne : ((l : K) + 2 - m) ≠ 0 := by
    have : ((l + 2 - m : Nat) : K) ≠ 0 := by
      rw [Nat.cast_ne_zero]; omega
    rw [Nat.cast_sub (by omega)] at this
    push_cast at this
    exact this
  rw [eq_div_iff hne]
  simp only [eval_mul, eval_sub, eval_C, eval_X] at h
  unfold assoc
  linear_combination ((-1) ^ m * s ^ m) * h

theorem assoc_first (m : Nat) (x s : K) :
    assoc (m + 1) m x s = x * (2 * m + 1) * assoc m m x s := by
  cases m with
  | zero => simp [assoc, P_one, P_zero]
  | succ m =>
    have a := congrArg (eval x) (A_iter (K := K) (m + 1) m)
    have t := congrArg (eval x) (top (K := K) m).1
    simp only [eval_add, eval_mul, eval_C, eval_X] at a t
    -- D^m P (m+1) = X * D^(m+1) P (m+1) : from the derivative identity of order m
    have d := congrArg (eval x) (rec (K := K) m (m + 1))
    have z : derivative^[m + 1] (P m : K[X]) = 0 := (top m).2
    simp only [eval_mul, eval_sub, eval_C, eval_X, z, eval_zero] at d
    unfold assoc
    push_cast at d ⊢
    linear_combination ((-1) ^ (m + 1) * s ^ (m + 1)) * d

theorem climb_spec (l m : Nat) (h : m ≤ l) (x s : K) :
    (climb l m x (start m s).1).2 = (assoc l m x s, assoc (l + 1) m x s) := by
  have hs : (start m s).1 = assoc m m x s := by rw [(start_spec m s).1, (start_spec m s).2 x]
  rw [hs]
  unfold climb
  by_cases hl : l = m
  · subst hl
    rw [if_pos rfl, assoc_first]
  · rw [if_neg hl]
    obtain ⟨k, rfl⟩ : ∃ k, l = m + 1 + k := ⟨l - (m + 1), by omega⟩
    rw [show m + 1 + k + 1 - (m + 1) = k + 1 by omega]
    have key : ∀ j, (List.range' (m + 2) j).foldl
        (fun (t : K × K × K) (i : Nat) =>
          (t.2.2, t.2.2, ((2 * (i : K) - 1) * x * t.2.2 - (i + m - 1) * t.1) / (i - m)))
        (assoc m m x s, x * (2 * m + 1) * assoc m m x s, x * (2 * m + 1) * assoc m m x s) =
        (assoc (m + j) m x s, assoc (m + (j - 1 + 1)) m x s, assoc (m + 1 + j) m x s) := by
      intro j
      induction j with
      | zero => simp [assoc_first]
      | succ j ih =>
        rw [List.range'_concat, List.foldl_append, ih]
        simp only [List.foldl_cons, List.foldl_nil, Nat.add_sub_cancel, one_mul]
        refine Prod.ext ?_ (Prod.ext ?_ ?_)
        · show assoc (m + 1 + j) m x s = assoc (m + (j + 1)) m x s
          congr 1; omega
        · show assoc (m + 1 + j) m x s = assoc (m + (j + 1)) m x s
          congr 1; omega
        · have := assoc_step (m + j) m (by omega) x s
          rw [show m + 1 + (j + 1) = m + j + 2 by omega, this, show m + 1 + j = m + j + 1 by omega]
          push_cast
          congr 2
          · ring
          · ring
          · ring
    have := key (k + 1)
    rw [show m + 2 = m + 2 from rfl] at this
    have e2 := congrArg Prod.snd this
    refine Eq.trans ?_ (e2.trans ?_)
    · rfl
    · rw [show m + (k + 1 - 1 + 1) = m + 1 + k by omega, show m + 1 + (k + 1) = m + 1 + k + 1 by omega]

/-- **C54, values.**  For every degree `l` and order `m` up to `l` the first output is the
associated Legendre function. -/
theorem C54_value [DecidableEq K] (l m : Nat) (h : m ≤ l) (x s : K) :
    (legendre2 l m x s).1 = assoc l m x s := by
  have := congrArg Prod.fst (climb_spec l m h x s)
  unfold legendre2
  simp only
  split_ifs <;> exact this

/-- **C54, ratio to the sine.** -/
theorem C54_ratio [DecidableEq K] (l m : Nat) (h : m ≤ l) (x s : K) (hs : s ≠ 0) :
    (legendre2 l m x s).2.1 = assoc l m x s / s := by
  have := congrArg Prod.fst (climb_spec l m h x s)
  unfold legendre2
  simp only
  rw [if_pos hs]
  simp only
  rw [this]

theorem out2_spec [DecidableEq K] (l m : Nat) (h : m ≤ l) (x s : K) (hs : s ≠ 0) :
    (legendre2 l m x s).2.2 =
      (x * assoc l m x s * (l + 1) - assoc (l + 1) m x s * (l - m + 1)) / s := by
  have h1 := congrArg Prod.fst (climb_spec l m h x s)
  have h2 := congrArg Prod.snd (climb_spec l m h x s)
  unfold legendre2
  simp only
  rw [if_pos hs]
  simp only at h1 h2 ⊢
  rw [h1, h2]

/-- The derivative with respect to the angle of the polynomial expression. -/
theorem angle_deriv (l m : Nat) (t : ℝ) (hs : Real.sin t ≠ 0) :
    HasDerivAt (fun t => assoc l m (Real.cos t) (Real.sin t))
      (-((Real.cos t * assoc l m (Real.cos t) (Real.sin t) * (l + 1) -
        assoc (l + 1) m (Real.cos t) (Real.sin t) * (l - m + 1)) / Real.sin t)) t := by
  unfold assoc
  have h1 : HasDerivAt (fun t => (-1 : ℝ) ^ m * Real.sin t ^ m)
      ((-1 : ℝ) ^ m * (m * Real.sin t ^ (m - 1) * Real.cos t)) t :=
    ((Real.hasDerivAt_sin t).pow m).const_mul _
  have h2 : HasDerivAt (fun t => (derivative^[m] (P l : ℝ[X])).eval (Real.cos t))
      ((derivative (derivative^[m] (P l : ℝ[X]))).eval (Real.cos t) * (-Real.sin t)) t :=
    ((derivative^[m] (P l : ℝ[X])).hasDerivAt (Real.cos t)).comp t (Real.hasDerivAt_cos t)
  have h3 := h1.mul h2
  refine h3.congr_deriv ?_
  have d := congrArg (eval (Real.cos t)) (der (K := ℝ) l m)
  have sc : Real.cos t ^ 2 - 1 = -(Real.sin t ^ 2) := by
    have := Real.sin_sq_add_cos_sq t; linarith
  rw [Function.iterate_succ_apply'] at d
  simp only [eval_mul, eval_sub, eval_C, eval_X, w, eval_pow, eval_one, sc] at d
  have hm : (m : ℝ) * Real.sin t ^ (m - 1) * Real.sin t = m * Real.sin t ^ m := by
    cases m with
    | zero => simp
    | succ m => rw [Nat.add_sub_cancel]; ring
  rw [← neg_div, eq_div_iff hs]
  linear_combination ((-1) ^ m * Real.sin t ^ m) * d +
    ((-1) ^ m * Real.cos t * eval (Real.cos t) (derivative^[m] (P l))) * hm

open Classical in
/-- **C54, derivative.**  The third output is minus the derivative of the function with respect to
the angle, at every angle whose sine is not 0. -/
theorem C54_angle (l m : Nat) (h : m ≤ l) (t : ℝ) (hs : Real.sin t ≠ 0) :
    HasDerivAt (fun t => assoc l m (Real.cos t) (Real.sin t))
      (-(legendre2 l m (Real.cos t) (Real.sin t)).2.2) t := by
  rw [out2_spec l m h _ _ hs]
  exact angle_deriv l m t hs

open Classical in
/-- **C54, derivative with respect to the cosine**: for -1 < x < 1 the third output is the
derivative of `P_l^m` with respect to x, times the sine. -/
theorem C54_derivative (l m : Nat) (h : m ≤ l) (x : ℝ) (h1 : -1 < x) (h2 : x < 1) :
    ∃ d, HasDerivAt (fun y => assoc l m y (Real.sqrt (1 - y ^ 2))) d x ∧
      (legendre2 l m x (Real.sqrt (1 - x ^ 2))).2.2 = d * Real.sqrt (1 - x ^ 2) := by
  have hp : 0 < 1 - x ^ 2 := by nlinarith
  have hs : Real.sqrt (1 - x ^ 2) ≠ 0 := (Real.sqrt_pos.2 hp).ne'
  have g1 : HasDerivAt (fun y : ℝ => 1 - y ^ 2) (-(2 * x)) x := by
    have := (hasDerivAt_pow 2 x).const_sub 1
    simpa using this
  have g2 := g1.sqrt hp.ne'
  have h3 : HasDerivAt (fun y => (-1 : ℝ) ^ m * Real.sqrt (1 - y ^ 2) ^ m) _ x :=
    (g2.pow m).const_mul _
  have h4 := (derivative^[m] (P l : ℝ[X])).hasDerivAt x
  have h5 := h3.mul h4
  refine ⟨_, h5, ?_⟩
  rw [out2_spec l m h _ _ hs]
  have d := congrArg (eval x) (der (K := ℝ) l m)
  rw [Function.iterate_succ_apply'] at d
  simp only [eval_mul, eval_sub, eval_C, eval_X, w, eval_pow, eval_one] at d
  have sq : Real.sqrt (1 - x ^ 2) ^ 2 = 1 - x ^ 2 := Real.sq_sqrt hp.le
  generalize Real.sqrt (1 - x ^ 2) = s at *
  unfold assoc
  have hm : (m : ℝ) * s ^ (m - 1) * s = m * s ^ m := by
    cases m with
    | zero => simp
    | succ m => rw [Nat.add_sub_cancel]; ring
  rw [div_eq_iff hs]
  have hd : x ^ 2 - 1 = -(s ^ 2) := by rw [sq]; ring
  rw [hd] at d
  have e : (-(2 * x) / (2 * s)) * s = -x := by field_simp
  linear_combination ((-1) ^ m * s ^ m) * d -
    ((-1) ^ m * (m * s ^ (m - 1)) * s * eval x (derivative^[m] (P l))) * e +
    ((-1) ^ m * x * eval x (derivative^[m] (P l))) * hm

/-- **C54 fails at the poles.**  For `l = m = 1` the ratio is -1 at every angle whose sine is not 0,
but the routine returns 0 where the sine is 0 (the limit is -1). -/
theorem C54_pole_false [DecidableEq K] :
    (∀ x s : K, s ≠ 0 → (legendre2 1 1 x s).2.1 = -1) ∧ ∀ x : K, (legendre2 1 1 x 0).2.1 = 0 := by
  refine ⟨fun x s hs => ?_, fun x => ?_⟩
  · rw [C54_ratio 1 1 le_rfl x s hs]
    unfold assoc
    rw [P_one]
    simp [hs]
  · simp [legendre2]

/-- Non-vacuity: `P_2^1 = -3 x s` and its outputs at cosine 3/5, sine 4/5. -/
example : legendre2 2 1 (3 / 5 : ℚ) (4 / 5) = (-36 / 25, -9 / 5, -21 / 25) := by decide +kernel

/-! ## Legendre polynomials -/

variable [LinearOrder K] [IsStrictOrderedRing K]

theorem bonnet (n : Nat) (x : K) : (P (n + 2) : K[X]).eval x =
    x * (P (n + 1) : K[X]).eval x + (((n + 2 : Nat) : K) - 1) / ((n + 2 : Nat) : K) *
      (x * (P (n + 1) : K[X]).eval x - (P n : K[X]).eval x) := by
  have h := congrArg (eval x) (rec (K := K) n 0)
  simp only [Function.iterate_zero, id, eval_mul, eval_sub, eval_C, eval_X, Nat.cast_zero, sub_zero,
    add_zero] at h
  have hn : ((n + 2 : Nat) : K) ≠ 0 := by exact_mod_cast (by omega : n + 2 ≠ 0)
  field_simp
  push_cast
  linear_combination h

theorem get_fold (n : Nat) (x : K) : (List.range' 2 (n + 1)).foldl
      (fun (s : K × K × K) (i : Nat) =>
        (s.2.1, x * s.2.1 + ((i - 1 : K) / i) * (x * s.2.1 - s.1),
          x * s.2.1 + ((i - 1 : K) / i) * (x * s.2.1 - s.1))) (1, x, 0) =
    ((P (n + 1)).eval x, (P (n + 2)).eval x, (P (n + 2)).eval x) := by
  induction n with
  | zero =>
    have := bonnet 0 x
    rw [List.range'_succ, List.range'_zero]
    simp only [List.foldl_cons, List.foldl_nil]
    rw [zero_add, P_one, P_zero, eval_X, eval_one] at this
    rw [this]
    simp [P_one]
  | succ n ih =>
    rw [List.range'_concat, List.foldl_append, ih]
    simp only [List.foldl_cons, List.foldl_nil, one_mul]
    have := bonnet (n + 1) x
    rw [show 2 + (n + 1) = n + 1 + 2 by omega, ← this]

/-- **C74, value**: the Legendre polynomial of every degree, at every point. -/
theorem C74_value (x : K) (n : Nat) (d : K) : (getLegendre x n d).1 = (P n).eval x := by
  unfold getLegendre
  rcases n with _ | _ | n
  · simp [P_zero]
  · simp [P_one]
  · rw [if_neg (by omega), if_neg (by omega)]
    simp only
    rw [show n + 1 + 1 - 1 = n + 1 by omega, get_fold]

/-- **C74, derivative**: inside (-1, 1) the derivative of the polynomial. -/
theorem C74_derivative (x : K) (n : Nat) (d : K) (h1 : -1 < x) (h2 : x < 1) :
    (getLegendre x n d).2 = (derivative (P n)).eval x := by
  unfold getLegendre
  rcases n with _ | _ | n
  · simp [P_zero]
  · simp [P_one]
  · rw [if_neg (by omega), if_neg (by omega)]
    simp only
    rw [show n + 1 + 1 - 1 = n + 1 by omega, get_fold, if_pos ⟨h1, h2⟩]
    have hp : (1 - x * x) ≠ 0 := by nlinarith
    have a1 := congrArg (eval x) (A (K := K) (n + 1))
    have b := congrArg (eval x) (B (K := K) n)
    have a := congrArg (eval x) (A (K := K) n)
    simp only [eval_add, eval_mul, eval_C, eval_X] at a a1 b
    rw [div_mul_eq_mul_div, div_eq_iff hp]
    push_cast at a1 ⊢
    have r := congrArg (eval x) (D0 (K := K) (n + 2))
    have q := congrArg (eval x) (rec (K := K) (n + 1) 0)
    simp only [Function.iterate_zero, id, eval_mul, eval_sub, eval_C, eval_X, Nat.cast_zero, sub_zero,
      add_zero, w, eval_pow, eval_one] at r q
    push_cast at r q
    linear_combination r + q

/-- **C74 fails outside (-1, 1)**: from degree 2 the derivative is not written there. -/
theorem C74_outside_false (x : K) (n : Nat) (d : K) (hn : 2 ≤ n) (hx : x ≤ -1 ∨ 1 ≤ x) :
    (getLegendre x n d).2 = d := by
  unfold getLegendre
  rw [if_neg (by omega), if_neg (by omega)]
  simp only
  rw [if_neg]
  rintro ⟨h1, h2⟩
  rcases hx with h | h
  · exact absurd h1 (not_lt.2 h)
  · exact absurd h2 (not_lt.2 h)

/-- One Newton step for `P n`. -/
noncomputable def newtonStep (n : Nat) (x : K) : K := x - (P n).eval x / (derivative (P n)).eval x

theorem newton_spec (n : Nat) (accuracy : K) (fuel : Nat) : ∀ (x d : K),
    (∀ k, k ≤ fuel → -1 < (newtonStep n)^[k] x ∧ (newtonStep n)^[k] x < 1) →
    ∃ k, 1 ≤ k ∧ k ≤ fuel + 1 ∧ (newton n accuracy fuel x d).1 = (newtonStep n)^[k] x ∧
      (∀ j, 1 ≤ j → j < k → accuracy < max ((newtonStep n)^[j] x - (newtonStep n)^[j - 1] x) 0) ∧
      (k = fuel + 1 ∨ ¬ (accuracy < max ((newtonStep n)^[k] x - (newtonStep n)^[k - 1] x) 0)) := by
  have key : ∀ x d : K, -1 < x → x < 1 →
      x - (getLegendre x n d).1 / (getLegendre x n d).2 = newtonStep n x := by
    intro x d h1 h2
    rw [C74_value, C74_derivative x n d h1 h2]; rfl
  have hmax : ∀ x y : K, (if x < y then y - x else 0) = max (y - x) 0 := by
    intro x y
    by_cases h : x < y
    · rw [if_pos h, max_eq_left (by linarith)]
    · rw [if_neg h, max_eq_right (by linarith [not_lt.1 h])]
  induction fuel with
  | zero =>
    intro x d hin
    have h0 := hin 0 le_rfl
    refine ⟨1, le_rfl, le_rfl, ?_, fun j h1 h2 => by omega, Or.inl rfl⟩
    show x - (getLegendre x n d).1 / (getLegendre x n d).2 = _
    rw [key x d h0.1 h0.2]; rfl
  | succ fuel ih =>
    intro x d hin
    have h0 := hin 0 (Nat.zero_le _)
    unfold newton
    simp only
    rw [key x d h0.1 h0.2, hmax]
    by_cases hc : accuracy < max (newtonStep n x - x) 0
    · rw [if_pos hc]
      obtain ⟨k, k1, k2, k3, k4, k5⟩ := ih (newtonStep n x) (getLegendre x n d).2 (fun k hk => by
        have := hin (k + 1) (by omega)
        rwa [Function.iterate_succ_apply] at this)
      refine ⟨k + 1, by omega, by omega, by rw [k3, Function.iterate_succ_apply], ?_, ?_⟩
      · intro j h1 h2
        rcases Nat.eq_or_lt_of_le h1 with rfl | h1
        · simpa using hc
        · obtain ⟨i, rfl⟩ : ∃ i, j = i + 2 := ⟨j - 2, by omega⟩
          have := k4 (i + 1) (by omega) (by omega)
          rw [Nat.add_sub_cancel, ← Function.iterate_succ_apply, ← Function.iterate_succ_apply] at this
          exact this
      · rcases k5 with rfl | k5
        · exact Or.inl rfl
        · right
          obtain ⟨i, rfl⟩ : ∃ i, k = i + 1 := ⟨k - 1, by omega⟩
          rw [Nat.add_sub_cancel, ← Function.iterate_succ_apply, ← Function.iterate_succ_apply] at k5
          exact k5
    · rw [if_neg hc]
      exact ⟨1, le_rfl, by omega, rfl, fun j h1 h2 => by omega, Or.inr (by simpa using hc)⟩

/-- **C74, Newton's iteration.**  As long as the estimates stay in (-1, 1), the root returned is
the result of between 1 and `maxIter` Newton steps on the Legendre polynomial: every step but the
last increased the estimate by more than `accuracy`, and the last one did not unless the limit was
reached. -/
theorem C74_steps_partial (n : Nat) (accuracy first : K) (maxIter : Nat) (hmax : 0 < maxIter)
    (hin : ∀ k, k < maxIter → -1 < (newtonStep n)^[k] first ∧ (newtonStep n)^[k] first < 1) :
    ∃ k, 1 ≤ k ∧ k ≤ maxIter ∧ (root n accuracy first maxIter).1 = (newtonStep n)^[k] first ∧
      (∀ j, 1 ≤ j → j < k →
        accuracy < max ((newtonStep n)^[j] first - (newtonStep n)^[j - 1] first) 0) ∧
      (k = maxIter ∨
        ¬ (accuracy < max ((newtonStep n)^[k] first - (newtonStep n)^[k - 1] first) 0)) := by
  obtain ⟨k, k1, k2, k3, k4, k5⟩ := newton_spec n accuracy (maxIter - 1) first 1
    (fun k hk => hin k (by omega))
  refine ⟨k, k1, by omega, k3, k4, ?_⟩
  rcases k5 with h | h
  · exact Or.inl (by omega)
  · exact Or.inr h

/-- **C74 fails for decreasing estimates**: `fdim` is not the absolute difference, so if the first
step decreases the estimate, however much, the result of that one step is returned whatever the
accuracy asked for (not negative). -/
theorem C74_decreasing_false (n : Nat) (accuracy first : K) (maxIter : Nat) (ha : 0 ≤ accuracy)
    (h1 : -1 < first) (h2 : first < 1) (hd : newtonStep n first ≤ first) :
    (root n accuracy first maxIter).1 = newtonStep n first := by
  have key : first - (getLegendre first n 1).1 / (getLegendre first n 1).2 = newtonStep n first := by
    rw [C74_value, C74_derivative first n 1 h1 h2]; rfl
  show (newton n accuracy (maxIter - 1) first 1).1 = _
  cases maxIter - 1 with
  | zero => exact key
  | succ f =>
    unfold newton
    simp only
    rw [key, if_neg (not_lt.2 hd), if_neg (not_lt.2 ha)]

/-- **C74, weight**: for a root inside (-1, 1) the weight is the one of Gauss-Legendre quadrature,
2 / ((1 - x^2) P'(x)^2). -/
theorem C74_weight (n : Nat) (accuracy first : K) (maxIter : Nat)
    (h1 : -1 < (root n accuracy first maxIter).1) (h2 : (root n accuracy first maxIter).1 < 1) :
    (root n accuracy first maxIter).2 = 2 / ((1 - (root n accuracy first maxIter).1 ^ 2) *
      (derivative (P n)).eval (root n accuracy first maxIter).1 ^ 2) := by
  unfold root at *
  simp only at *
  rw [C74_derivative _ n _ h1 h2]
  ring

/-- Non-vacuity: degree 2, from 1/2 the first step goes up to 7/12, the next one down; two steps
are done although the step down is larger than the accuracy. -/
example : root 2 (1 / 1000 : ℚ) (1 / 2) 100 =
    (97 / 168, 2 / ((1 - (97 / 168) ^ 2) * (3 * (97 / 168)) ^ 2)) := by
  decide +kernel

end Sdp.Legendre
