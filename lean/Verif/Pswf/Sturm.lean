import Verif.Pswf.Char
import Mathlib.Tactic.Linarith
import Mathlib.Tactic.FieldSimp
import Mathlib.Tactic.Ring
import Mathlib.Tactic.Positivity
import Mathlib.Algebra.Order.Field.Power

/-!
# Quadratic forms of tridiagonal matrices, and counts of negative pivots
-/

namespace Sdp.Pswf

/-- The quadratic form of the first `n + 1` rows of the tridiagonal matrix less `x`. -/
noncomputable def form (T : Tri) (x : ℝ) (y : Nat → ℝ) : Nat → ℝ
  | 0 => (T.d 0 - x) * y 0 ^ 2
  | n + 1 => form T x y n + 2 * T.e (n + 1) * y n * y (n + 1) + (T.d (n + 1) - x) * y (n + 1) ^ 2

/-- The squared length of the first `n + 1` values. -/
noncomputable def len2 (y : Nat → ℝ) : Nat → ℝ
  | 0 => y 0 ^ 2
  | n + 1 => len2 y n + y (n + 1) ^ 2

theorem form_shift (T : Tri) (x : ℝ) (y : Nat → ℝ) (n : Nat) : form T x y n = form T 0 y n - x * len2 y n := by
  induction n with
  | zero => simp only [form, len2]; ring
  | succ n ih => simp only [form, len2]; rw [ih]; ring

theorem len2_nonneg (y : Nat → ℝ) (n : Nat) : 0 ≤ len2 y n := by
  induction n with
  | zero => simp only [len2]; positivity
  | succ n ih => simp only [len2]; positivity

theorem len2_pos {y : Nat → ℝ} {n i : Nat} (hi : i ≤ n) (h : y i ≠ 0) : 0 < len2 y n := by
  induction n with
  | zero =>
    obtain rfl : i = 0 := by omega
    simp only [len2]; positivity
  | succ n ih =>
    simp only [len2]
    by_cases e : i = n + 1
    · subst e
      have := len2_nonneg y n
      positivity
    · have := ih (by omega)
      positivity

theorem form_congr (T : Tri) (x : ℝ) {y z : Nat → ℝ} (n : Nat) (h : ∀ i ≤ n, y i = z i) :
    form T x y n = form T x z n := by
  induction n with
  | zero => simp only [form]; rw [h 0 le_rfl]
  | succ n ih =>
    simp only [form]
    rw [ih fun i hi => h i (by omega), h n (by omega), h (n + 1) le_rfl]

theorem form_zero (T : Tri) (x : ℝ) {y : Nat → ℝ} {n k : Nat} (hk : n ≤ k) (h : ∀ i, n < i → y i = 0) :
    form T x y k = form T x y n := by
  induction k with
  | zero => obtain rfl : n = 0 := by omega
            rfl
  | succ k ih =>
    by_cases e : n = k + 1
    · rw [e]
    · simp only [form]
      rw [ih (by omega), h (k + 1) (by omega)]
      ring

/-- The values of `s` where none before is zero. -/
noncomputable def pivot (T : Tri) (x : ℝ) : Nat → ℝ
  | 0 => T.d 0 - x
  | i + 1 => T.d (i + 1) - T.e (i + 1) ^ 2 / pivot T x i - x

/-- Completing squares, as far as the pivots are positive. -/
theorem form_pivots (T : Tri) (x : ℝ) (y : Nat → ℝ) (n : Nat) (h : ∀ i < n, 0 < pivot T x i) :
    pivot T x n * y n ^ 2 ≤ form T x y n := by
  induction n with
  | zero => simp only [form, pivot]; exact le_rfl
  | succ n ih =>
    have h1 := ih fun i hi => h i (by omega)
    have hp := h n (by omega)
    simp only [form, pivot]
    have key : 0 ≤ pivot T x n * (y n + T.e (n + 1) / pivot T x n * y (n + 1)) ^ 2 := by positivity
    have e : pivot T x n * (y n + T.e (n + 1) / pivot T x n * y (n + 1)) ^ 2 =
        pivot T x n * y n ^ 2 + 2 * T.e (n + 1) * y n * y (n + 1) +
          T.e (n + 1) ^ 2 / pivot T x n * y (n + 1) ^ 2 := by
      field_simp
      ring
    rw [e] at key
    nlinarith

/-- Solving backwards from `y n = v`: a vector with the form of the last pivot alone. -/
theorem form_back (T : Tri) (x v : ℝ) (n : Nat) (h : ∀ i < n, 0 < pivot T x i) :
    ∃ y : Nat → ℝ, y n = v ∧ (∀ i, n < i → y i = 0) ∧ form T x y n = pivot T x n * v ^ 2 := by
  induction n generalizing v with
  | zero => exact ⟨fun i => if i = 0 then v else 0, by simp, fun i hi => by simp; omega, by simp [form, pivot]⟩
  | succ n ih =>
    obtain ⟨y, h1, h2, h3⟩ := ih (-(T.e (n + 1) / pivot T x n * v)) fun i hi => h i (by omega)
    have hp := h n (by omega)
    refine ⟨fun i => if i = n + 1 then v else y i, by simp, fun i hi => ?_, ?_⟩
    · simp only
      rw [if_neg (by omega)]; exact h2 i (by omega)
    · have e : form T x (fun i => if i = n + 1 then v else y i) n = form T x y n :=
        form_congr T x n fun i hi => if_neg (by omega)
      simp only [form, pivot]
      rw [e, h3, if_neg (by omega), if_true, h1]
      field_simp
      ring

theorem negative_of_pivot (T : Tri) (x : ℝ) {n k : Nat} (hk : n ≤ k) (h : ∀ i < n, 0 < pivot T x i)
    (hn : pivot T x n < 0) : ∃ y : Nat → ℝ, form T x y k < 0 := by
  obtain ⟨y, -, h2, h3⟩ := form_back T x 1 n h
  refine ⟨y, ?_⟩
  rw [form_zero T x hk h2, h3]
  linarith

theorem negative_of_zero (T : Tri) (x : ℝ) {n k : Nat} (hk : n < k) (h : ∀ i < n, 0 < pivot T x i)
    (hn : pivot T x n = 0) (he : 0 < T.e (n + 1)) : ∃ y : Nat → ℝ, form T x y k < 0 := by
  -- a large value in row `n` against a small one of the other sign in row `n + 1`
  obtain ⟨y, h1, h2, h3⟩ := form_back T x (-(|T.d (n + 1) - x| + 1) / T.e (n + 1)) n h
  refine ⟨fun i => if i = n + 1 then 1 else y i, ?_⟩
  rw [form_zero T x (n := n + 1) hk fun i hi => by rw [if_neg (by omega)]; exact h2 i (by omega)]
  have e : form T x (fun i => if i = n + 1 then 1 else y i) n = form T x y n :=
    form_congr T x n fun i hi => if_neg (by omega)
  simp only [form]
  rw [e, h3, hn, if_neg (by omega), if_true, h1]
  have h4 := le_abs_self (T.d (n + 1) - x)
  have : 2 * T.e (n + 1) * (-(|T.d (n + 1) - x| + 1) / T.e (n + 1)) * 1 = -2 * (|T.d (n + 1) - x| + 1) := by
    field_simp
  rw [this]
  have h5 := abs_nonneg (T.d (n + 1) - x)
  linarith

/-! ## The count -/

/-- The values of `s` as computed. -/
noncomputable def svals (T : Tri) (x : ℝ) : Nat → ℝ
  | 0 => 1
  | i + 1 => T.d i - T.f i / (if svals T x i = 0 then svals T x i + 1 / 10 ^ 30 else svals T x i) - x

theorem countFold (T : Tri) (x : ℝ) (n : Nat) : ((List.range n).foldl (countStep T x) (1, 0)).1 = svals T x n ∧
    (((List.range n).foldl (countStep T x) (1, 0)).2 = 0 ↔ ∀ i < n, 0 ≤ svals T x (i + 1)) := by
  induction n with
  | zero => simp [svals]
  | succ n ih =>
    rw [List.range_succ, List.foldl_append]
    simp only [List.foldl_cons, List.foldl_nil]
    generalize (List.range n).foldl (countStep T x) (1, 0) = q at ih ⊢
    obtain ⟨h1, h2⟩ := ih
    have e : (countStep T x q n).1 = svals T x (n + 1) := by
      unfold countStep
      simp only [svals]
      rw [h1]
    refine ⟨e, ?_⟩
    have e2 : (countStep T x q n).2 = if svals T x (n + 1) < 0 then q.2 + 1 else q.2 := by
      rw [← e]
      rfl
    rw [e2]
    by_cases hs : svals T x (n + 1) < 0
    · rw [if_pos hs]
      constructor
      · intro h; omega
      · intro h; exact absurd (h n (by omega)) (not_le.2 hs)
    · rw [if_neg hs, h2]
      constructor
      · intro h i hi
        by_cases e : i = n
        · rw [e]; exact not_lt.1 hs
        · exact h i (by omega)
      · intro h i hi; exact h i (by omega)

theorem count_zero (T : Tri) (x : ℝ) (n : Nat) : count T n x = 0 ↔ ∀ i < n, 0 ≤ svals T x (i + 1) :=
  (countFold T x n).2

/-- What the counts need of the matrix. -/
structure Sound (T : Tri) : Prop where
  f0 : T.f 0 = 0
  f : ∀ i, T.f (i + 1) = T.e (i + 1) ^ 2
  e : ∀ i, 0 < T.e (i + 1)

theorem svals_pivot {T : Tri} (hT : Sound T) (x : ℝ) (n : Nat) (h : ∀ i < n, pivot T x i ≠ 0) :
    svals T x (n + 1) = pivot T x n := by
  induction n with
  | zero => simp [svals, pivot, hT.f0]
  | succ n ih =>
    have e := ih fun i hi => h i (by omega)
    rw [svals, e, if_neg (h n (by omega)), pivot, hT.f]

/-- No negative value: the form is nowhere negative, if zeros before the last row are followed by negative
values. -/
theorem form_nonneg {T : Tri} (hT : Sound T) (x : ℝ) (n : Nat) (hx : 0 ≤ x)
    (hz : ∀ i < n, T.d (i + 1) < 10 ^ 30 * T.f (i + 1)) (h : count T (n + 1) x = 0) (y : Nat → ℝ) :
    0 ≤ form T x y n := by
  rw [count_zero] at h
  have key : ∀ i, i ≤ n → (∀ j < i, 0 < pivot T x j) := by
    intro i
    induction i with
    | zero => intro _ j hj; omega
    | succ i ih =>
      intro hi j hj
      by_cases e : j = i
      · subst e
        have hp := ih (by omega)
        have es := svals_pivot hT x j fun k hk => (hp k hk).ne'
        have h0 := h j (by omega)
        rw [es] at h0
        refine lt_of_le_of_ne h0 fun hzero => ?_
        have h1 := h (j + 1) (by omega)
        rw [svals, es, ← hzero, if_pos rfl, zero_add] at h1
        have := hz j (by omega)
        have e : T.f (j + 1) / (1 / 10 ^ 30) = 10 ^ 30 * T.f (j + 1) := by field_simp
        rw [e] at h1
        linarith
      · exact ih (by omega) j (by omega)
  have hp := key n le_rfl
  have es := svals_pivot hT x n fun k hk => (hp k hk).ne'
  have h0 := h n (by omega)
  rw [es] at h0
  have := form_pivots T x y n hp
  have : 0 ≤ pivot T x n * y n ^ 2 := by positivity
  linarith

/-- A negative value: the form is somewhere negative. -/
theorem form_negative {T : Tri} (hT : Sound T) (x : ℝ) (n : Nat) (h : count T (n + 1) x ≠ 0) :
    ∃ y : Nat → ℝ, form T x y n < 0 := by
  have h : ∃ i, i < n + 1 ∧ svals T x (i + 1) < 0 := by
    by_contra hc
    push Not at hc
    exact h ((count_zero T x (n + 1)).2 hc)
  -- the first row with a pivot that is not positive
  have hex : ∃ i, i < n + 1 ∧ pivot T x i ≤ 0 := by
    by_contra hc
    push Not at hc
    obtain ⟨i, hi, hs⟩ := h
    rw [svals_pivot hT x i fun j hj => (hc j (by omega)).ne'] at hs
    exact absurd (hc i hi) (not_lt.2 hs.le)
  classical
  have hfind := Nat.find_spec hex
  have hmin : ∀ j < Nat.find hex, 0 < pivot T x j := by
    intro j hj
    have := Nat.find_min hex hj
    rw [not_and, not_le] at this
    exact this (by omega)
  generalize Nat.find hex = i at hfind hmin
  obtain ⟨hi, hp⟩ := hfind
  rcases lt_or_eq_of_le hp with hneg | hzero
  · exact negative_of_pivot T x (by omega) hmin hneg
  · by_cases hin : i < n
    · exact negative_of_zero T x hin hmin hzero (hT.e i)
    · -- a zero in the last row only: no value is negative
      exfalso
      obtain ⟨k, hk, hs⟩ := h
      have hk' : k ≤ i := by omega
      rw [svals_pivot hT x k fun j hj => (hmin j (by omega)).ne'] at hs
      by_cases e : k = i
      · rw [e, hzero] at hs; exact lt_irrefl _ hs
      · exact absurd (hmin k (by omega)) (not_lt.2 hs.le)

/-! ## The first bracket -/

theorem bracket_fold (T : Tri) (x : ℝ × ℝ) (n : Nat) :
    let r := (List.range n).foldl (bracketStep T) x
    x.1 ≤ r.1 ∧ r.2 ≤ x.2 ∧ ∀ i < n, T.d i + (|T.e i| + |T.e (i + 1)|) ≤ r.1 ∧
      r.2 ≤ T.d i - (|T.e i| + |T.e (i + 1)|) := by
  induction n with
  | zero => simp
  | succ n ih =>
    simp only at ih ⊢
    rw [List.range_succ, List.foldl_append]
    simp only [List.foldl_cons, List.foldl_nil]
    generalize (List.range n).foldl (bracketStep T) x = q at ih ⊢
    obtain ⟨h1, h2, h3⟩ := ih
    have e1 : (bracketStep T q n).1 = max q.1 (T.d n + (|T.e n| + |T.e (n + 1)|)) := by
      unfold bracketStep
      simp only
      split
      · rw [max_eq_right (by linarith)]
      · rw [max_eq_left (by linarith)]
    have e2 : (bracketStep T q n).2 = min q.2 (T.d n - (|T.e n| + |T.e (n + 1)|)) := by
      unfold bracketStep
      simp only
      split
      · rw [min_eq_right (by linarith)]
      · rw [min_eq_left (by linarith)]
    rw [e1, e2]
    refine ⟨h1.trans (le_max_left _ _), (min_le_left _ _).trans h2, fun i hi => ?_⟩
    by_cases e : i = n
    · subst e
      exact ⟨le_max_right _ _, min_le_right _ _⟩
    · exact ⟨(h3 i (by omega)).1.trans (le_max_left _ _), (min_le_left _ _).trans (h3 i (by omega)).2⟩

theorem bracket_spec (T : Tri) (n : Nat) :
    T.d 0 ≤ (bracket T (n + 1)).1 ∧
    (∀ i < n, (bracket T (n + 1)).2 ≤ T.d i - (|T.e i| + |T.e (i + 1)|)) ∧
      (bracket T (n + 1)).2 ≤ T.d n - |T.e n| := by
  unfold bracket
  have := bracket_fold T (T.d n + |T.e n|, T.d n - |T.e n|) n
  simp only [Nat.add_sub_cancel] at this ⊢
  obtain ⟨h1, h2, h3⟩ := this
  refine ⟨?_, fun i hi => (h3 i hi).2, h2⟩
  cases n with
  | zero => have := abs_nonneg (T.e 0); linarith
  | succ n =>
    have := (h3 0 (by omega)).1
    have a := abs_nonneg (T.e 0)
    have b := abs_nonneg (T.e (0 + 1))
    linarith

/-- Circles around the diagonal. -/
theorem form_bracket (T : Tri) (x : ℝ) (n : Nat) (y : Nat → ℝ)
    (h : ∀ i < n, x ≤ T.d i - (|T.e i| + |T.e (i + 1)|)) :
    (T.d n - |T.e n| - x) * y n ^ 2 ≤ form T x y n := by
  induction n with
  | zero =>
    simp only [form]
    have := abs_nonneg (T.e 0)
    have : 0 ≤ |T.e 0| * y 0 ^ 2 := by positivity
    nlinarith
  | succ n ih =>
    have h1 := ih fun i hi => h i (by omega)
    have h2 := h n (by omega)
    simp only [form]
    have a : 2 * T.e (n + 1) * y n * y (n + 1) ≥ -(|T.e (n + 1)| * (y n ^ 2 + y (n + 1) ^ 2)) := by
      have hab : |2 * T.e (n + 1) * y n * y (n + 1)| ≤ |T.e (n + 1)| * (y n ^ 2 + y (n + 1) ^ 2) := by
        rw [show 2 * T.e (n + 1) * y n * y (n + 1) = T.e (n + 1) * (2 * (y n * y (n + 1))) by ring, abs_mul]
        refine mul_le_mul_of_nonneg_left ?_ (abs_nonneg _)
        rw [abs_le]
        constructor <;> nlinarith [sq_nonneg (y n - y (n + 1)), sq_nonneg (y n + y (n + 1))]
      have := neg_abs_le (2 * T.e (n + 1) * y n * y (n + 1))
      linarith
    have b : 0 ≤ (T.d n - |T.e n| - x - |T.e (n + 1)|) * y n ^ 2 :=
      mul_nonneg (by linarith) (sq_nonneg _)
    nlinarith

/-! ## The least value of the form -/

/-- `lam` is the least value of the form on vectors of length one, taken at some vector. -/
def Least (T : Tri) (n : Nat) (lam : ℝ) : Prop :=
  (∀ y : Nat → ℝ, lam * len2 y n ≤ form T 0 y n) ∧
    ∃ y : Nat → ℝ, 0 < len2 y n ∧ form T 0 y n = lam * len2 y n

theorem least_bracket {T : Tri} {n : Nat} {lam : ℝ} (h : Least T n lam) :
    (bracket T (n + 1)).2 ≤ lam ∧ lam ≤ (bracket T (n + 1)).1 := by
  obtain ⟨b1, b2, b3⟩ := bracket_spec T n
  constructor
  · obtain ⟨y, hy, he⟩ := h.2
    have := form_bracket T (bracket T (n + 1)).2 n y b2
    rw [form_shift, he] at this
    have h0 : 0 ≤ (T.d n - |T.e n| - (bracket T (n + 1)).2) * y n ^ 2 :=
      mul_nonneg (by linarith) (sq_nonneg _)
    have : 0 ≤ (lam - (bracket T (n + 1)).2) * len2 y n := by linarith
    have := nonneg_of_mul_nonneg_left this hy
    linarith
  · have := h.1 fun i => if i = 0 then 1 else 0
    have e1 : form T 0 (fun i => if i = 0 then 1 else 0) n = T.d 0 := by
      rw [form_zero T 0 (Nat.zero_le n) fun i hi => if_neg (by omega)]
      simp [form]
    have e2 : len2 (fun i => if i = 0 then 1 else 0) n = 1 := by
      clear this h b1 b2 b3 e1
      induction n with
      | zero => simp [len2]
      | succ n ih => simp [len2, ih]
    rw [e1, e2] at this
    linarith

theorem least_count {T : Tri} (hT : Sound T) {n : Nat} {lam : ℝ} (h : Least T n lam) (hpos : 0 < lam)
    (hz : ∀ i < n, T.d (i + 1) < 10 ^ 30 * T.f (i + 1)) (x : ℝ) :
    (count T (n + 1) x = 0 → x ≤ lam) ∧ (count T (n + 1) x ≠ 0 → lam ≤ x) := by
  constructor
  · intro hc
    by_cases hx : 0 ≤ x
    · obtain ⟨y, hy, he⟩ := h.2
      have := form_nonneg hT x n hx hz hc y
      rw [form_shift, he] at this
      have : 0 ≤ (lam - x) * len2 y n := by linarith
      have := nonneg_of_mul_nonneg_left this hy
      linarith
    · linarith
  · intro hc
    obtain ⟨y, hy⟩ := form_negative hT x n hc
    have := h.1 y
    rw [form_shift] at hy
    by_contra hlt
    rw [not_le] at hlt
    have := mul_le_mul_of_nonneg_right hlt.le (len2_nonneg y n)
    linarith

/-- The bisection finishes, and close to the least value. -/
theorem bisect_spec {T : Tri} (hT : Sound T) {n : Nat} {lam : ℝ} (h : Least T n lam) (hpos : 0 < lam)
    (hz : ∀ i < n, T.d (i + 1) < 10 ^ 30 * T.f (i + 1)) (fuel : Nat) :
    ∀ lo hi : ℝ, lo ≤ lam → lam ≤ hi → hi - lo < 2 ^ fuel * (lam / 10 ^ 15) →
      ∃ x, bisect T (n + 1) (fuel + 1) lo hi = some x ∧ 0 < x ∧ |x - lam| ≤ 1 / 10 ^ 14 * x := by
  have stop : ∀ lo hi : ℝ, lo ≤ lam → lam ≤ hi → |(hi - lo) / ((hi + lo) / 2)| < 1 / 10 ^ 14 →
      (hi + lo) / 2 ≠ 0 → 0 < (hi + lo) / 2 ∧ |(hi + lo) / 2 - lam| ≤ 1 / 10 ^ 14 * ((hi + lo) / 2) := by
    intro lo hi h1 h2 h3 h4
    rw [abs_div, div_lt_iff₀ (abs_pos.2 h4), abs_of_nonneg (by linarith)] at h3
    have hx : 0 < (hi + lo) / 2 := by
      by_contra hc
      rw [not_lt] at hc
      rw [abs_of_nonpos hc] at h3
      have : lam ≤ (hi - lo) + (hi + lo) / 2 := by linarith
      linarith
    rw [abs_of_pos hx] at h3
    refine ⟨hx, ?_⟩
    rw [abs_le]
    constructor <;> linarith
  induction fuel with
  | zero =>
    intro lo hi h1 h2 h3
    simp only [pow_zero, one_mul] at h3
    have hx : lam / 2 < (hi + lo) / 2 := by linarith
    have hx0 : (hi + lo) / 2 ≠ 0 := by linarith
    have hq : |(hi - lo) / ((hi + lo) / 2)| < 1 / 10 ^ 14 := by
      have hp : 0 < (hi + lo) / 2 := by linarith
      rw [abs_div, div_lt_iff₀ (abs_pos.2 hx0), abs_of_nonneg (by linarith), abs_of_pos hp]
      linarith
    obtain ⟨s1, s2⟩ := stop lo hi h1 h2 hq hx0
    refine ⟨_, ?_, s1, s2⟩
    unfold bisect
    simp only
    rw [if_pos ⟨hx0, hq⟩]
  | succ fuel ih =>
    intro lo hi h1 h2 h3
    unfold bisect
    simp only
    by_cases hs : (hi + lo) / 2 ≠ 0 ∧ |(hi - lo) / ((hi + lo) / 2)| < 1 / 10 ^ 14
    · rw [if_pos hs]
      exact ⟨_, rfl, stop lo hi h1 h2 hs.2 hs.1⟩
    · rw [if_neg hs]
      have hhalf : (hi - lo) / 2 < 2 ^ fuel * (lam / 10 ^ 15) := by rw [pow_succ] at h3; linarith
      obtain ⟨c1, c2⟩ := least_count hT h hpos hz ((hi + lo) / 2)
      by_cases hc : count T (n + 1) ((hi + lo) / 2) = 0
      · rw [if_pos (by omega)]
        exact ih _ _ (c1 hc) h2 (by linarith)
      · rw [if_neg (by omega)]
        exact ih _ _ h1 (c2 hc) (by linarith)

end Sdp.Pswf
