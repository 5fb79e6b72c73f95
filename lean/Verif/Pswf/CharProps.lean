import Verif.Pswf.Spectral
import Mathlib.Tactic.FieldSimp
import Mathlib.Tactic.Positivity
import Mathlib.Tactic.Linarith
import Mathlib.Tactic.Ring
import Mathlib.Tactic.NormNum

/-!
# The characteristic value of a prolate spheroidal wave function (C85)
-/

namespace Sdp.Pswf
noncomputable section

/-! ## Specification -/

/-- The left-hand side of the three-term recurrence (Abramowitz and Stegun, 21.7.3) for `k = 2 i`, of the expansion
in Legendre functions of degree `m + k` whose coefficients are `y 0` (for `k = 0`), `y 1` (for `k = 2`), … -/
def Row (m : Nat) (c lam : ℝ) (y : Nat → ℝ) (i : Nat) : ℝ :=
  let k : ℝ := 2 * i
  let m : ℝ := m
  (2 * m + k + 2) * (2 * m + k + 1) * c ^ 2 / ((2 * m + 2 * k + 3) * (2 * m + 2 * k + 5)) * y (i + 1)
    + ((m + k) * (m + k + 1) - lam + (2 * (m + k) * (m + k + 1) - 2 * m ^ 2 - 1) * c ^ 2
        / ((2 * m + 2 * k - 1) * (2 * m + 2 * k + 3))) * y i
    + (if i = 0 then 0 else k * (k - 1) * c ^ 2 / ((2 * m + 2 * k - 3) * (2 * m + 2 * k - 1)) * y (i - 1))

/-- `lam` is a characteristic value of the expansion cut off after `n` terms: some expansion, not zero, satisfies the
recurrence for `k = 0, 2, 4, …, 2(n - 1)`. -/
def CharValue (m : Nat) (c : ℝ) (n : Nat) (lam : ℝ) : Prop :=
  ∃ y : Nat → ℝ, (∃ i, y i ≠ 0) ∧ (∀ i, n ≤ i → y i = 0) ∧ ∀ i < n, Row m c lam y i = 0

/-! ## The matrix of one pass -/

/-- The coupling of degree `K` with `K - 1`, squared. -/
def al (m : Nat) (K : Nat) : ℝ := ((K : ℝ) ^ 2 - (m : ℝ) ^ 2) / ((2 * (K : ℝ) - 1) * (2 * (K : ℝ) + 1))

theorem odd_ne (K : Nat) : 2 * (K : ℝ) - 1 ≠ 0 := by
  intro h
  have : (2 * K : ℝ) = (1 : ℕ) := by push_cast; linarith
  have : 2 * K = 1 := by exact_mod_cast this
  omega

theorem coefD_al (m k : Nat) (cs : ℝ) :
    coefD m k cs = ((m + k : ℕ) : ℝ) * ((m + k : ℕ) + 1 : ℝ) + cs * (al m (m + k + 1) + al m (m + k)) := by
  unfold coefD al
  have h1 := odd_ne (m + k)
  push_cast at h1 ⊢
  have e3 : 2 * (m + k + 1 : ℝ) - 1 = 2 * (m + k : ℝ) + 1 := by ring
  have e4 : 2 * (m + k + 1 : ℝ) + 1 = 2 * (m + k : ℝ) + 3 := by ring
  rw [e3, e4]
  have h2 : 2 * (m + k : ℝ) + 3 ≠ 0 := by positivity
  have h3 : 2 * (m + k : ℝ) + 1 ≠ 0 := by positivity
  have key : ((m + k : ℝ) * 2 * (m + k + 1 : ℝ) - m * 2 * m - 1) / ((2 * (m + k : ℝ) - 1) * (2 * (m + k : ℝ) + 3))
      = ((m + k + 1 : ℝ) ^ 2 - m ^ 2) / ((2 * (m + k : ℝ) + 1) * (2 * (m + k : ℝ) + 3))
        + ((m + k : ℝ) ^ 2 - m ^ 2) / ((2 * (m + k : ℝ) - 1) * (2 * (m + k : ℝ) + 1)) := by
    rw [div_add_div _ _ (mul_ne_zero h3 h2) (mul_ne_zero h1 h3),
      div_eq_div_iff (mul_ne_zero h1 h2) (mul_ne_zero (mul_ne_zero h3 h2) (mul_ne_zero h1 h3))]
    ring
  rw [key]
  ring

theorem coefAG_al (m k : Nat) (cs : ℝ) :
    coefA m k cs * coefG m (k + 2) cs = cs ^ 2 * (al m (m + k + 1) * al m (m + k + 2)) := by
  unfold coefA coefG al
  push_cast
  have e1 : 2 * (m + (k + 2) : ℝ) - 3 = 2 * (m + k : ℝ) + 1 := by ring
  have e2 : 2 * (m + (k + 2) : ℝ) - 1 = 2 * (m + k : ℝ) + 3 := by ring
  have e3 : 2 * (m + k + 1 : ℝ) - 1 = 2 * (m + k : ℝ) + 1 := by ring
  have e4 : 2 * (m + k + 1 : ℝ) + 1 = 2 * (m + k : ℝ) + 3 := by ring
  have e5 : 2 * (m + k + 2 : ℝ) - 1 = 2 * (m + k : ℝ) + 3 := by ring
  have e6 : 2 * (m + k + 2 : ℝ) + 1 = 2 * (m + k : ℝ) + 5 := by ring
  rw [e1, e2, e3, e4, e5, e6]
  have h1 : 2 * (m + k : ℝ) + 1 ≠ 0 := by positivity
  have h3 : 2 * (m + k : ℝ) + 3 ≠ 0 := by positivity
  have h5 : 2 * (m + k : ℝ) + 5 ≠ 0 := by positivity
  field_simp
  ring

theorem al_pos (m k : Nat) (hk : 0 < k) : 0 < al m (m + k) := by
  unfold al
  have hk' : (1 : ℝ) ≤ k := by exact_mod_cast hk
  have hm : (0 : ℝ) ≤ m := Nat.cast_nonneg m
  push_cast
  apply div_pos
  · nlinarith
  · apply mul_pos <;> nlinarith

theorem al_nonneg (m k : Nat) : 0 ≤ al m (m + k) := by
  rcases Nat.eq_zero_or_pos k with h | h
  · subst h
    unfold al
    simp
  · exact (al_pos m k h).le

theorem rowK_succ (l i : Nat) : rowK l (i + 1) = rowK l i + 2 := by
  unfold rowK
  split <;> omega

theorem pass_e (m : Nat) (cs : ℝ) (hcs : 0 ≤ cs) (l i : Nat) :
    (passTri m cs l).e (i + 1) =
      cs * (Real.sqrt (al m (m + rowK l i + 1)) * Real.sqrt (al m (m + rowK l (i + 1)))) := by
  simp only [passTri]
  have h0 : 0 ≤ al m (m + rowK l i + 1) := al_nonneg m (rowK l i + 1)
  rw [if_neg (by omega), Nat.add_sub_cancel, rowK_succ, coefAG_al, Real.sqrt_mul (sq_nonneg _), Real.sqrt_sq hcs,
    Real.sqrt_mul h0]
  rfl

theorem pass_f (m : Nat) (cs : ℝ) (hcs : 0 ≤ cs) (l i : Nat) :
    (passTri m cs l).f (i + 1) = cs ^ 2 * (al m (m + rowK l i + 1) * al m (m + rowK l (i + 1))) := by
  have : (passTri m cs l).f (i + 1) = (passTri m cs l).e (i + 1) * (passTri m cs l).e (i + 1) := by
    simp only [passTri]
    rw [if_neg (by omega)]
  rw [this, pass_e m cs hcs]
  have h1 := Real.mul_self_sqrt (al_nonneg m (rowK l i + 1))
  have h2 := Real.mul_self_sqrt (al_nonneg m (rowK l (i + 1)))
  rw [← Nat.add_assoc] at h1
  calc _ = cs ^ 2 * ((Real.sqrt (al m (m + rowK l i + 1)) * Real.sqrt (al m (m + rowK l i + 1))) *
      (Real.sqrt (al m (m + rowK l (i + 1))) * Real.sqrt (al m (m + rowK l (i + 1))))) := by ring
    _ = _ := by rw [h1, h2]

theorem pass_sound (m : Nat) (cs : ℝ) (hcs : 0 < cs) (l : Nat) : Sound (passTri m cs l) := by
  refine ⟨by simp [passTri], fun i => ?_, fun i => ?_⟩
  · simp only [passTri]
    rw [if_neg (by omega), sq]
  · rw [pass_e m cs hcs.le]
    refine mul_pos hcs (mul_pos (Real.sqrt_pos.2 ?_) (Real.sqrt_pos.2 ?_))
    · exact al_pos m (rowK l i + 1) (by omega)
    · rw [rowK_succ]
      exact al_pos m _ (by omega)

theorem pass_d (m : Nat) (cs : ℝ) (l i : Nat) :
    cs * (al m (m + rowK l i + 1) + al m (m + rowK l i)) ≤ (passTri m cs l).d i := by
  have : (passTri m cs l).d i = coefD m (rowK l i) cs := rfl
  rw [this, coefD_al]
  have : (0 : ℝ) ≤ ((m + rowK l i : ℕ) : ℝ) * ((m + rowK l i : ℕ) + 1 : ℝ) := by positivity
  linarith

/-- The form is positive. -/
theorem pass_form (m : Nat) (cs : ℝ) (hcs : 0 < cs) (l : Nat) (y : Nat → ℝ) (n : Nat) :
    cs * al m (m + rowK l n + 1) * y n ^ 2 ≤ form (passTri m cs l) 0 y n := by
  induction n with
  | zero =>
    simp only [form]
    have h := pass_d m cs l 0
    have h2 : 0 ≤ cs * al m (m + rowK l 0) := mul_nonneg hcs.le (al_nonneg _ _)
    have := sq_nonneg (y 0)
    have : cs * al m (m + rowK l 0 + 1) ≤ (passTri m cs l).d 0 - 0 := by rw [mul_add] at h; linarith
    exact mul_le_mul_of_nonneg_right this (sq_nonneg _)
  | succ n ih =>
    simp only [form]
    have h := pass_d m cs l (n + 1)
    rw [pass_e m cs hcs.le]
    have h1 := Real.mul_self_sqrt (al_nonneg m (rowK l n + 1))
    have h2 := Real.mul_self_sqrt (al_nonneg m (rowK l (n + 1)))
    rw [← Nat.add_assoc] at h1
    generalize Real.sqrt (al m (m + rowK l n + 1)) = p at *
    generalize Real.sqrt (al m (m + rowK l (n + 1))) = q at *
    rw [← h1] at ih
    rw [← h2] at h
    generalize al m (m + rowK l (n + 1) + 1) = r at *
    generalize (passTri m cs l).d (n + 1) = d at *
    generalize form (passTri m cs l) 0 y n = g at *
    have hs := mul_nonneg hcs.le (sq_nonneg (p * y n + q * y (n + 1)))
    have hd := mul_le_mul_of_nonneg_right h (sq_nonneg (y (n + 1)))
    nlinarith

theorem pass_pos (m : Nat) (cs : ℝ) (hcs : 0 < cs) (l : Nat) (y : Nat → ℝ) (n : Nat)
    (h : form (passTri m cs l) 0 y n ≤ 0) : ∀ i ≤ n, y i = 0 := by
  have last : ∀ n, form (passTri m cs l) 0 y n ≤ 0 → y n = 0 := by
    intro n h
    have h1 := pass_form m cs hcs l y n
    have h2 : 0 < cs * al m (m + rowK l n + 1) := mul_pos hcs (al_pos m (rowK l n + 1) (by omega))
    have h3 : y n ^ 2 ≤ 0 := by
      by_contra hc
      have := mul_pos h2 (not_le.1 hc)
      linarith
    exact pow_eq_zero_iff (by omega) |>.1 (le_antisymm h3 (sq_nonneg _))
  induction n with
  | zero =>
    intro i hi
    rw [Nat.le_zero.1 hi]
    exact last 0 h
  | succ n ih =>
    have hl := last (n + 1) h
    intro i hi
    rcases Nat.lt_or_ge n i with hc | hc
    · rw [show i = n + 1 by omega]; exact hl
    · refine ih ?_ i hc
      simp only [form, hl] at h
      simpa using h

theorem pass_least (m : Nat) (cs : ℝ) (hcs : 0 < cs) (l n : Nat) :
    ∃ lam, 0 < lam ∧ Least (passTri m cs l) n lam ∧ Eigen (passTri m cs l) n lam := by
  obtain ⟨lam, h1, h2⟩ := exists_least (passTri m cs l) n
  refine ⟨lam, ?_, h1, h2⟩
  obtain ⟨y, hy, he⟩ := h1.2
  by_contra hc
  have hz := pass_pos m cs hcs l y n (by
    rw [he]
    exact mul_nonpos_of_nonpos_of_nonneg (not_lt.1 hc) hy.le)
  have : len2 y n = 0 := by
    rw [← sum_len2]
    refine Finset.sum_eq_zero fun j hj => ?_
    rw [hz j (by have := Finset.mem_range.1 hj; omega), mul_zero]
  linarith

/-! ## The zero rule cannot mislead the count -/

theorem al_low (m k : Nat) (hk : 0 < k) : 1 / (2 * (2 * ((m + k : ℕ) : ℝ) + 1)) ≤ al m (m + k) := by
  unfold al
  have hk' : (1 : ℝ) ≤ k := by exact_mod_cast hk
  have hm : (0 : ℝ) ≤ m := Nat.cast_nonneg m
  push_cast
  rw [div_le_div_iff₀ (by nlinarith) (by apply mul_pos <;> nlinarith)]
  have : 0 ≤ (2 * (m + k : ℝ) + 1) := by nlinarith
  have h2 : 2 * (m + k : ℝ) - 1 ≤ ((m + k : ℝ) ^ 2 - (m : ℝ) ^ 2) * 2 := by nlinarith
  nlinarith

theorem al_high (m k : Nat) : al m (m + k) ≤ 1 := by
  rcases Nat.eq_zero_or_pos k with h | h
  · subst h
    unfold al
    simp
  · unfold al
    have hk' : (1 : ℝ) ≤ k := by exact_mod_cast h
    have hm : (0 : ℝ) ≤ m := Nat.cast_nonneg m
    push_cast
    rw [div_le_one (by apply mul_pos <;> nlinarith)]
    nlinarith

theorem pass_hz (m : Nat) (cs : ℝ) (h1 : 1 / 10 ^ 6 ≤ cs) (h2 : cs ≤ 10 ^ 5) (l i : Nat)
    (hK : m + rowK l (i + 1) ≤ 2000) :
    (passTri m cs l).d (i + 1) < 10 ^ 30 * (passTri m cs l).f (i + 1) := by
  have hcs : 0 < cs := lt_of_lt_of_le (by norm_num) h1
  rw [pass_f m cs hcs.le]
  have : (passTri m cs l).d (i + 1) = coefD m (rowK l (i + 1)) cs := rfl
  rw [this, coefD_al]
  have a1 := al_high m (rowK l (i + 1))
  have a2 := al_high m (rowK l (i + 1) + 1)
  have b1 := al_low m (rowK l i + 1) (by omega)
  have b2 := al_low m (rowK l (i + 1)) (by rw [rowK_succ]; omega)
  have k1 : ((m + rowK l (i + 1) : ℕ) : ℝ) ≤ 2000 := by exact_mod_cast hK
  have k2 : ((m + (rowK l i + 1) : ℕ) : ℝ) ≤ 2000 := by
    have : m + (rowK l i + 1) ≤ 2000 := by rw [rowK_succ] at hK; omega
    exact_mod_cast this
  rw [← Nat.add_assoc] at a2 b1 k2
  have p1 : (0 : ℝ) ≤ ((m + rowK l (i + 1) : ℕ) : ℝ) := Nat.cast_nonneg _
  have p2 : (0 : ℝ) ≤ ((m + rowK l i + 1 : ℕ) : ℝ) := Nat.cast_nonneg _
  have c1 : 1 / 10 ^ 4 ≤ al m (m + rowK l i + 1) := by
    refine le_trans ?_ b1
    rw [div_le_div_iff₀ (by norm_num) (by linarith)]
    linarith
  have c2 : 1 / 10 ^ 4 ≤ al m (m + rowK l (i + 1)) := by
    refine le_trans ?_ b2
    rw [div_le_div_iff₀ (by norm_num) (by linarith)]
    linarith
  generalize al m (m + rowK l (i + 1)) = q at *
  generalize al m (m + rowK l i + 1) = p at *
  generalize al m (m + rowK l (i + 1) + 1) = r at *
  generalize ((m + rowK l (i + 1) : ℕ) : ℝ) = K at *
  have hd : K * (K + 1) + cs * (r + q) ≤ 10 ^ 8 := by nlinarith
  have hp : 1 / 10 ^ 8 ≤ p * q := by
    have : (1 : ℝ) / 10 ^ 8 = 1 / 10 ^ 4 * (1 / 10 ^ 4) := by norm_num
    rw [this]
    exact mul_le_mul c1 c2 (by norm_num) (le_trans (by norm_num) c1)
  have hc2 : 1 / 10 ^ 12 ≤ cs ^ 2 := by
    have : (1 : ℝ) / 10 ^ 12 = (1 / 10 ^ 6) ^ 2 := by norm_num
    rw [this]
    exact pow_le_pow_left₀ (by norm_num) h1 2
  have hf : 1 / 10 ^ 20 ≤ cs ^ 2 * (p * q) := by
    have : (1 : ℝ) / 10 ^ 20 = 1 / 10 ^ 12 * (1 / 10 ^ 8) := by norm_num
    rw [this]
    exact mul_le_mul hc2 hp (by norm_num) (sq_nonneg _)
  have : (10 : ℝ) ^ 8 < 10 ^ 30 * (1 / 10 ^ 20) := by norm_num
  have : (10 : ℝ) ^ 30 * (1 / 10 ^ 20) ≤ 10 ^ 30 * (cs ^ 2 * (p * q)) := mul_le_mul_of_nonneg_left hf (by norm_num)
  linarith

/-! ## The recurrence and the matrix -/

/-- The scale between the expansion and the vector of the symmetric matrix. -/
def sig (m : Nat) (cs : ℝ) : Nat → ℝ
  | 0 => 1
  | i + 1 => sig m cs i * (Real.sqrt (coefA m (2 * i) cs) / Real.sqrt (coefG m (2 * i + 2) cs))

theorem coefA_pos (m k : Nat) {cs : ℝ} (h : 0 < cs) : 0 < coefA m k cs := by
  unfold coefA
  positivity

theorem coefG_pos (m k : Nat) {cs : ℝ} (h : 0 < cs) : 0 < coefG m (k + 2) cs := by
  unfold coefG
  push_cast
  have hk : (0 : ℝ) ≤ k := Nat.cast_nonneg k
  have hm : (0 : ℝ) ≤ m := Nat.cast_nonneg m
  refine mul_pos (div_pos (mul_pos ?_ ?_) (mul_pos ?_ ?_)) h <;> linarith

theorem sig_pos (m : Nat) {cs : ℝ} (h : 0 < cs) (i : Nat) : 0 < sig m cs i := by
  induction i with
  | zero => exact one_pos
  | succ i ih =>
    exact mul_pos ih (div_pos (Real.sqrt_pos.2 (coefA_pos m _ h)) (Real.sqrt_pos.2 (coefG_pos m _ h)))

theorem pass_e0 (m : Nat) {cs : ℝ} (h : 0 < cs) (i : Nat) : (passTri m cs 0).e (i + 1) =
    Real.sqrt (coefA m (2 * i) cs) * Real.sqrt (coefG m (2 * i + 2) cs) := by
  simp only [passTri]
  rw [if_neg (by omega), Nat.add_sub_cancel, rowK_succ, Real.sqrt_mul (by
    exact (coefA_pos m _ h).le)]
  simp only [rowK, if_true]

/-- Row `i` of the recurrence, scaled, is row `i` of the symmetric matrix. -/
theorem row_sig (m : Nat) {cs : ℝ} (h : 0 < cs) (y : Nat → ℝ) (i : Nat) :
    row (passTri m cs 0) (fun i => sig m cs i * y i) i = sig m cs i *
      (coefA m (2 * i) cs * y (i + 1) + coefD m (2 * i) cs * y i +
        (if i = 0 then 0 else coefG m (2 * i) cs * y (i - 1))) := by
  have hd : (passTri m cs 0).d i = coefD m (2 * i) cs := by simp only [passTri, rowK, if_true]
  have up : (passTri m cs 0).e (i + 1) * (sig m cs (i + 1) * y (i + 1)) =
      sig m cs i * (coefA m (2 * i) cs * y (i + 1)) := by
    rw [pass_e0 m h, sig]
    have hg := (Real.sqrt_pos.2 (coefG_pos m (2 * i) h)).ne'
    have ha := Real.mul_self_sqrt (coefA_pos m (2 * i) h).le
    generalize Real.sqrt (coefA m (2 * i) cs) = p at *
    rw [← ha]
    field_simp
  unfold row
  rw [up, hd]
  cases i with
  | zero => simp only [if_true]; ring
  | succ i =>
    have down : (passTri m cs 0).e (i + 1) * (sig m cs i * y i) =
        sig m cs (i + 1) * (coefG m (2 * i + 2) cs * y i) := by
      rw [pass_e0 m h, sig]
      have hg' := (Real.sqrt_pos.2 (coefG_pos m (2 * i) h)).ne'
      have hg := Real.mul_self_sqrt (coefG_pos m (2 * i) h).le
      generalize Real.sqrt (coefG m (2 * i + 2) cs) = q at *
      rw [← hg]
      field_simp
    rw [if_neg (by omega), if_neg (by omega), Nat.add_sub_cancel, down, show 2 * (i + 1) = 2 * i + 2 by ring]
    ring

theorem row_eq (m : Nat) (c lam : ℝ) (y : Nat → ℝ) (i : Nat) : Row m c lam y i =
    coefA m (2 * i) (c * c) * y (i + 1) + (coefD m (2 * i) (c * c) - lam) * y i +
      (if i = 0 then 0 else coefG m (2 * i) (c * c) * y (i - 1)) := by
  have eA : coefA m (2 * i) (c * c) = (2 * (m : ℝ) + 2 * i + 2) * (2 * m + 2 * i + 1) * c ^ 2
      / ((2 * m + 2 * (2 * i) + 3) * (2 * m + 2 * (2 * i) + 5)) := by
    unfold coefA
    push_cast
    rw [mul_add 2 (m : ℝ)]
    ring
  have eD : coefD m (2 * i) (c * c) = ((m : ℝ) + 2 * i) * (m + 2 * i + 1)
      + (2 * (m + 2 * i) * (m + 2 * i + 1) - 2 * m ^ 2 - 1) * c ^ 2
          / ((2 * m + 2 * (2 * i) - 1) * (2 * m + 2 * (2 * i) + 3)) := by
    unfold coefD
    push_cast
    rw [mul_add 2 (m : ℝ)]
    ring
  have eG : coefG m (2 * i) (c * c) = 2 * (i : ℝ) * (2 * i - 1) * c ^ 2
      / ((2 * m + 2 * (2 * i) - 3) * (2 * m + 2 * (2 * i) - 1)) := by
    unfold coefG
    push_cast
    rw [mul_add 2 (m : ℝ)]
    ring
  unfold Row
  simp only
  rw [eA, eD, eG]
  ring

theorem charValue_iff (m : Nat) (c : ℝ) (n : Nat) (lam : ℝ) : CharValue m c n lam ↔
    ∃ y : Nat → ℝ, (∃ i, y i ≠ 0) ∧ (∀ i, n ≤ i → y i = 0) ∧ ∀ i < n,
      coefA m (2 * i) (c * c) * y (i + 1) + coefD m (2 * i) (c * c) * y i +
        (if i = 0 then 0 else coefG m (2 * i) (c * c) * y (i - 1)) = lam * y i := by
  unfold CharValue
  refine exists_congr fun y => and_congr_right fun _ => and_congr_right fun _ =>
    forall_congr' fun i => imp_congr_right fun _ => ?_
  rw [row_eq]
  constructor <;> intro h <;> linear_combination h

theorem char_eigen (m : Nat) {c : ℝ} (hc : 0 < c) (n : Nat) (lam : ℝ) :
    CharValue m c (n + 1) lam ↔ Eigen (passTri m (c * c) 0) n lam := by
  have hcs := mul_pos hc hc
  rw [charValue_iff]
  constructor
  · rintro ⟨y, ⟨i0, h0⟩, hz, hr⟩
    refine ⟨fun i => sig m (c * c) i * y i, ⟨i0, mul_ne_zero (sig_pos m hcs i0).ne' h0⟩, fun i hi => ?_,
      fun i hi => ?_⟩
    · show sig m (c * c) i * y i = 0
      rw [hz i (by omega), mul_zero]
    · rw [row_sig m hcs, hr i (by omega)]
      ring
  · rintro ⟨z, ⟨i0, h0⟩, hz, hr⟩
    have e : z = fun i => sig m (c * c) i * (z i / sig m (c * c) i) := by
      funext i
      rw [mul_div_cancel₀ _ (sig_pos m hcs i).ne']
    refine ⟨fun i => z i / sig m (c * c) i, ⟨i0, div_ne_zero h0 (sig_pos m hcs i0).ne'⟩, fun i hi => ?_,
      fun i hi => ?_⟩
    · show z i / _ = 0
      rw [hz i (by omega), zero_div]
    · have h1 := hr i (by omega)
      rw [e, row_sig m hcs] at h1
      have hs := (sig_pos m hcs i).ne'
      have h2 : sig m (c * c) i * (coefA m (2 * i) (c * c) * (z (i + 1) / sig m (c * c) (i + 1)) +
          coefD m (2 * i) (c * c) * (z i / sig m (c * c) i) +
          (if i = 0 then 0 else coefG m (2 * i) (c * c) * (z (i - 1) / sig m (c * c) (i - 1)))) =
          sig m (c * c) i * (lam * (z i / sig m (c * c) i)) := by
        rw [h1]
        ring
      exact mul_left_cancel₀ hs h2

/-! ## The bisection ends -/

theorem bisect_mono (T : Tri) (n fuel : Nat) : ∀ lo hi x, bisect T n fuel lo hi = some x →
    bisect T n (fuel + 1) lo hi = some x := by
  induction fuel with
  | zero => intro lo hi x h; simp [bisect] at h
  | succ fuel ih =>
    intro lo hi x h
    rw [bisect] at h ⊢
    split at h
    · rename_i hs
      rw [if_pos hs]
      exact h
    · rename_i hs
      rw [if_neg hs]
      split at h
      · rename_i ht
        rw [if_pos ht]
        exact ih _ _ _ h
      · rename_i ht
        rw [if_neg ht]
        exact ih _ _ _ h

theorem bisect_more (T : Tri) (n : Nat) {a b : Nat} (h : a ≤ b) {lo hi x : ℝ} (hx : bisect T n a lo hi = some x) :
    bisect T n b lo hi = some x := by
  induction b, h using Nat.le_induction with
  | base => exact hx
  | succ b _ ih => exact bisect_mono T n b _ _ _ ih

theorem pass_run (m : Nat) {cs : ℝ} (h1 : 1 / 10 ^ 6 ≤ cs) (h2 : cs ≤ 10 ^ 5) (l n : Nat) (hm : m ≤ 1000)
    (hn : n < 300) {lam : ℝ} (hlam : 0 < lam) (hl : Least (passTri m cs l) n lam) :
    ∃ N x, |x - lam| ≤ 1 / 10 ^ 14 * x ∧ ∀ fuel, N ≤ fuel →
      bisect (passTri m cs l) (n + 1) fuel (bracket (passTri m cs l) (n + 1)).2 (bracket (passTri m cs l) (n + 1)).1
        = some x := by
  have hcs : 0 < cs := lt_of_lt_of_le (by norm_num) h1
  obtain ⟨b1, b2⟩ := least_bracket hl
  generalize (bracket (passTri m cs l) (n + 1)).1 = hi at *
  generalize (bracket (passTri m cs l) (n + 1)).2 = lo at *
  have hq : 0 < lam / 10 ^ 15 := div_pos hlam (by norm_num)
  obtain ⟨N, hN⟩ := pow_unbounded_of_one_lt ((hi - lo) / (lam / 10 ^ 15)) (one_lt_two (α := ℝ))
  rw [div_lt_iff₀ hq] at hN
  obtain ⟨x, hx, -, he⟩ := bisect_spec (pass_sound m cs hcs l) hl hlam (fun i hi => pass_hz m cs h1 h2 l i (by
    unfold rowK
    split <;> omega)) N lo hi b1 b2 hN
  exact ⟨N + 1, x, he, fun fuel hf => bisect_more _ _ hf hx⟩

/-! ## Theorems -/

/-- C85.  For a mode up to 1000 and a bandwidth from 1/1000 up to 291: the cut-off recurrence has a least
characteristic value, which is positive, and the search ends with an estimate of it whose relative error is at
most 10⁻¹⁴ — the same estimate however many more steps are allowed. -/
theorem C85_least_partial (m : Nat) (c : ℝ) (hm : m ≤ 1000) (h1 : 1 / 1000 ≤ c) (h2 : c < 291) :
    ∃ lam, IsLeast {mu | CharValue m c (⌊c⌋₊ + 10) mu} lam ∧ 0 < lam ∧
      ∃ N x, |x - lam| ≤ 1 / 10 ^ 14 * x ∧ ∀ fuel, N ≤ fuel → segv m c fuel = .value x := by
  have hc : 0 < c := lt_of_lt_of_le (by norm_num) h1
  have hcs1 : 1 / 10 ^ 6 ≤ c * c := by nlinarith
  have hcs2 : c * c ≤ 10 ^ 5 := by nlinarith
  have hfl : ⌊c⌋₊ < 291 := (Nat.floor_lt hc.le).2 (by exact_mod_cast h2)
  have hnm : (trunc c + 10).toNat = ⌊c⌋₊ + 9 + 1 := by
    unfold trunc
    rw [if_pos hc.le, ← Int.natCast_floor_eq_floor hc.le]
    omega
  obtain ⟨lam, hpos, hl, he⟩ := pass_least m (c * c) (mul_pos hc hc) 0 (⌊c⌋₊ + 9)
  obtain ⟨lam1, hpos1, hl1, -⟩ := pass_least m (c * c) (mul_pos hc hc) 1 (⌊c⌋₊ + 9)
  obtain ⟨N, x, hx, hr⟩ := pass_run m hcs1 hcs2 0 (⌊c⌋₊ + 9) hm (by omega) hpos hl
  obtain ⟨N1, x1, -, hr1⟩ := pass_run m hcs1 hcs2 1 (⌊c⌋₊ + 9) hm (by omega) hpos1 hl1
  refine ⟨lam, ⟨(char_eigen m hc _ _).2 he, fun mu hmu => eigen_ge hl ((char_eigen m hc _ _).1 hmu)⟩, hpos,
    max N N1, x, hx, fun fuel hf => ?_⟩
  unfold segv
  rw [if_neg (not_lt.2 (le_trans (by norm_num) h1))]
  simp only [hnm]
  rw [if_neg (by omega), hr fuel (le_trans (le_max_left _ _) hf), hr1 fuel (le_trans (le_max_right _ _) hf)]

/-- C85: below the smallest bandwidth that is treated as such, the value is that of bandwidth zero: the only
eigenvalue of degree `m`. -/
theorem C85_tiny (m : Nat) (c : ℝ) (h : c < 1 / 10 ^ 10) (fuel : Nat) :
    segv m c fuel = .value ((m : ℝ) * (m + 1)) := by
  unfold segv
  rw [if_pos h]
  congr 1
  ring

/-- At bandwidth zero, the least characteristic value is `m (m + 1)`. -/
theorem C85_zero (m n : Nat) (hn : 0 < n) : IsLeast {mu | CharValue m 0 n mu} ((m : ℝ) * (m + 1)) := by
  constructor
  · refine ⟨fun i => if i = 0 then 1 else 0, ⟨0, by simp⟩, fun i hi => if_neg (by omega), fun i hi => ?_⟩
    unfold Row
    simp only
    by_cases h : i = 0
    · subst h
      simp
    · simp [h]
  · rintro mu ⟨y, ⟨i0, h0⟩, hz, hr⟩
    have hi : i0 < n := by
      by_contra hc
      exact h0 (hz i0 (not_lt.1 hc))
    have := hr i0 hi
    unfold Row at this
    simp only [ne_eq, OfNat.ofNat_ne_zero, not_false_eq_true, zero_pow, mul_zero, zero_div, zero_mul, add_zero,
      ite_self, zero_add, mul_eq_zero, h0, or_false] at this
    have h2 : mu = ((m : ℝ) + 2 * i0) * (m + 2 * i0 + 1) := by linarith
    rw [h2]
    have : (0 : ℝ) ≤ i0 := Nat.cast_nonneg _
    have : (0 : ℝ) ≤ m := Nat.cast_nonneg _
    nlinarith

/-- Not for every bandwidth: from 291 on, an array is accessed out of bounds. -/
theorem C85_overflow_false (m : Nat) (c : ℝ) (h : 291 ≤ c) (fuel : Nat) : segv m c fuel = .fault := by
  unfold segv
  have h0 : (0 : ℝ) ≤ c := by linarith
  rw [if_neg (by norm_num; linarith)]
  have : 291 ≤ trunc c := by
    unfold trunc
    rw [if_pos h0]
    exact Int.le_floor.2 (by exact_mod_cast h)
  simp only
  rw [if_pos (by omega)]

/-- Non-vacuity: mode 0, bandwidth π × 6 is about 18.85; here 19. -/
example : ∃ lam, IsLeast {mu | CharValue 0 19 29 mu} lam ∧ 0 < lam ∧
    ∃ N x, |x - lam| ≤ 1 / 10 ^ 14 * x ∧ ∀ fuel, N ≤ fuel → segv 0 19 fuel = .value x := by
  have := C85_least_partial 0 19 (by norm_num) (by norm_num) (by norm_num)
  have e : ⌊(19 : ℝ)⌋₊ = 19 := Nat.floor_ofNat 19
  rw [e] at this
  exact this

/-- Non-vacuity of the specification: with one row, the characteristic value is known. -/
example : CharValue 0 3 1 3 := by
  refine ⟨fun i => if i = 0 then 1 else 0, ⟨0, by simp⟩, fun i hi => if_neg (by omega), fun i hi => ?_⟩
  have : i = 0 := by omega
  subst this
  norm_num [Row]

end
end Sdp.Pswf
