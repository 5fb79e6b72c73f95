import Verif.Pswf.SeriesProps

/-!
# The expansion for small bandwidths (C86): the hypotheses are met
-/

namespace Sdp.Pswf
noncomputable section
open Nat

theorem A_le (k : Nat) {cs : ℝ} (h : 0 ≤ cs) : coefA 0 k cs ≤ cs ∧ cs / 8 ≤ coefA 0 k cs := by
  unfold coefA
  have hk : (0 : ℝ) ≤ k := Nat.cast_nonneg k
  simp only [Nat.cast_zero, mul_zero, zero_add]
  have hp : 0 < (2 * (k : ℝ) + 3) * (2 * k + 5) := by positivity
  have h1 : ((k : ℝ) + 2) * (k + 1) / ((2 * k + 3) * (2 * k + 5)) ≤ 1 := by
    rw [div_le_one hp]; nlinarith
  have h2 : 1 / 8 ≤ ((k : ℝ) + 2) * (k + 1) / ((2 * k + 3) * (2 * k + 5)) := by
    rw [div_le_div_iff₀ (by norm_num) hp]; nlinarith
  generalize ((k : ℝ) + 2) * (k + 1) / ((2 * k + 3) * (2 * k + 5)) = q at *
  constructor <;> nlinarith

theorem G_le (k : Nat) {cs : ℝ} (h : 0 ≤ cs) : coefG 0 (k + 2) cs ≤ cs := by
  unfold coefG
  have hk : (0 : ℝ) ≤ k := Nat.cast_nonneg k
  push_cast
  have e1 : 2 * ((0 : ℝ) + (k + 2)) - 3 = 2 * k + 1 := by ring
  have e2 : 2 * ((0 : ℝ) + (k + 2)) - 1 = 2 * k + 3 := by ring
  rw [e1, e2]
  have hp : 0 < (2 * (k : ℝ) + 1) * (2 * k + 3) := by positivity
  have h1 : ((k : ℝ) + 2) * (k + 2 - 1) / ((2 * k + 1) * (2 * k + 3)) ≤ 1 := by
    rw [div_le_one hp]; nlinarith
  generalize ((k : ℝ) + 2) * (k + 2 - 1) / ((2 * k + 1) * (2 * k + 3)) = q at *
  nlinarith

theorem D_le (k : Nat) {cs : ℝ} (h : 0 ≤ cs) : (k : ℝ) * (k + 1) ≤ coefD 0 k cs ∧ coefD 0 k cs ≤ k * (k + 1) + 2 * cs := by
  rw [coefD_al]
  have h1 := al_high 0 k
  have h2 := al_high 0 (k + 1)
  have h3 := al_nonneg 0 k
  have h4 := al_nonneg 0 (k + 1)
  simp only [zero_add] at *
  constructor <;> nlinarith

/-- The values from the first row on stay small. -/
theorem small_fwd (c cv : ℝ) (h1 : 1 / 10 ≤ c) (h2 : c ≤ 1) (h3 : 0 ≤ cv) (h4 : cv ≤ 1) (y : Nat → ℝ)
    (h0 : y 0 = 1 / 10 ^ 100) (hr : ∀ i, i < ⌊c⌋₊ + 25 → Row 0 c cv y i = 0) :
    ∀ i, i ≤ ⌊c⌋₊ + 25 → |y i| ≤ 10 ^ 100 := by
  have hc : 0 < c := by linarith
  have hcs : 1 / 100 ≤ c * c := by nlinarith
  have hcs1 : c * c ≤ 1 := by nlinarith
  have hn : ⌊c⌋₊ ≤ 1 := by
    have : ⌊c⌋₊ < 2 := (Nat.floor_lt hc.le).2 (by push_cast; linarith)
    omega
  have key : ∀ i, i ≤ ⌊c⌋₊ + 25 → |y i| ≤ (10 ^ 7) ^ i * (1 / 10 ^ 100) ∧
      (i + 1 ≤ ⌊c⌋₊ + 25 → |y (i + 1)| ≤ (10 ^ 7) ^ (i + 1) * (1 / 10 ^ 100)) := by
    intro i
    induction i with
    | zero =>
      intro _
      have e0 : |y 0| = 1 / 10 ^ 100 := by rw [h0]; exact abs_of_pos (by positivity)
      refine ⟨by rw [e0]; simp, fun _ => ?_⟩
      have h := hr 0 (by omega)
      rw [row_eq, if_pos rfl, add_zero] at h
      obtain ⟨a1, a2⟩ := A_le (2 * 0) (cs := c * c) (by linarith)
      obtain ⟨d1, d2⟩ := D_le (2 * 0) (cs := c * c) (by linarith)
      generalize coefA 0 (2 * 0) (c * c) = a at *
      generalize coefD 0 (2 * 0) (c * c) = d at *
      push_cast at d1 d2
      have ha : 0 < a := by linarith
      have e : a * |y 1| = |d - cv| * |y 0| := by
        rw [← abs_of_pos ha, ← abs_mul, ← abs_mul, ← abs_neg ((d - cv) * y 0)]
        congr 1
        linear_combination h
      have hd : |d - cv| ≤ 3 := by rw [abs_le]; constructor <;> linarith
      have hy : 0 ≤ |y 1| := abs_nonneg _
      rw [e0] at e
      have : 0 < (1 : ℝ) / 10 ^ 100 := by positivity
      generalize (1 : ℝ) / 10 ^ 100 = t at *
      rw [pow_succ, pow_zero, one_mul]
      nlinarith
    | succ i ih =>
      intro hi
      obtain ⟨i1, i2⟩ := ih (by omega)
      have i2 := i2 (by omega)
      refine ⟨i2, fun hi2 => ?_⟩
      have h := hr (i + 1) (by omega)
      rw [row_eq, if_neg (by omega), Nat.add_sub_cancel] at h
      obtain ⟨a1, a2⟩ := A_le (2 * (i + 1)) (cs := c * c) (by linarith)
      obtain ⟨d1, d2⟩ := D_le (2 * (i + 1)) (cs := c * c) (by linarith)
      have g1 := G_le (2 * i) (cs := c * c) (by linarith)
      have g2 := coefG_pos 0 (2 * i) (mul_pos hc hc)
      rw [show 2 * i + 2 = 2 * (i + 1) by ring] at g1 g2
      generalize coefA 0 (2 * (i + 1)) (c * c) = a at *
      generalize coefD 0 (2 * (i + 1)) (c * c) = d at *
      generalize coefG 0 (2 * (i + 1)) (c * c) = g at *
      push_cast at d1 d2
      have hib : (i : ℝ) ≤ 25 := by
        have : i ≤ 25 := by omega
        exact_mod_cast this
      have hi0 : (0 : ℝ) ≤ i := Nat.cast_nonneg i
      have ha : 0 < a := by linarith
      have e : a * |y (i + 1 + 1)| ≤ |d - cv| * |y (i + 1)| + g * |y i| := by
        rw [← abs_of_pos ha, ← abs_mul, ← abs_mul]
        have : a * y (i + 1 + 1) = -((d - cv) * y (i + 1)) + -(g * y i) := by linear_combination h
        rw [this]
        refine le_trans (abs_add_le _ _) ?_
        rw [abs_neg, abs_neg, abs_mul g, abs_of_pos g2]
      have hd : |d - cv| ≤ 3000 := by rw [abs_le]; constructor <;> nlinarith
      have hy : 0 ≤ |y (i + 1 + 1)| := abs_nonneg _
      have hp : 0 < (10 ^ 7 : ℝ) ^ i * (1 / 10 ^ 100) := by positivity
      rw [pow_succ, mul_right_comm] at i2
      rw [pow_succ, pow_succ, mul_right_comm, mul_right_comm _ _ (1 / 10 ^ 100 : ℝ)]
      generalize (10 ^ 7 : ℝ) ^ i * (1 / 10 ^ 100) = t at *
      have b1 : |d - cv| * |y (i + 1)| ≤ 3000 * (t * 10 ^ 7) := mul_le_mul hd i2 (abs_nonneg _) (by norm_num)
      have b2 : g * |y i| ≤ 1 * t := mul_le_mul (by linarith) i1 (abs_nonneg _) (by norm_num)
      have a3 : 1 / 800 ≤ a := by linarith
      have b3 : 1 / 800 * |y (i + 1 + 1)| ≤ a * |y (i + 1 + 1)| := mul_le_mul_of_nonneg_right a3 hy
      nlinarith
  intro i hi
  refine le_trans (key i hi).1 ?_
  have : ((10 : ℝ) ^ 7) ^ i ≤ (10 ^ 7) ^ 26 := pow_le_pow_right₀ (by norm_num) (by omega)
  calc _ ≤ ((10 : ℝ) ^ 7) ^ 26 * (1 / 10 ^ 100) := mul_le_mul_of_nonneg_right this (by positivity)
    _ ≤ _ := by norm_num

/-- From the last row down, the values grow and change sign, if the diagonal dominates. -/
theorem back_grow (m : Nat) (c cv : ℝ) (hc : 0 < c) (nm kb : Nat) (df : Buf) (y : Nat → ℝ) (hb : Back (rows m c) cv nm kb df y)
    (hk : kb ≤ nm)
    (hd : ∀ i, 1 ≤ i → coefA m (2 * i) (c * c) + coefG m (2 * i) (c * c) < coefD m (2 * i) (c * c) - cv) (j : Nat) :
    j ≤ nm - kb → |y (nm - j + 1)| < |y (nm - j)| ∧ (j ≠ 0 → y (nm - j + 1) * y (nm - j) < 0) := by
  induction j with
  | zero =>
    intro _
    refine ⟨?_, fun h => absurd rfl h⟩
    rw [Nat.sub_zero, hb.top (nm + 1) (by omega), abs_zero]
    exact abs_pos.2 hb.last
  | succ j ih =>
    intro hj
    obtain ⟨i1, -⟩ := ih (by omega)
    have hr := hb.rows (nm - j) (by omega) (by omega)
    have hdom := hd (nm - j) (by omega)
    rw [show nm - (j + 1) + 1 = nm - j by omega]
    obtain ⟨q, hq⟩ : ∃ q, nm - j = q + 1 := ⟨nm - j - 1, by omega⟩
    rw [show nm - (j + 1) = q by omega]
    rw [hq] at hr hdom i1 ⊢
    unfold rowR at hr
    rw [if_neg (by omega), Nat.add_sub_cancel] at hr
    have ea : (rows m c).a (q + 1) = coefA m (2 * (q + 1)) (c * c) := rfl
    have ed : (rows m c).d (q + 1) = coefD m (2 * (q + 1)) (c * c) := rfl
    have eg : (rows m c).g (q + 1) = coefG m (2 * (q + 1)) (c * c) := rfl
    rw [ea, ed, eg] at hr
    have ha := coefA_pos m (2 * (q + 1)) (mul_pos hc hc)
    have hg := coefG_pos m (2 * q) (mul_pos hc hc)
    rw [show 2 * q + 2 = 2 * (q + 1) by ring] at hg
    generalize coefA m (2 * (q + 1)) (c * c) = a at *
    generalize coefD m (2 * (q + 1)) (c * c) - cv = d at *
    generalize coefG m (2 * (q + 1)) (c * c) = g at *
    generalize y (q + 1 + 1) = u at *
    generalize y (q + 1) = v at *
    generalize y q = w at *
    have hv : 0 < |v| := lt_of_le_of_lt (abs_nonneg _) i1
    have huv : |u * v| < |v| ^ 2 := by
      rw [abs_mul, sq]
      exact mul_lt_mul_of_pos_right i1 hv
    have hvv : v * v = |v| ^ 2 := by rw [sq_abs]; ring
    have huv' := neg_abs_le (u * v)
    refine ⟨?_, fun _ => ?_⟩
    · -- `g w = -(d v + a u)`
      have e : g * |w| = |d * v + a * u| := by
        rw [← abs_of_pos hg, ← abs_mul, ← abs_neg (d * v + a * u)]
        congr 1
        linear_combination hr
      have e2 : d * |v| - a * |u| ≤ |d * v + a * u| := by
        have := abs_sub_abs_le_abs_sub (d * v) (-(a * u))
        rw [sub_neg_eq_add, abs_neg, abs_mul, abs_mul, abs_of_pos ha, abs_of_pos (by linarith)] at this
        exact this
      have e3 : g * |v| < g * |w| := by nlinarith
      exact lt_of_mul_lt_mul_left e3 hg.le
    · have e : g * (v * w) = -(d * (v * v) + a * (u * v)) := by linear_combination v * hr
      have e2 : a * (u * v) ≥ -(a * |v| ^ 2) := by nlinarith
      have : g * (v * w) < 0 := by
        rw [e, hvv]
        have : 0 < |v| ^ 2 := by positivity
        nlinarith
      by_contra hc'
      have := mul_nonneg hg.le (not_lt.1 hc')
      linarith

theorem wt_sign (m i : Nat) : 0 < (-1 : ℝ) ^ i * wt m i := by
  rw [wt_eq]
  unfold weight
  have e : (-1 : ℝ) ^ i * ((-1) ^ i * ((2 * i + 2 * m)! : ℝ) / (4 ^ i * (i ! : ℝ) * ((i + m)! : ℝ))) =
      ((-1) ^ i * (-1) ^ i) * ((2 * i + 2 * m)! : ℝ) / (4 ^ i * (i ! : ℝ) * ((i + m)! : ℝ)) := by ring
  rw [e, ← mul_pow, neg_one_mul, neg_neg, one_pow, one_mul]
  have h1 : (0 : ℝ) < ((2 * i + 2 * m)! : ℝ) := by exact_mod_cast Nat.factorial_pos _
  have h2 : (0 : ℝ) < (i ! : ℝ) := by exact_mod_cast Nat.factorial_pos _
  have h3 : (0 : ℝ) < ((i + m)! : ℝ) := by exact_mod_cast Nat.factorial_pos _
  positivity

/-- For these bandwidths and characteristic values the expansion is a list of numbers. -/
theorem small_ok (c cv : ℝ) (h1 : 1 / 10 ≤ c) (h2 : c ≤ 1) (h4 : cv ≤ 1) : ∃ df, sdmn 0 c cv = .ok df := by
  have hc : 0 < c := by linarith
  have hcs1 : c * c ≤ 1 := by nlinarith
  have hcs0 : 0 ≤ c * c := by nlinarith
  have hfl : ⌊c⌋₊ ≤ 1 := by
    have : ⌊c⌋₊ < 2 := (Nat.floor_lt hc.le).2 (by push_cast; linarith)
    omega
  have hd : ∀ i, 1 ≤ i → coefA 0 (2 * i) (c * c) + coefG 0 (2 * i) (c * c) < coefD 0 (2 * i) (c * c) - cv := by
    intro i hi
    obtain ⟨q, rfl⟩ : ∃ q, i = q + 1 := ⟨i - 1, by omega⟩
    have a1 := (A_le (2 * (q + 1)) hcs0).1
    have g1 := G_le (2 * q) hcs0
    have d1 := (D_le (2 * (q + 1)) hcs0).1
    rw [show 2 * q + 2 = 2 * (q + 1) by ring] at g1
    push_cast at d1
    have : (0 : ℝ) ≤ q := Nat.cast_nonneg q
    nlinarith
  have hnm := numTerms_eq hc.le
  unfold sdmn
  simp only
  generalize numTerms c = nm at hnm ⊢
  rw [if_neg (not_lt.2 (le_trans (by norm_num) h1)), if_neg (by omega), write_ok (by omega), Res.bind]
  obtain ⟨df, kb, fl, y, hb1, hb2, hb3, hb4, hb5⟩ := start_back 0 c cv nm (by omega) hc
  rw [hb1, Res.bind]
  have grow := back_grow 0 c cv hc nm kb df y hb3 hb2 hd
  have h0 : kb = 0 := by
    by_contra hne
    have hlt := (grow (nm - kb) le_rfl).1
    rw [show nm - (nm - kb) = kb by omega] at hlt
    have hle := hb5 hne
    have hfl2 : |fl| ≤ |y kb| := by
      rw [hb4]
      split
      · rw [abs_zero]; exact abs_nonneg _
      · exact le_rfl
    have hdom := hd kb (by omega)
    have ea : (rows 0 c).a kb = coefA 0 (2 * kb) (c * c) := rfl
    have ed : (rows 0 c).d kb = coefD 0 (2 * kb) (c * c) := rfl
    have eg : (rows 0 c).g kb = coefG 0 (2 * kb) (c * c) := rfl
    have hg : 0 < coefG 0 (2 * kb) (c * c) := by
      have := coefG_pos 0 (2 * (kb - 1)) (mul_pos hc hc)
      rwa [show 2 * (kb - 1) + 2 = 2 * kb by omega] at this
    have ha := coefA_pos 0 (2 * kb) (mul_pos hc hc)
    rw [ea, ed, eg, abs_div, abs_neg, abs_of_pos hg, div_le_iff₀ hg] at hle
    have e2 : (coefD 0 (2 * kb) (c * c) - cv) * |y kb| - coefA 0 (2 * kb) (c * c) * |y (kb + 1)| ≤
        |(coefD 0 (2 * kb) (c * c) - cv) * y kb + coefA 0 (2 * kb) (c * c) * y (kb + 1)| := by
      have := abs_sub_abs_le_abs_sub ((coefD 0 (2 * kb) (c * c) - cv) * y kb) (-(coefA 0 (2 * kb) (c * c) * y (kb + 1)))
      rw [sub_neg_eq_add, abs_neg, abs_mul, abs_mul, abs_of_pos ha, abs_of_pos (by linarith)] at this
      exact this
    have hv : 0 < |y kb| := abs_pos.2 hb3.cur
    nlinarith
  subst h0
  rw [if_pos rfl]
  -- all terms of the sum have one sign
  have sgn : ∀ i, i ≤ nm → 0 < ((-1) ^ i * y i) * y 0 := by
    intro i
    induction i with
    | zero =>
      intro _
      rw [pow_zero, one_mul]
      exact mul_self_pos.2 hb3.cur
    | succ i ih =>
      intro hi
      have hp := ih (by omega)
      have hn := (grow (nm - i) (by omega)).2 (by omega)
      rw [show nm - (nm - i) = i by omega] at hn
      have hyi : y i ≠ 0 := by
        intro e
        rw [e, mul_zero] at hn
        exact lt_irrefl _ hn
      have h2 : 0 < y i ^ 2 := by positivity
      have e : ((-1 : ℝ) ^ (i + 1) * y (i + 1) * y 0) * y i ^ 2 = ((-1) ^ i * y i * y 0) * -(y (i + 1) * y i) := by
        rw [pow_succ]; ring
      have : 0 < ((-1 : ℝ) ^ (i + 1) * y (i + 1) * y 0) * y i ^ 2 := by
        rw [e]
        exact mul_pos hp (by linarith)
      exact pos_of_mul_pos_left this h2.le
  rcases norm_spec 0 nm (by omega) (by omega) df y (fun i hi => hb3.stored i (by omega) hi) 0 (by omega) fl 1
    (fun _ => by rw [hb4, if_pos (Or.inl rfl)]) with ⟨-, h⟩ | ⟨df', s, s0, h, -⟩
  · exfalso
    rcases h with h | ⟨s, hs, hs2, h⟩
    · exact one_ne_zero h
    · rw [hb4, if_pos (Or.inl rfl), zero_div, zero_mul, zero_add] at h
      have : 0 < (∑ i ∈ Finset.Ico 0 s, wt 0 i * y i) * y 0 := by
        rw [Finset.sum_mul]
        refine Finset.sum_pos (fun i hi => ?_) ⟨0, Finset.mem_Ico.2 ⟨le_rfl, by omega⟩⟩
        have hi := (Finset.mem_Ico.1 hi).2
        have e : wt 0 i * y i * y 0 = ((-1) ^ i * wt 0 i) * ((-1) ^ i * y i * y 0) := by
          have : (-1 : ℝ) ^ i * (-1) ^ i = 1 := by rw [← mul_pow, neg_one_mul, neg_neg, one_pow]
          linear_combination (-(wt 0 i * y i * y 0)) * this
        rw [e]
        exact mul_pos (wt_sign 0 i) (sgn i (by omega))
      rw [h, zero_mul] at this
      exact lt_irrefl _ this
  · exact ⟨df', h⟩

/-- Non-vacuity: mode 0, bandwidth 1, and any characteristic value from 0 to 1 (the right one is about 0.319). -/
example (cv : ℝ) (h : 0 ≤ cv) (h' : cv ≤ 1) : ∃ df, sdmn 0 1 cv = .ok df ∧ ∃ y : Nat → ℝ, (∀ i, i < 26 → df i = some (y i)) ∧
    ∃ kb, kb < 26 ∧ ∀ i, i ≤ 26 → i ≠ kb → Row 0 1 cv y i = 0 := by
  obtain ⟨df, hd⟩ := small_ok 1 cv (by norm_num) le_rfl h'
  obtain ⟨y, h1, -, h3, -⟩ := C86_expansion_partial 0 1 cv (by norm_num) (by norm_num) df hd
    (small_fwd 1 cv (by norm_num) le_rfl h h')
  rw [Nat.floor_one] at h1 h3
  exact ⟨df, hd, y, h1, h3⟩

end
end Sdp.Pswf
