import Verif.Pswf.CoefProps

/-!
# The coefficients of a prolate spheroidal plan (C86, continued)
-/

namespace Sdp.Pswf
noncomputable section
open Nat

/-! ## Weights -/

theorem rHead_eq (m k : Nat) : rHead m k = powWeight m k k := by
  unfold rHead powWeight rising
  rw [prodFold, prodFold, one_mul, Nat.choose_self, Nat.cast_one, mul_one]
  congr 1
  rw [eq_div_iff (fact_ne _), prod_fact]
  congr 2
  omega

theorem rising_step (m i k : Nat) :
    rising m (i + 1) k * ((i + m : ℕ) + 1 / 2 : ℝ) = rising m i k * ((i + m + k : ℕ) + 1 / 2 : ℝ) := by
  unfold rising
  induction k with
  | zero => simp
  | succ k ih =>
    rw [Finset.prod_range_succ, mul_right_comm, ih, Finset.prod_range_succ]
    push_cast
    ring

theorem rStep_eq (m k i : Nat) (h : k ≤ i) : rStep m k (i + 1) (powWeight m k i) = powWeight m k (i + 1) := by
  unfold rStep powWeight
  simp only
  have hr := rising_step m i k
  have hc : ((i + 1).choose k : ℝ) * ((i : ℝ) + 1 - k) = (i.choose k : ℝ) * (i + 1) := by
    have h2 := Nat.choose_mul_succ_eq i k
    have h3 : ((i.choose k * (i + 1) : ℕ) : ℝ) = (((i + 1).choose k * (i + 1 - k) : ℕ) : ℝ) := by rw [h2]
    rw [Nat.cast_mul, Nat.cast_mul, Nat.cast_sub (by omega)] at h3
    push_cast at h3
    exact h3.symm
  have e1 : 2 * m + 2 * (i + 1) = 2 * m + 2 * i + 1 + 1 := by ring
  have e2 : 2 * (i + 1) = 2 * i + 1 + 1 := by ring
  rw [e1, e2, Nat.factorial_succ, Nat.factorial_succ, Nat.factorial_succ, Nat.factorial_succ]
  have f1 := fact_ne (2 * i)
  have f2 := fact_ne (2 * m + 2 * i)
  have hik : (i : ℝ) + 1 - k ≠ 0 := by
    have : (k : ℝ) ≤ i := by exact_mod_cast h
    linarith
  have hd3 : (i : ℝ) + 1 + m - 1 / 2 ≠ 0 := by
    have h1 : (0 : ℝ) ≤ i := Nat.cast_nonneg i
    have h2 : (0 : ℝ) ≤ m := Nat.cast_nonneg m
    linarith
  have g1 : (2 * (i : ℝ) + 1) ≠ 0 := by positivity
  have g2 : ((i : ℝ) + 1) ≠ 0 := by positivity
  generalize rising m (i + 1) k = r1 at *
  generalize rising m i k = r0 at *
  generalize ((i + 1).choose k : ℝ) = c1 at *
  generalize (i.choose k : ℝ) = c0 at *
  push_cast at hr hc ⊢
  generalize ((2 * i)! : ℝ) = F at *
  generalize ((2 * m + 2 * i)! : ℝ) = G at *
  have g3 : ((i : ℝ) + 1) * 2 * (((i : ℝ) + 1) * 2 - 1) ≠ 0 := by
    have : ((i : ℝ) + 1) * 2 - 1 = 2 * i + 1 := by ring
    rw [this]
    positivity
  have eY : (2 * (m : ℝ) + 2 * i + 1 + 1) * ((2 * m + 2 * i + 1) * G) / ((2 * (i : ℝ) + 1 + 1) * ((2 * i + 1) * F)) =
      (m * 2 + (i + 1) * 2) * (m * 2 + (i + 1) * 2 - 1) / (((i : ℝ) + 1) * 2 * (((i : ℝ) + 1) * 2 - 1)) * (G / F) := by
    rw [_root_.div_mul_div_comm, _root_.div_eq_div_iff (by positivity) (mul_ne_zero g3 f1)]
    ring
  rw [eY]
  generalize G / F = q
  generalize hA : ((i : ℝ) + 1) * 2 * (((i : ℝ) + 1) * 2 - 1) = A at *
  generalize hT : (i : ℝ) + 1 - k = T at *
  generalize hU : (i : ℝ) + 1 + m - 1 / 2 = U at *
  have hr' : r1 * U = r0 * (U + k) := by rw [← hU]; linear_combination hr
  have er : r1 = r0 * (U + k) / U := by rw [eq_div_iff hd3, hr']
  have ec : c1 = c0 * ((i : ℝ) + 1) / T := by rw [eq_div_iff hik, hc]
  rw [er, ec]
  field_simp

theorem fact1_eq (n : Nat) : fact1 n = (n ! : ℝ) := by
  unfold fact1
  rw [prodFold, one_mul]
  cases n with
  | zero => simp
  | succ n =>
    have := prod_fact 1 n
    rw [Nat.factorial_one, Nat.cast_one, mul_one] at this
    rw [Nat.add_sub_cancel, show n + 1 = 1 + n by omega, ← this]
    refine Finset.prod_congr rfl fun j _ => ?_
    congr 1
    omega

/-! ## Sums -/

theorem ckSum_spec (m k : Nat) (df : Buf) (z : Nat → ℝ) (n : Nat) : ∀ i, k ≤ i → i + 1 + n ≤ 200 →
    (∀ j, i < j → j < i + 1 + n → df j = some (z j)) → ∀ sum,
      ∃ s sw, i + 1 ≤ s ∧ s ≤ i + 1 + n ∧ ckSum m k df n (i + 1) (powWeight m k i) sum sum =
          .ok (sum + ∑ j ∈ Finset.Ico (i + 1) s, powWeight m k j * z j, sw) ∧
        (s = i + 1 + n ∨ i + 1 < s ∧ |powWeight m k (s - 1) * z (s - 1)| <
          |sum + ∑ j ∈ Finset.Ico (i + 1) s, powWeight m k j * z j| * (1 / 10 ^ 14)) := by
  induction n with
  | zero =>
    intro i _ _ _ sum
    exact ⟨i + 1, sum, le_rfl, by omega, by rw [ckSum, Finset.Ico_self, Finset.sum_empty, add_zero], Or.inl rfl⟩
  | succ n ih =>
    intro i hk hn h sum
    rw [ckSum, read_ok (by omega) (h (i + 1) (by omega) (by omega)), Res.bind, rStep_eq m k i hk]
    simp only
    by_cases hc : |sum - (sum + powWeight m k (i + 1) * z (i + 1))| < |sum + powWeight m k (i + 1) * z (i + 1)| * (1 / 10 ^ 14)
    · rw [if_pos hc]
      refine ⟨i + 2, sum, by omega, by omega, ?_, Or.inr ⟨by omega, ?_⟩⟩
      · rw [Finset.sum_Ico_succ_top le_rfl, Finset.Ico_self, Finset.sum_empty, zero_add]
      · rw [Finset.sum_Ico_succ_top le_rfl, Finset.Ico_self, Finset.sum_empty, zero_add, show i + 2 - 1 = i + 1 by omega]
        refine lt_of_eq_of_lt ?_ hc
        rw [← abs_neg]
        congr 1
        ring
    · rw [if_neg hc]
      obtain ⟨s, sw, h1, h2, h3, h4⟩ := ih (i + 1) (by omega) (by omega) (fun j h1 h2 => h j (by omega) (by omega))
        (sum + powWeight m k (i + 1) * z (i + 1))
      have e : sum + powWeight m k (i + 1) * z (i + 1) + ∑ j ∈ Finset.Ico (i + 1 + 1) s, powWeight m k j * z j =
          sum + ∑ j ∈ Finset.Ico (i + 1) s, powWeight m k j * z j := by
        rw [Finset.sum_eq_sum_Ico_succ_bot (show i + 1 < s by omega), add_assoc]
      rw [e] at h3 h4
      exact ⟨s, sw, by omega, by omega, h3, h4.imp (fun h => by omega) (fun h => ⟨by omega, h.2⟩)⟩

/-- The value that a coefficient may get: a sum that ends with the last term, or after a term that hardly changed it,
or after its second term. -/
def CoefValue (m nm : Nat) (z : Nat → ℝ) (k : Nat) (v : ℝ) : Prop :=
  ∃ s, k < s ∧ s ≤ nm + 1 ∧
    v = (-1) ^ k / (2 ^ m * ((m + k)! : ℝ)) * ∑ i ∈ Finset.Ico k s, powWeight m k i * z i ∧
    (s = nm + 1 ∨ s = k + 2 ∨ k + 2 < s ∧ |powWeight m k (s - 1) * z (s - 1)| <
      |∑ i ∈ Finset.Ico k s, powWeight m k i * z i| * (1 / 10 ^ 14))

theorem ckSum_first (m k nm : Nat) (df : Buf) (z : Nat → ℝ) (hk : k < nm) (hn : nm < 200)
    (h : ∀ j, j ≤ nm → df j = some (z j)) (sw : ℝ) :
    ∃ s sw', k < s ∧ s ≤ nm + 1 ∧ ckSum m k df (nm - k) (k + 1) (rHead m k) (rHead m k * z k) sw =
          .ok (∑ j ∈ Finset.Ico k s, powWeight m k j * z j, sw') ∧
        (s = nm + 1 ∨ s = k + 2 ∨ k + 2 < s ∧ |powWeight m k (s - 1) * z (s - 1)| <
          |∑ j ∈ Finset.Ico k s, powWeight m k j * z j| * (1 / 10 ^ 14)) := by
  obtain ⟨n, hn1⟩ : ∃ n, nm - k = n + 1 := ⟨nm - k - 1, by omega⟩
  rw [hn1, rHead_eq, ckSum, read_ok (by omega) (h (k + 1) (by omega)), Res.bind, rStep_eq m k k le_rfl]
  simp only
  have e2 : ∑ j ∈ Finset.Ico k (k + 2), powWeight m k j * z j =
      powWeight m k k * z k + powWeight m k (k + 1) * z (k + 1) := by
    rw [Finset.sum_Ico_succ_top (by omega), Finset.sum_Ico_succ_top le_rfl, Finset.Ico_self, Finset.sum_empty, zero_add]
  by_cases hc : |sw - (powWeight m k k * z k + powWeight m k (k + 1) * z (k + 1))| <
      |powWeight m k k * z k + powWeight m k (k + 1) * z (k + 1)| * (1 / 10 ^ 14)
  · rw [if_pos hc]
    exact ⟨k + 2, sw, by omega, by omega, by rw [e2], Or.inr (Or.inl rfl)⟩
  · rw [if_neg hc]
    obtain ⟨s, sw', h1, h2, h3, h4⟩ := ckSum_spec m k df z n (k + 1) (by omega) (by omega)
      (fun j h1 h2 => h j (by omega)) (powWeight m k k * z k + powWeight m k (k + 1) * z (k + 1))
    have e : powWeight m k k * z k + powWeight m k (k + 1) * z (k + 1) +
        ∑ j ∈ Finset.Ico (k + 1 + 1) s, powWeight m k j * z j = ∑ j ∈ Finset.Ico k s, powWeight m k j * z j := by
      rw [← Finset.sum_Ico_consecutive _ (show k ≤ k + 2 by omega) (show k + 2 ≤ s by omega), e2]
    rw [e] at h3 h4
    refine ⟨s, sw', by omega, by omega, h3, h4.imp (fun h => by omega) fun h => Or.inr ⟨by omega, h.2⟩⟩

theorem ckLoop_spec (m nm : Nat) (df : Buf) (z : Nat → ℝ) (hn : nm < 200) (h : ∀ j, j ≤ nm → df j = some (z j)) (n : Nat) :
    ∀ (k : Nat) (sw : ℝ) (ck : Buf), k + n = nm →
      ∃ ck', ckLoop m nm df n k (-((-1) ^ k * (1 / 2) ^ m)) sw ck = .ok ck' ∧ (∀ i, i < k → ck' i = ck i) ∧
        (∀ i, nm ≤ i → ck' i = ck i) ∧ ∀ i, k ≤ i → i < nm → ∃ v, ck' i = some v ∧ CoefValue m nm z i v := by
  induction n with
  | zero =>
    intro k sw ck hk
    exact ⟨ck, rfl, fun _ _ => rfl, fun _ _ => rfl, fun i h1 h2 => by omega⟩
  | succ n ih =>
    intro k sw ck hk
    rw [ckLoop, read_ok (by omega) (h k (by omega)), Res.bind]
    obtain ⟨s, sw', h1, h2, h3, h4⟩ := ckSum_first m k nm df z (by omega) hn h sw
    rw [h3, Res.bind, write_ok (by omega), Res.bind]
    simp only
    obtain ⟨ck', h5, h6, h7, h8⟩ := ih (k + 1) sw' (fun j => if j = k then
      some (- -((-1) ^ k * (1 / 2) ^ m) * (∑ j ∈ Finset.Ico k s, powWeight m k j * z j) / fact1 (m + k)) else ck j) (by omega)
    refine ⟨ck', ?_, fun i hi => ?_, fun i hi => ?_, fun i hi1 hi2 => ?_⟩
    · rw [← h5]
      congr 1
      ring
    · rw [h6 i (by omega), if_neg (by omega)]
    · rw [h7 i hi, if_neg (by omega)]
    · by_cases e : i = k
      · subst e
        rw [h6 i (by omega), if_pos rfl]
        refine ⟨_, rfl, s, h1, h2, ?_, h4⟩
        rw [fact1_eq, neg_neg, one_div, inv_pow]
        field_simp
      · exact h8 i (by omega) hi2

/-! ## Theorems -/

/-- C86: every coefficient of a plan is the sum that defines it (Abramowitz and Stegun, 21.7.13), possibly ended early;
the rest are zero; and no array is accessed out of bounds or before it was written. -/
theorem C86_series (m : Nat) (c cv : ℝ) (h1 : 1 / 10 ^ 10 ≤ c) (h2 : c < 174) :
    sdmn m c cv = .nan ∨ ∃ (df : Buf) (z : Nat → ℝ) (ck : Buf), sdmn m c cv = .ok df ∧
      (∀ i, i ≤ ⌊c⌋₊ + 25 → df i = some (z i)) ∧ z (⌊c⌋₊ + 25) = 0 ∧ planCoef m c cv = .ok ck ∧
      (∀ k, k < ⌊c⌋₊ + 25 → ∃ v, ck k = some v ∧ CoefValue m (⌊c⌋₊ + 25) z k v) ∧
      ∀ k, ⌊c⌋₊ + 25 ≤ k → k < 200 → ck k = some 0 := by
  rcases sdmn_safe m c cv h1 h2 with h | ⟨df, hd, hi, hlast⟩
  · exact Or.inl h
  have hc : 0 < c := lt_of_lt_of_le (by positivity) h1
  have hfl : ⌊c⌋₊ < 174 := (Nat.floor_lt hc.le).2 (by exact_mod_cast h2)
  have hnm := numTerms_eq hc.le
  choose! z hz using hi
  rw [hnm] at hz
  right
  obtain ⟨ck, h3, h4, h5, h6⟩ := ckLoop_spec m (⌊c⌋₊ + 25) df z (by omega) hz (⌊c⌋₊ + 25) 0 0
    (fun i => if i < 200 then some 0 else none) (by omega)
  refine ⟨df, z, ck, hd, hz, ?_, ?_, fun k hk => h6 k (by omega) hk, fun k hk1 hk2 => ?_⟩
  · rw [hnm, hz _ le_rfl] at hlast
    exact Option.some.inj hlast
  · unfold planCoef
    rw [hd, Res.bind]
    unfold sckb
    have hmax : (if c ≤ 1 / 10 ^ 10 then 1 / 10 ^ 10 else c) = c := by
      by_cases e : c ≤ 1 / 10 ^ 10
      · rw [if_pos e]; exact le_antisymm h1 e
      · rw [if_neg e]
    simp only [hmax]
    rw [hnm, ← h3]
    congr 1
    ring
  · rw [h5 k hk1, if_pos hk2]

/-- C86: creating a plan accesses arrays only within their bounds, and reads only what was written, for these bandwidths. -/
theorem C86_safe (m : Nat) (c cv : ℝ) (h1 : 1 / 10 ^ 10 ≤ c) (h2 : c < 174) : planCoef m c cv ≠ .fault := by
  rcases C86_series m c cv h1 h2 with h | ⟨df, z, ck, -, -, -, h, -⟩
  · unfold planCoef
    rw [h]
    exact fun h => nomatch h
  · rw [h]
    exact fun h => nomatch h

/-- Not for larger ones: from 174 on, arrays of 200 elements are overrun. -/
theorem C86_overflow_false (m : Nat) (c cv : ℝ) (h : 174 ≤ c) : planCoef m c cv = .fault := by
  have h0 : (0 : ℝ) ≤ c := by linarith
  have hf : 174 ≤ ⌊c⌋₊ := Nat.le_floor (by exact_mod_cast h)
  unfold planCoef sdmn
  simp only
  rw [if_neg (by norm_num; linarith), numTerms_eq h0, if_pos (by omega)]
  rfl

theorem ckSum_zero (m : Nat) (df : Buf) (top : Nat) (h : ∀ j, 2 ≤ j → j < top → df j = some 0) (ht : df top = none) (n : Nat) :
    ∀ i r sw, 2 ≤ i → i ≤ top → top < i + n → ckSum m 1 df n i r 0 sw = .fault := by
  induction n with
  | zero => intro i r sw _ h1 h2; omega
  | succ n ih =>
    intro i r sw h0 h1 h2
    rw [ckSum]
    by_cases e : i = top
    · subst e
      have : df.read i = .fault := by
        unfold Buf.read
        rw [ht]
        simp
      rw [this]
      rfl
    · by_cases hi : i < 200
      · rw [read_ok hi (h i h0 (by omega)), Res.bind]
        simp only [mul_zero, add_zero, abs_zero, zero_mul]
        rw [if_neg (not_lt.2 (abs_nonneg _))]
        exact ih _ _ _ (by omega) (by omega) (by omega)
      · unfold Buf.read
        rw [if_neg hi]
        rfl

theorem powWeight_pos (m i : Nat) : 0 < powWeight m 0 i := by
  unfold powWeight rising
  simp only [Nat.choose_zero_right, Nat.cast_one, mul_one, Finset.range_zero, Finset.prod_empty]
  exact div_pos (by exact_mod_cast Nat.factorial_pos _) (by exact_mod_cast Nat.factorial_pos _)

/-- Nor for tiny ones: below `10⁻¹⁰` an element that was never written is read. -/
theorem C86_unset_false (m : Nat) (c cv : ℝ) (h0 : 0 ≤ c) (h : c < 1 / 10 ^ 10) : planCoef m c cv = .fault := by
  have hfl : ⌊c⌋₊ = 0 := Nat.floor_eq_zero.2 (lt_of_lt_of_le h (by norm_num))
  have hnm : numTerms c = 25 := by rw [numTerms_eq h0, hfl]
  have hnm2 : numTerms (1 / 10 ^ 10) = 25 := by
    rw [numTerms_eq (by positivity), Nat.floor_eq_zero.2 (by norm_num)]
  unfold planCoef sdmn sckb
  simp only
  rw [if_pos h, Res.bind, if_pos h.le, hnm, hnm2]
  generalize hd : (fun i : Nat => if i = 0 then some (1 : ℝ) else if i < 25 then some 0 else none) = df
  have d0 : df 0 = some 1 := by rw [← hd]; rfl
  have dz : ∀ j, 1 ≤ j → j < 25 → df j = some 0 := by
    intro j h1 h2
    rw [← hd]
    simp only
    rw [if_neg (by omega), if_pos h2]
  have dt : df 25 = none := by rw [← hd]; rfl
  rw [ckLoop, read_ok (by omega) d0, Res.bind]
  -- the first coefficient: its sum does not change, and ends after the second term
  have first : ckSum m 0 df 25 (0 + 1) (rHead m 0) (rHead m 0 * 1) 0 = .ok (rHead m 0, rHead m 0) := by
    have hp : 0 < rHead m 0 := by rw [rHead_eq]; exact powWeight_pos m 0
    rw [ckSum, read_ok (by omega) (dz 1 (by omega) (by omega)), Res.bind]
    simp only [mul_one, mul_zero, add_zero, zero_sub, abs_neg]
    rw [if_neg (by
      rw [not_lt]
      have := abs_nonneg (rHead m 0)
      linarith), ckSum, read_ok (by omega) (dz 2 (by omega) (by omega)), Res.bind]
    simp only [mul_zero, add_zero, sub_self, abs_zero]
    rw [if_pos (mul_pos (abs_pos.2 hp.ne') (by positivity))]
  rw [show 25 - 0 = 25 by omega, first, Res.bind, write_ok (by omega), Res.bind, ckLoop,
    read_ok (by omega) (dz (0 + 1) (by omega) (by omega)), Res.bind, mul_zero]
  rw [ckSum_zero m df 25 (fun j h1 h2 => dz j (by omega) h2) dt _ _ _ _ (by omega) (by omega) (by omega)]
  rfl

end
end Sdp.Pswf
