import Verif.Pswf.CoefLemmas
import Mathlib.Data.Nat.Choose.Basic
import Mathlib.Data.Nat.Cast.Field

/-!
# The series of a prolate spheroidal plan (C86)
-/

namespace Sdp.Pswf
noncomputable section
open Nat

/-! ## Specification -/

/-- The weights of the normalisation: up to a factor, the Legendre functions of degree `m + 2 i` at zero. -/
def weight (m i : Nat) : ℝ := (-1) ^ i * ((2 * i + 2 * m)! : ℝ) / (4 ^ i * (i ! : ℝ) * ((i + m)! : ℝ))

/-- `(i + m + 1/2)(i + m + 3/2)…`, `k` factors. -/
def rising (m i k : Nat) : ℝ := ∏ j ∈ Finset.range k, ((i + m + j : ℕ) + 1 / 2 : ℝ)

/-- The weight of the Legendre function of degree `m + 2 i` in the coefficient of `(1 - x²)^k`, up to a factor that
depends on `k` alone. -/
def powWeight (m k i : Nat) : ℝ := ((2 * m + 2 * i)! : ℝ) / ((2 * i)! : ℝ) * (i.choose k : ℝ) * rising m i k

/-! ## Weights -/

theorem prodFold (n : Nat) (f : Nat → ℝ) (r0 : ℝ) :
    (List.range n).foldl (fun (r : ℝ) (j : Nat) => r * f j) r0 = r0 * ∏ j ∈ Finset.range n, f j := by
  induction n with
  | zero => simp
  | succ n ih => rw [List.range_succ, List.foldl_append, ih, Finset.prod_range_succ, ← mul_assoc]; rfl

theorem prod_fact (a n : Nat) : (∏ j ∈ Finset.range n, ((a + 1 + j : ℕ) : ℝ)) * (a ! : ℝ) = ((a + n)! : ℝ) := by
  induction n with
  | zero => simp
  | succ n ih =>
    rw [Finset.prod_range_succ, mul_right_comm, ih, ← Nat.add_assoc, Nat.factorial_succ,
      show a + 1 + n = a + n + 1 by omega]
    push_cast
    ring

theorem fact_ne (n : Nat) : (n ! : ℝ) ≠ 0 := by exact_mod_cast Nat.factorial_ne_zero n

theorem rStart_eq (m : Nat) : rStart m = ((2 * m)! : ℝ) / (m ! : ℝ) := by
  unfold rStart
  rw [prodFold, one_mul, eq_div_iff (fact_ne m), prod_fact, two_mul]

theorem rThree_eq (m : Nat) : rThree m = ((2 * m)! : ℝ) / (m ! : ℝ) := by
  rw [← rStart_eq]
  unfold rThree rStart
  rw [prodFold, prodFold]
  congr 1
  refine Finset.prod_congr rfl fun j _ => ?_
  push_cast
  ring

theorem wt_eq (m i : Nat) : wt m i = weight m i := by
  induction i with
  | zero =>
    rw [wt, rStart_eq]
    unfold weight
    simp
  | succ i ih =>
    rw [wt, ih]
    unfold rNext weight
    have e1 : 2 * (i + 1) + 2 * m = (2 * i + 2 * m + 1) + 1 := by ring
    have e2 : i + 1 + m = (i + m) + 1 := by ring
    rw [e1, e2, Nat.factorial_succ, Nat.factorial_succ, Nat.factorial_succ, Nat.factorial_succ, pow_succ, pow_succ]
    have h1 := fact_ne i
    have h2 := fact_ne (i + m)
    have h3 := fact_ne (2 * i + 2 * m)
    have h4 : (i : ℝ) + 1 ≠ 0 := by positivity
    have h5 : (i : ℝ) + m + 1 ≠ 0 := by positivity
    push_cast
    have e3 : (i : ℝ) + 2 - 1 = i + 1 := by ring
    rw [e3]
    field_simp
    ring

/-! ## Scaling -/

theorem norm_spec (m nm : Nat) (hnm : nm < 200) (hn0 : 0 < nm) (df : Buf) (z : Nat → ℝ)
    (hz : ∀ i, i < nm → df i = some (z i)) (kb : Nat) (hk : kb ≤ nm) (fl fs : ℝ) (hfl : kb = 0 → fl = 0) :
    (norm m nm df kb fl fs = .nan ∧ (fs = 0 ∨ ∃ s, s ≤ nm ∧ (s = nm ∨ kb < s) ∧
      fl / fs * (∑ i ∈ Finset.range kb, wt m i * z i) + ∑ i ∈ Finset.Ico kb s, wt m i * z i = 0)) ∨ ∃ df' s s0, norm m nm df kb fl fs = .ok df' ∧ fs ≠ 0 ∧ s0 ≠ 0 ∧
      (∀ i, i < nm → df' i = some (if i < kb then fl / fs * s0 * z i else s0 * z i)) ∧ (∀ i, nm ≤ i → df' i = df i) ∧
      kb ≤ s ∧ s ≤ nm ∧
      fl / fs * s0 * (∑ i ∈ Finset.range kb, wt m i * z i) + s0 * (∑ i ∈ Finset.Ico kb s, wt m i * z i) = rThree m ∧
      (fl = 0 → kb ≠ nm) ∧
      (s = nm ∨ kb < s ∧ |wt m (s - 1) * z (s - 1)| < |∑ i ∈ Finset.Ico kb s, wt m i * z i| * (1 / 10 ^ 14)) := by
  unfold norm
  rw [read_ok (by omega) (hz 0 hn0), Res.bind]
  obtain ⟨r, hr, hr1, hr2⟩ : ∃ r, sum1 m df (kb - 1) 2 (rStart m) (z 0 * rStart m) = .ok r ∧ r.1 = wt m (kb - 1) ∧
      (kb ≠ 0 → r.2 = ∑ i ∈ Finset.range kb, wt m i * z i) := by
    by_cases h0 : kb = 0
    · rw [h0]
      exact ⟨_, rfl, rfl, fun e => absurd rfl e⟩
    refine ⟨_, sum1_spec m df z (kb - 1) 1 le_rfl (by omega) (fun i h1 h2 => hz i (by omega)) _, ?_, fun h => ?_⟩
    · simp only [show 1 + (kb - 1) - 1 = kb - 1 by omega]
    · simp only [show 1 + (kb - 1) = kb by omega]
      rw [Finset.range_eq_Ico, Finset.sum_eq_sum_Ico_succ_bot (show 0 < kb by omega)]
      rw [mul_comm (z 0)]
      rfl
  rw [hr, Res.bind]
  obtain ⟨s, h1, h2, h3, h4⟩ := sum2_spec m df z (nm - kb) kb (by omega) (fun i h1 h2 => hz i (by omega)) 0
  rw [hr1, h3, Res.bind, zero_add]
  rw [zero_add] at h4
  by_cases hc : fs = 0 ∨ fl * (r.2 / fs) + ∑ i ∈ Finset.Ico kb s, wt m i * z i = 0
  · rw [if_pos hc]
    refine Or.inl ⟨rfl, hc.imp id fun h => ⟨s, by omega, h4.imp (fun e => by omega) fun e => e.1, ?_⟩⟩
    rw [← h]
    congr 1
    by_cases e0 : kb = 0
    · rw [hfl e0]; ring
    · rw [hr2 e0]; ring
  · rw [if_neg hc]
    right
    push Not at hc
    obtain ⟨hfs, hden⟩ := hc
    simp only
    generalize hs0 : rThree m / (fl * (r.2 / fs) + ∑ i ∈ Finset.Ico kb s, wt m i * z i) = s0
    have hr3 : rThree m ≠ 0 := by rw [rThree_eq]; exact div_ne_zero (fact_ne _) (fact_ne _)
    rw [scale_ok _ _ _ _ (by omega) (fun j _ hj => ⟨_, hz j (by omega)⟩), Res.bind, scale_ok _ _ _ _ (by omega)
      (fun j hj1 hj2 => ⟨z j, by rw [if_neg (by omega), hz j (by omega)]⟩)]
    refine ⟨_, s, s0, rfl, hfs, ?_, fun i hi => ?_, fun i hi => ?_, h1, by omega, ?_, fun e1 e2 => ?_, ?_⟩
    · rw [← hs0]
      exact div_ne_zero hr3 hden
    · by_cases e : i < kb
      · rw [if_neg (by omega), if_pos (by omega), if_pos e, hz i hi]
        rfl
      · rw [if_pos (by omega), if_neg (by omega), if_neg e, hz i hi]
        rfl
    · rw [if_neg (by omega), if_neg (by omega)]
    · have e : fl / fs * s0 * (∑ i ∈ Finset.range kb, wt m i * z i) = s0 * (fl * (r.2 / fs)) := by
        by_cases e0 : kb = 0
        · rw [hfl e0]; ring
        · rw [hr2 e0]; ring
      rw [e, ← mul_add, ← hs0, div_mul_cancel₀ _ hden]
    · apply hden
      subst e2
      rw [e1, zero_mul, zero_add, show s = kb by omega, Finset.Ico_self, Finset.sum_empty]
    · exact h4.imp (fun h => by omega) id

/-! ## The solution below and above the matching row -/

theorem row_rowR (m : Nat) (c cv : ℝ) (y : Nat → ℝ) (i : Nat) : Row m c cv y i = rowR (rows m c) cv y i := row_eq m c cv y i

theorem rowR_scale (R : Rows) (cv s : ℝ) (y : Nat → ℝ) (i : Nat) :
    rowR R cv (fun i => s * y i) i = s * rowR R cv y i := by
  unfold rowR
  by_cases e0 : i = 0
  · rw [if_pos e0, if_pos e0]; ring
  · rw [if_neg e0, if_neg e0]; ring

theorem rowR_congr (R : Rows) (cv : ℝ) {y z : Nat → ℝ} (i : Nat) (h1 : y (i + 1) = z (i + 1)) (h2 : y i = z i)
    (h3 : i ≠ 0 → y (i - 1) = z (i - 1)) : rowR R cv y i = rowR R cv z i := by
  unfold rowR
  rw [h1, h2]
  by_cases e0 : i = 0
  · rw [if_pos e0, if_pos e0]
  · rw [if_neg e0, if_neg e0, h3 e0]

theorem rows_a (m : Nat) {c : ℝ} (h : 0 < c) (i : Nat) : (rows m c).a i ≠ 0 := (coefA_pos m (2 * i) (mul_pos h h)).ne'

theorem rows_g (m : Nat) {c : ℝ} (h : 0 < c) (i : Nat) (hi : i ≠ 0) : (rows m c).g i ≠ 0 := by
  obtain ⟨q, rfl⟩ : ∃ q, i = q + 1 := ⟨i - 1, by omega⟩
  have := (coefG_pos m (2 * q) (mul_pos h h)).ne'
  exact this

/-- A solution that starts with zero is zero. -/
theorem rows_zero (R : Rows) (cv : ℝ) (ha : ∀ i, R.a i ≠ 0) (u : Nat → ℝ) (n : Nat) (h : ∀ i < n, rowR R cv u i = 0)
    (h0 : u 0 = 0) : ∀ i ≤ n, u i = 0 := by
  intro i
  induction i using Nat.strong_induction_on with
  | _ i ih =>
    intro hi
    cases i with
    | zero => exact h0
    | succ i =>
      have hr := h i (by omega)
      unfold rowR at hr
      rw [ih i (by omega) (by omega)] at hr
      have h2 : (if i = 0 then 0 else R.g i * u (i - 1)) = 0 := by
        by_cases e : i = 0
        · rw [if_pos e]
        · rw [if_neg e, ih (i - 1) (by omega) (by omega), mul_zero]
      rw [h2, mul_zero, add_zero, add_zero] at hr
      exact (mul_eq_zero.1 hr).resolve_left (ha i)

/-- If there is a solution of all rows, one that misses a single row misses none. -/
theorem rows_match (R : Rows) (cv : ℝ) (ha : ∀ i, R.a i ≠ 0) (hg : ∀ i, i ≠ 0 → R.g i ≠ 0) (nm kb : Nat) (hkb : kb ≤ nm)
    (z v : Nat → ℝ) (hz : ∀ i ≤ nm, i ≠ kb → rowR R cv z i = 0) (hzt : z (nm + 1) = 0)
    (hv : ∀ i ≤ nm, rowR R cv v i = 0) (hvt : v (nm + 1) = 0) (hvk : v kb ≠ 0) : rowR R cv z kb = 0 := by
  -- the Casorati determinant of `v` and `z`
  let D : Nat → ℝ := fun i => v i * z (i + 1) - z i * v (i + 1)
  have key : ∀ i, v i * rowR R cv z i - z i * rowR R cv v i = R.a i * D i - (if i = 0 then 0 else R.g i * D (i - 1)) := by
    intro i
    unfold rowR
    by_cases e : i = 0
    · rw [if_pos e, if_pos e, if_pos e]
      show _ = R.a i * (v i * z (i + 1) - z i * v (i + 1)) - 0
      ring
    · rw [if_neg e, if_neg e, if_neg e]
      show _ = R.a i * (v i * z (i + 1) - z i * v (i + 1)) - R.g i * (v (i - 1) * z (i - 1 + 1) - z (i - 1) * v (i - 1 + 1))
      rw [show i - 1 + 1 = i by omega]
      ring
  have up : ∀ i, i < kb → D i = 0 := by
    intro i
    induction i with
    | zero =>
      intro h
      have := key 0
      rw [hz 0 (by omega) (by omega), hv 0 (by omega), if_pos rfl, mul_zero, mul_zero, sub_zero, sub_zero] at this
      exact (mul_eq_zero.1 this.symm).resolve_left (ha 0)
    | succ i ih =>
      intro h
      have := key (i + 1)
      rw [hz _ (by omega) (by omega), hv _ (by omega), if_neg (by omega), Nat.add_sub_cancel, ih (by omega), mul_zero,
        mul_zero, mul_zero, sub_zero, sub_zero] at this
      exact (mul_eq_zero.1 this.symm).resolve_left (ha (i + 1))
  have down : ∀ j, j ≤ nm - kb → D (nm - j) = 0 := by
    intro j
    induction j with
    | zero =>
      intro _
      show v nm * z (nm + 1) - z nm * v (nm + 1) = 0
      rw [hzt, hvt, mul_zero, mul_zero, sub_zero]
    | succ j ih =>
      intro h
      have := key (nm - j)
      rw [hz _ (by omega) (by omega), hv _ (by omega), if_neg (by omega), ih (by omega), mul_zero,
        mul_zero, mul_zero, sub_zero, zero_sub, zero_eq_neg] at this
      rw [show nm - (j + 1) = nm - j - 1 by omega]
      exact (mul_eq_zero.1 this).resolve_left (hg _ (by omega))
  have hk := key kb
  have hd : D kb = 0 := by
    have := down (nm - kb) le_rfl
    rwa [show nm - (nm - kb) = kb by omega] at this
  rw [hv kb hkb, hd, mul_zero, mul_zero, sub_zero] at hk
  have h2 : (if kb = 0 then 0 else R.g kb * D (kb - 1)) = 0 := by
    by_cases e : kb = 0
    · rw [if_pos e]
    · rw [if_neg e, up (kb - 1) (by omega), mul_zero]
  rw [h2, sub_zero] at hk
  exact (mul_eq_zero.1 hk).resolve_left hvk

/-! ## Expansion -/

theorem numTerms_eq {c : ℝ} (h : 0 ≤ c) : numTerms c = ⌊c⌋₊ + 25 := by
  unfold numTerms trunc
  rw [if_pos h, ← Int.natCast_floor_eq_floor h]
  omega

theorem first_back (m : Nat) (c cv : ℝ) (nm : Nat) :
    Back (rows m c) cv nm nm (fun j => if j = nm then some 0 else none)
      (fun i => if i = nm then 1 / 10 ^ 100 else 0) := by
  have h : (1 : ℝ) / 10 ^ 100 ≠ 0 := by positivity
  refine ⟨fun i hi => if_neg (by omega), ?_, ?_, fun i h1 h2 => by omega, if_pos rfl, fun i h1 h2 => by omega⟩
  · simp only [if_true]; exact h
  · simp only [if_true]; exact h

theorem start_back (m : Nat) (c cv : ℝ) (nm : Nat) (hnm : nm < 200) (hc : 0 < c) :
    ∃ df kb fl y, back (rows m c) cv nm nm (1 / 10 ^ 100) 0 (fun j => if j = nm then some 0 else none) =
      .ok (df, kb, fl) ∧ kb ≤ nm ∧ Back (rows m c) cv nm kb df y ∧ fl = (if kb = 0 ∨ kb = nm then 0 else y kb) ∧
      (kb ≠ 0 → |-(((rows m c).d kb - cv) * y kb + (rows m c).a kb * y (kb + 1)) / (rows m c).g kb| ≤ |fl|) := by
  have h := back_spec (rows m c) cv nm hnm (rows_g m hc) nm _ _ le_rfl (first_back m c cv nm)
  simp only [if_true, if_neg (show ¬ nm + 1 = nm by omega)] at h
  exact h

/-- What `sdmn` does, whatever the values: no fault, and the array is written up to the last term. -/
theorem sdmn_safe (m : Nat) (c cv : ℝ) (h1 : 1 / 10 ^ 10 ≤ c) (h2 : c < 174) :
    sdmn m c cv = .nan ∨ ∃ df, sdmn m c cv = .ok df ∧ (∀ i, i ≤ numTerms c → ∃ x, df i = some x) ∧
      df (numTerms c) = some 0 := by
  have hc : 0 < c := lt_of_lt_of_le (by positivity) h1
  have hfl : ⌊c⌋₊ < 174 := (Nat.floor_lt hc.le).2 (by exact_mod_cast h2)
  have hnm := numTerms_eq hc.le
  unfold sdmn
  simp only
  generalize numTerms c = nm at hnm ⊢
  rw [if_neg (not_lt.2 h1), if_neg (by omega), write_ok (by omega), Res.bind]
  obtain ⟨df, kb, fl, y, hb1, hb2, hb3, hb4, -⟩ := start_back m c cv nm (by omega) hc
  rw [hb1, Res.bind]
  by_cases h0 : kb = 0
  · rw [if_pos h0]
    rcases norm_spec m nm (by omega) (by omega) df y (fun i hi => hb3.stored i (by omega) hi) 0 (by omega) fl 1
      (fun _ => by rw [hb4, if_pos (Or.inl h0)]) with ⟨h, -⟩ | ⟨df', s, s0, h, -, -, h4, h5, -⟩
    · exact Or.inl h
    · refine Or.inr ⟨df', h, fun i hi => ?_, by rw [h5 nm le_rfl]; exact hb3.zero⟩
      by_cases e : i < nm
      · exact ⟨_, h4 i e⟩
      · rw [h5 i (by omega), show i = nm by omega]
        exact ⟨_, hb3.zero⟩
  · rw [if_neg h0]
    have hi0 : ∀ i, kb ≤ i → i ≤ nm → ∃ x, df i = some x := by
      intro i h1 h2
      by_cases e : i = nm
      · exact ⟨_, e ▸ hb3.zero⟩
      · exact ⟨_, hb3.stored i h1 (by omega)⟩
    obtain ⟨d1, fs, ha1, ha2, ha3⟩ := ahead_safe (rows m c) cv kb (by omega) h0 df (hi0 kb le_rfl hb2)
    rw [ha1, Res.bind]
    have hi1 : ∀ i, i ≤ nm → ∃ x, d1 i = some x := by
      intro i h2
      by_cases e : i ≤ kb
      · exact ha3 i e
      · rw [ha2 i (by omega)]
        exact hi0 i (by omega) h2
    choose! z hz using hi1
    rcases norm_spec m nm (by omega) (by omega) d1 z (fun i hi => hz i (by omega)) kb hb2 fl fs
      (fun e => absurd e h0) with ⟨h, -⟩ | ⟨df', s, s0, h, -, -, h4, h5, -, -, -, h9, -⟩
    · exact Or.inl h
    · have hne : kb ≠ nm := fun e => h9 (by rw [hb4, if_pos (Or.inr e)]) e
      refine Or.inr ⟨df', h, fun i hi => ?_, by rw [h5 nm le_rfl, ha2 nm (by omega)]; exact hb3.zero⟩
      by_cases e : i < nm
      · exact ⟨_, h4 i e⟩
      · rw [h5 i (by omega)]
        exact ⟨_, hz i hi⟩

/-- C86.  The expansion: the values are numbers, satisfy the recurrence at every row but one — at all rows if the
characteristic value is exact for the number of terms kept — and their weighted sum, up to a term after which it hardly
changes, is that of the Legendre function of degree and order `m`.  The last value, which is not kept, is `y nm`. -/
theorem C86_expansion_partial (m : Nat) (c cv : ℝ) (h1 : 1 / 10 ^ 10 ≤ c) (h2 : c < 174) (df : Buf)
    (hdf : sdmn m c cv = .ok df)
    (hfwd : ∀ y : Nat → ℝ, y 0 = 1 / 10 ^ 100 → (∀ i, i < ⌊c⌋₊ + 25 → Row m c cv y i = 0) →
      ∀ i, i ≤ ⌊c⌋₊ + 25 → |y i| ≤ 10 ^ 100) :
    ∃ y : Nat → ℝ, (∀ i, i < ⌊c⌋₊ + 25 → df i = some (y i)) ∧ (∀ i, ⌊c⌋₊ + 25 < i → y i = 0) ∧
      (∃ kb, kb < ⌊c⌋₊ + 25 ∧ ∀ i, i ≤ ⌊c⌋₊ + 25 → i ≠ kb → Row m c cv y i = 0) ∧
      (CharValue m c (⌊c⌋₊ + 26) cv → ∀ i, i ≤ ⌊c⌋₊ + 25 → Row m c cv y i = 0) ∧
      ∃ kb s, kb ≤ s ∧ s ≤ ⌊c⌋₊ + 25 ∧ ∑ i ∈ Finset.range s, weight m i * y i = ((2 * m)! : ℝ) / (m ! : ℝ) ∧
        (s = ⌊c⌋₊ + 25 ∨ kb < s ∧
          |weight m (s - 1) * y (s - 1)| < |∑ i ∈ Finset.Ico kb s, weight m i * y i| * (1 / 10 ^ 14)) := by
  have hc : 0 < c := lt_of_lt_of_le (by positivity) h1
  have hfl : ⌊c⌋₊ < 174 := (Nat.floor_lt hc.le).2 (by exact_mod_cast h2)
  have hnm := numTerms_eq hc.le
  rw [show ⌊c⌋₊ + 26 = ⌊c⌋₊ + 25 + 1 by omega]
  unfold sdmn at hdf
  simp only at hdf
  rw [hnm] at hdf
  have hn0 : 0 < ⌊c⌋₊ + 25 := by omega
  have hn1 : ⌊c⌋₊ + 25 < 199 := by omega
  generalize ⌊c⌋₊ + 25 = nm at *
  rw [if_neg (not_lt.2 h1), if_neg (by omega), write_ok (by omega), Res.bind] at hdf
  obtain ⟨d0, kb, fl, y, hb1, hb2, hb3, hb4, -⟩ := start_back m c cv nm (by omega) hc
  rw [hb1, Res.bind] at hdf
  have ha := rows_a m hc
  have hg := rows_g m hc
  -- the values below the matching row
  have hF : ∀ i, i ≤ nm → |fwd (rows m c) cv i| ≤ 10 ^ 100 :=
    hfwd _ rfl fun i _ => by rw [row_rowR]; exact fwd_row _ _ ha i
  obtain ⟨d1, fs, hn, hd1, hdt, hfs⟩ : ∃ d1 fs, norm m nm d1 kb fl fs = .ok df ∧
      (∀ i, i < nm → d1 i = some (if i < kb then fwd (rows m c) cv i else y i)) ∧ d1 nm = some 0 ∧
      (kb ≠ 0 → fs = fwd (rows m c) cv kb) := by
    by_cases h0 : kb = 0
    · rw [if_pos h0] at hdf
      refine ⟨d0, 1, by rw [h0]; exact hdf, fun i hi => ?_, hb3.zero, fun e => absurd h0 e⟩
      rw [if_neg (by omega)]
      exact hb3.stored i (by omega) hi
    · rw [if_neg h0] at hdf
      simp only at hdf
      rw [ahead_spec (rows m c) cv kb (by omega) h0 d0 (fun i hi => hF i (by omega)), Res.bind] at hdf
      refine ⟨_, _, hdf, fun i hi => ?_, ?_, fun _ => rfl⟩
      · show (if i < kb then _ else _) = _
        by_cases e : i < kb
        · rw [if_pos e, if_pos e]
        · rw [if_neg e, if_neg e]
          exact hb3.stored i (by omega) hi
      · show (if nm < kb then _ else _) = _
        rw [if_neg (by omega)]
        exact hb3.zero
  rcases norm_spec m nm (by omega) hn0 d1 _ hd1 kb hb2 fl fs
    (fun e => by rw [hb4, if_pos (Or.inl e)]) with ⟨h, -⟩ | ⟨df', s, s0, h3, hfs0, hs0, h4, -, h6, h7, h8, h9, h10⟩
  · rw [h] at hn
    exact absurd hn (by simp)
  rw [h3] at hn
  have hkn : kb < nm := by
    have : kb ≠ nm := by
      intro e
      exact h9 (by rw [hb4, if_pos (Or.inr e)]) e
    omega
  rw [Res.ok.injEq] at hn
  subst hn
  -- the solution
  let z : Nat → ℝ := fun i => s0 * (if i < kb then fl / fs * fwd (rows m c) cv i else y i)
  have zlo : ∀ i, i < kb → z i = s0 * (fl / fs) * fwd (rows m c) cv i := fun i hi => by
    show s0 * (if i < kb then _ else _) = _
    rw [if_pos hi]; ring
  have zhi : ∀ i, kb ≤ i → z i = s0 * y i := fun i hi => by
    show s0 * (if i < kb then _ else _) = _
    rw [if_neg (by omega)]
  have zkb : kb ≠ 0 → z kb = s0 * (fl / fs) * fwd (rows m c) cv kb := fun h0 => by
    rw [zhi kb le_rfl, ← hfs h0, hb4, if_neg (by omega)]
    field_simp
  have hrows : ∀ i, i ≤ nm → i ≠ kb → rowR (rows m c) cv z i = 0 := by
    intro i hi hik
    rcases Nat.lt_or_ge i kb with h | h
    · rw [rowR_congr (z := fun i => s0 * (fl / fs) * fwd (rows m c) cv i) _ _ i, rowR_scale, fwd_row _ _ ha, mul_zero]
      · by_cases e : i + 1 = kb
        · rw [e]; exact zkb (by omega)
        · exact zlo _ (by omega)
      · exact zlo _ h
      · exact fun _ => zlo _ (by omega)
    · rw [rowR_congr (z := fun i => s0 * y i) _ _ i, rowR_scale, hb3.rows i (by omega) hi, mul_zero]
      · exact zhi _ (by omega)
      · exact zhi _ (by omega)
      · exact fun _ => zhi _ (by omega)
  have hztop : ∀ i, nm < i → z i = 0 := fun i hi => by rw [zhi i (by omega), hb3.top i hi, mul_zero]
  refine ⟨z, fun i hi => ?_, hztop, ⟨kb, hkn, fun i hi hik => by rw [row_rowR]; exact hrows i hi hik⟩, fun hcv i hi => ?_,
    kb, s, h6, h7, ?_, ?_⟩
  · rw [h4 i hi]
    congr 1
    by_cases e : i < kb
    · rw [if_pos e, if_pos e, zlo i e]; ring
    · rw [if_neg e, if_neg e, zhi i (by omega)]
  · rw [row_rowR]
    by_cases hik : i = kb
    · obtain ⟨v, ⟨i0, hv0⟩, hvt, hvr⟩ := hcv
      have hvr : ∀ i, i ≤ nm → rowR (rows m c) cv v i = 0 := fun i hi => by rw [← row_rowR]; exact hvr i (by omega)
      have hv00 : v 0 ≠ 0 := by
        intro e
        have := rows_zero _ _ ha v nm (fun i hi => hvr i (by omega)) e
        by_cases h : i0 ≤ nm
        · exact hv0 (this i0 h)
        · exact hv0 (hvt i0 (by omega))
      have hvk : v kb ≠ 0 := by
        by_cases e : kb = 0
        · rw [e]; exact hv00
        · intro e2
          have hu := rows_zero (rows m c) cv ha (fun i => fwd (rows m c) cv 0 * v i - v 0 * fwd (rows m c) cv i) kb
            (fun i hi => by
              have e1 := rowR_scale (rows m c) cv (fwd (rows m c) cv 0) v i
              have e2 := rowR_scale (rows m c) cv (v 0) (fwd (rows m c) cv) i
              rw [hvr i (by omega), mul_zero] at e1
              rw [fwd_row _ _ ha, mul_zero] at e2
              unfold rowR at e1 e2 ⊢
              by_cases h : i = 0
              · rw [if_pos h] at e1 e2 ⊢
                linear_combination e1 - e2
              · rw [if_neg h] at e1 e2 ⊢
                linear_combination e1 - e2) (by show _ - _ = _; ring) kb le_rfl
          simp only [e2, mul_zero, zero_sub, neg_eq_zero] at hu
          exact hfs0 (by rw [hfs e, (mul_eq_zero.1 hu).resolve_left hv00])
      rw [hik]
      exact rows_match _ _ ha hg nm kb hb2 z v hrows (hztop _ (by omega)) hvr (hvt _ (by omega)) hvk
    · exact hrows i hi hik
  · rw [← rThree_eq, ← h8, Finset.range_eq_Ico, ← Finset.sum_Ico_consecutive _ (Nat.zero_le kb) h6, ← Finset.range_eq_Ico,
      Finset.mul_sum, Finset.mul_sum]
    congr 1
    · refine Finset.sum_congr rfl fun i hi => ?_
      have := Finset.mem_range.1 hi
      rw [← wt_eq, zlo i this, if_pos this]
      ring
    · refine Finset.sum_congr rfl fun i hi => ?_
      have := (Finset.mem_Ico.1 hi).1
      rw [← wt_eq, zhi i this, if_neg (by omega)]
      ring
  · refine h10.imp id fun h => ⟨h.1, ?_⟩
    have e : ∑ i ∈ Finset.Ico kb s, weight m i * z i =
        s0 * ∑ i ∈ Finset.Ico kb s, wt m i * (if i < kb then fwd (rows m c) cv i else y i) := by
      rw [Finset.mul_sum]
      refine Finset.sum_congr rfl fun i hi => ?_
      have := (Finset.mem_Ico.1 hi).1
      rw [← wt_eq, zhi i this, if_neg (by omega)]
      ring
    have hlt := h.2
    rw [if_neg (by omega)] at hlt
    rw [e, ← wt_eq, zhi (s - 1) (by omega), abs_mul s0]
    have e2 : wt m (s - 1) * (s0 * y (s - 1)) = s0 * (wt m (s - 1) * y (s - 1)) := by ring
    rw [e2, abs_mul s0, mul_assoc]
    exact mul_lt_mul_of_pos_left hlt (abs_pos.2 hs0)

end
end Sdp.Pswf
