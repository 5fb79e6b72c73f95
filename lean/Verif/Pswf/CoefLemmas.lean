import Verif.Pswf.Coef
import Verif.Pswf.CharProps

/-!
# The series of a prolate spheroidal plan: lemmas
-/

namespace Sdp.Pswf
noncomputable section

/-! ## Arrays -/

theorem read_ok {b : Buf} {i : Nat} {x : ℝ} (h : i < 200) (hx : b i = some x) : b.read i = .ok x := by
  unfold Buf.read
  rw [if_pos h, hx]

theorem write_ok {b : Buf} {i : Nat} {x : ℝ} (h : i < 200) :
    b.write i x = .ok (fun j => if j = i then some x else b j) := by
  unfold Buf.write
  rw [if_pos h]

theorem scale_ok (s : ℝ) (n : Nat) : ∀ (i : Nat) (b : Buf), i + n ≤ 200 → (∀ j, i ≤ j → j < i + n → ∃ x, b j = some x) →
    Buf.scale s i n b = .ok (fun j => if i ≤ j ∧ j < i + n then (b j).map (s * ·) else b j) := by
  induction n with
  | zero =>
    intro i b _ _
    rw [Buf.scale]
    congr 1
    funext j
    rw [if_neg (by omega)]
  | succ n ih =>
    intro i b hi h
    obtain ⟨x, hx⟩ := h i le_rfl (by omega)
    rw [Buf.scale, read_ok (by omega) hx, Res.bind, write_ok (by omega), Res.bind, ih (i + 1) _ (by omega)]
    · congr 1
      funext j
      by_cases e : j = i
      · subst e
        rw [if_neg (by omega), if_pos rfl, if_pos (by omega), hx]
        rfl
      · by_cases h1 : i + 1 ≤ j ∧ j < i + 1 + n
        · simp only [if_neg e]
          rw [if_pos h1, if_pos (show i ≤ j ∧ j < i + (n + 1) by omega)]
        · rw [if_neg h1, if_neg e, if_neg (by omega)]
    · intro j h1 h2
      obtain ⟨y, hy⟩ := h j (by omega) (by omega)
      exact ⟨y, by rw [if_neg (by omega)]; exact hy⟩

/-! ## From the last row down -/

/-- A row of the recurrence. -/
def rowR (R : Rows) (cv : ℝ) (y : Nat → ℝ) (i : Nat) : ℝ :=
  R.a i * y (i + 1) + (R.d i - cv) * y i + (if i = 0 then 0 else R.g i * y (i - 1))

/-- `y` solves the rows above `k`, and its values from `k` on, but for the last, are stored. -/
structure Back (R : Rows) (cv : ℝ) (nm k : Nat) (df : Buf) (y : Nat → ℝ) : Prop where
  top : ∀ i, nm < i → y i = 0
  last : y nm ≠ 0
  cur : y k ≠ 0
  stored : ∀ i, k ≤ i → i < nm → df i = some (y i)
  zero : df nm = some 0
  rows : ∀ i, k < i → i ≤ nm → rowR R cv y i = 0

theorem back_spec (R : Rows) (cv : ℝ) (nm : Nat) (hnm : nm < 200) (hg : ∀ i, i ≠ 0 → R.g i ≠ 0) (k : Nat) :
    ∀ (df : Buf) (y : Nat → ℝ), k ≤ nm → Back R cv nm k df y →
      ∃ df' kb fl y', back R cv nm k (y k) (y (k + 1)) df = .ok (df', kb, fl) ∧ kb ≤ k ∧ Back R cv nm kb df' y' ∧
        fl = (if kb = 0 ∨ kb = nm then 0 else y' kb) ∧
        (kb ≠ 0 → |-((R.d kb - cv) * y' kb + R.a kb * y' (kb + 1)) / R.g kb| ≤ |fl|) := by
  induction k with
  | zero =>
    intro df y _ h
    exact ⟨df, 0, 0, y, rfl, le_rfl, h, by rw [if_pos (Or.inl rfl)], fun e => absurd rfl e⟩
  | succ k ih =>
    intro df y hk h
    obtain ⟨t, ht⟩ : ∃ t, df (k + 1) = some t := by
      by_cases e : k + 1 = nm
      · exact ⟨0, e ▸ h.zero⟩
      · exact ⟨_, h.stored (k + 1) le_rfl (by omega)⟩
    rw [back]
    rw [read_ok (by omega) ht, Res.bind]
    generalize hf : -((R.d (k + 1) - cv) * y (k + 1) + R.a (k + 1) * y (k + 1 + 1)) / R.g (k + 1) = f
    by_cases hc : |t| < |f|
    · rw [if_pos hc, write_ok (by omega), Res.bind]
      have hf0 : f ≠ 0 := by
        intro e
        rw [e, abs_zero] at hc
        exact absurd hc (not_lt.2 (abs_nonneg t))
      -- the solution continued by `f`
      let z : Nat → ℝ := fun i => if i = k then f else y i
      have zk : z k = f := if_pos rfl
      have zs : ∀ i, k < i → z i = y i := fun i hi => if_neg (by omega)
      have hrow : rowR R cv z (k + 1) = 0 := by
        unfold rowR
        rw [if_neg (by omega), Nat.add_sub_cancel, zk, zs _ (by omega), zs _ (by omega), ← hf]
        have := hg (k + 1) (by omega)
        field_simp
        ring
      have hrows : ∀ i, k < i → i ≤ nm → rowR R cv z i = 0 := by
        intro i h1 h2
        by_cases e : i = k + 1
        · rw [e]; exact hrow
        · rw [← h.rows i (by omega) h2]
          unfold rowR
          rw [zs _ (by omega), zs _ h1]
          by_cases e0 : i = 0
          · rw [if_pos e0, if_pos e0]
          · rw [if_neg e0, if_neg e0, zs _ (by omega)]
      have hb : Back R cv nm k (fun j => if j = k then some f else df j) z := by
        refine ⟨fun i hi => by rw [zs _ (by omega)]; exact h.top i hi, by rw [zs _ (by omega)]; exact h.last,
          by rw [zk]; exact hf0, fun i h1 h2 => ?_, by rw [if_neg (by omega)]; exact h.zero, hrows⟩
        by_cases e : i = k
        · rw [if_pos e, e, zk]
        · rw [if_neg e, zs _ (by omega)]
          exact h.stored i (by omega) h2
      by_cases hl : 10 ^ 100 < |f|
      · rw [if_pos hl, scale_ok _ _ _ _ (by omega) (fun j h1 h2 => ⟨_, hb.stored j h1 (by omega)⟩), Res.bind]
        have hs : (1 : ℝ) / 10 ^ 100 ≠ 0 := by positivity
        generalize (1 : ℝ) / 10 ^ 100 = s at hs ⊢
        have hb2 : Back R cv nm k
            (fun j => if k ≤ j ∧ j < k + (nm - k) then (if j = k then some f else df j).map (s * ·)
              else if j = k then some f else df j) (fun i => s * z i) := by
          refine ⟨fun i hi => by show s * z i = 0; rw [hb.top i hi, mul_zero], mul_ne_zero hs hb.last,
            mul_ne_zero hs hb.cur, fun i h1 h2 => ?_, ?_, fun i h1 h2 => ?_⟩
          · rw [if_pos (by omega), hb.stored i h1 h2]
            rfl
          · rw [if_neg (by omega)]
            exact hb.zero
          · have e : rowR R cv (fun i => s * z i) i = s * rowR R cv z i := by
              unfold rowR
              by_cases e0 : i = 0
              · rw [if_pos e0, if_pos e0]; ring
              · rw [if_neg e0, if_neg e0]; ring
            rw [e, hrows i h1 h2, mul_zero]
        obtain ⟨df', kb, fl, y', h1, h2, h3, h4⟩ := ih _ _ (by omega) hb2
        refine ⟨df', kb, fl, y', ?_, by omega, h3, h4⟩
        rw [← h1]
        congr 1
        · show f * s = s * z k
          rw [zk]; ring
        · show y (k + 1) * s = s * z (k + 1)
          rw [zs _ (by omega)]; ring
      · rw [if_neg hl]
        obtain ⟨df', kb, fl, y', h1, h2, h3, h4⟩ := ih _ _ (by omega) hb
        refine ⟨df', kb, fl, y', ?_, by omega, h3, h4⟩
        rw [← h1, zk, zs _ (by omega)]
    · rw [if_neg hc]
      refine ⟨df, k + 1, t, y, rfl, le_rfl, h, ?_, fun _ => by rw [hf]; exact not_lt.1 hc⟩
      by_cases e : k + 1 = nm
      · rw [if_pos (Or.inr e)]
        have := h.zero
        rw [← e, ht] at this
        exact Option.some.inj this
      · rw [if_neg (by omega)]
        have := h.stored (k + 1) le_rfl (by omega)
        rw [ht] at this
        exact Option.some.inj this

/-! ## From the first row up -/

/-- The solution of the rows from the first on. -/
def fwd (R : Rows) (cv : ℝ) : Nat → ℝ
  | 0 => 1 / 10 ^ 100
  | 1 => -(R.d 0 - cv) / R.a 0 * (1 / 10 ^ 100)
  | i + 2 => -((R.d (i + 1) - cv) * fwd R cv (i + 1) + R.g (i + 1) * fwd R cv i) / R.a (i + 1)

theorem fwd_row (R : Rows) (cv : ℝ) (ha : ∀ i, R.a i ≠ 0) (i : Nat) : rowR R cv (fwd R cv) i = 0 := by
  unfold rowR
  have := ha i
  cases i with
  | zero =>
    rw [if_pos rfl, fwd, fwd]
    field_simp
    ring
  | succ i =>
    rw [if_neg (by omega), Nat.add_sub_cancel, fwd]
    field_simp
    ring

theorem fore_spec (R : Rows) (cv : ℝ) (kb : Nat) (hk : kb ≤ 200) (n : Nat) : ∀ (j : Nat) (df : Buf), 3 ≤ j →
    (∀ i, i < j - 1 + n → |fwd R cv i| ≤ 10 ^ 100) →
      fore R cv kb n j (fwd R cv (j - 3)) (fwd R cv (j - 2)) df =
        .ok (fun i => if j - 1 ≤ i ∧ i < j - 1 + n ∧ i < kb then some (fwd R cv i) else df i, fwd R cv (j - 2 + n)) := by
  induction n with
  | zero =>
    intro j df _ _
    rw [fore]
    congr 2
    funext i
    rw [if_neg (by omega)]
  | succ n ih =>
    intro j df hj h
    obtain ⟨q, rfl⟩ : ∃ q, j = q + 3 := ⟨j - 3, by omega⟩
    have e : -((R.d (q + 1) - cv) * fwd R cv (q + 1) + R.g (q + 1) * fwd R cv q) / R.a (q + 1) = fwd R cv (q + 2) := by
      rw [fwd]
    rw [fore]
    simp only [show q + 3 - 2 = q + 1 by omega, show q + 3 - 3 = q by omega, show q + 3 - 1 = q + 2 by omega, e]
    have hl := not_lt.2 (h (q + 2) (by omega))
    have hih := fun df => ih (q + 3 + 1) df (by omega) fun i hi => h i (by omega)
    simp only [show q + 3 + 1 - 2 = q + 2 by omega, show q + 3 + 1 - 3 = q + 1 by omega,
      show q + 3 + 1 - 1 = q + 3 by omega] at hih
    by_cases hc : q + 3 ≤ kb
    · rw [if_pos hc, write_ok (by omega), Res.bind, if_neg hl, hih, show q + 2 + n = q + 1 + (n + 1) by omega]
      congr 2
      funext i
      by_cases e2 : i = q + 2
      · subst e2
        rw [if_neg (by omega), if_pos rfl, if_pos (by omega)]
      · rw [if_neg e2]
        by_cases h3 : q + 3 ≤ i ∧ i < q + 3 + n ∧ i < kb
        · rw [if_pos h3, if_pos (by omega)]
        · rw [if_neg h3, if_neg (by omega)]
    · rw [if_neg hc, Res.bind, if_neg hl, hih, show q + 2 + n = q + 1 + (n + 1) by omega]
      congr 2
      funext i
      rw [if_neg (by omega), if_neg (by omega)]

theorem ahead_spec (R : Rows) (cv : ℝ) (kb : Nat) (hk : kb ≤ 199) (h0 : kb ≠ 0) (df : Buf)
    (h : ∀ i, i ≤ kb → |fwd R cv i| ≤ 10 ^ 100) :
    ahead R cv kb df = .ok (fun i => if i < kb then some (fwd R cv i) else df i, fwd R cv kb) := by
  unfold ahead
  simp only
  have e0 : fwd R cv 0 = 1 / 10 ^ 100 := rfl
  have e1 : fwd R cv 1 = -(R.d 0 - cv) / R.a 0 * (1 / 10 ^ 100) := rfl
  have e2 : fwd R cv 2 = -((R.d 1 - cv) * fwd R cv 1 + R.g 1 * fwd R cv 0) / R.a 1 := rfl
  rw [← e1, ← e0, ← e2, write_ok (by omega), Res.bind]
  by_cases h1 : kb = 1
  · rw [if_pos h1, h1]
    congr 2
    funext i
    by_cases e : i = 0
    · rw [if_pos e, if_pos (by omega), e]
    · rw [if_neg e, if_neg (by omega)]
  · rw [if_neg h1, write_ok (by omega), Res.bind]
    by_cases h2 : kb = 2
    · rw [if_pos h2, h2]
      congr 2
      funext i
      by_cases e : i = 1
      · rw [if_pos e, if_pos (by omega), e]
      · rw [if_neg e]
        by_cases e : i = 0
        · rw [if_pos e, if_pos (by omega), e]
        · rw [if_neg e, if_neg (by omega)]
    · rw [if_neg h2]
      have := fore_spec R cv kb (by omega) (kb - 1) 3
        (fun j => if j = 1 then some (fwd R cv 1) else if j = 0 then some (fwd R cv 0) else df j) le_rfl
        fun i hi => h i (by omega)
      simp only [show 3 - 3 = 0 by omega, show 3 - 2 = 1 by omega] at this
      rw [this, show 1 + (kb - 1) = kb by omega]
      congr 2
      funext i
      by_cases h3 : 3 - 1 ≤ i ∧ i < 3 - 1 + (kb - 1) ∧ i < kb
      · rw [if_pos h3, if_pos (by omega)]
      · rw [if_neg h3]
        by_cases e : i = 1
        · rw [if_pos e, if_pos (by omega), e]
        · rw [if_neg e]
          by_cases e : i = 0
          · rw [if_pos e, if_pos (by omega), e]
          · rw [if_neg e, if_neg (by omega)]

/-- Whatever the values: the rows up to `kb` leave the array written as far as it was to be. -/
theorem fore_safe (R : Rows) (cv : ℝ) (kb : Nat) (hk : kb < 200) (n : Nat) : ∀ (j : Nat) (f1 f2 : ℝ) (df : Buf), 3 ≤ j →
    j + n ≤ kb + 2 → (∀ i, (i < j - 1 ∨ i = kb) → ∃ x, df i = some x) →
      ∃ df' fs, fore R cv kb n j f1 f2 df = .ok (df', fs) ∧ (∀ i, kb < i → df' i = df i) ∧
        ∀ i, (i < j - 1 + n ∨ i = kb) → ∃ x, df' i = some x := by
  induction n with
  | zero =>
    intro j f1 f2 df _ _ h
    exact ⟨df, f2, rfl, fun _ _ => rfl, h⟩
  | succ n ih =>
    intro j f1 f2 df hj hn h
    rw [fore]
    generalize -((R.d (j - 2) - cv) * f2 + R.g (j - 2) * f1) / R.a (j - 2) = f
    obtain ⟨d1, hd1, hk1, hi1⟩ : ∃ d1, (if j ≤ kb then df.write (j - 1) f else .ok df) = .ok d1 ∧
        (∀ i, kb < i → d1 i = df i) ∧ ∀ i, (i < j ∨ i = kb) → ∃ x, d1 i = some x := by
      by_cases hc : j ≤ kb
      · rw [if_pos hc, write_ok (by omega)]
        refine ⟨_, rfl, fun i hi => if_neg (by omega), fun i hi => ?_⟩
        by_cases e : i = j - 1
        · exact ⟨f, if_pos e⟩
        · simp only [if_neg e]
          exact h i (by omega)
      · rw [if_neg hc]
        exact ⟨_, rfl, fun _ _ => rfl, fun i hi => h i (by omega)⟩
    rw [hd1, Res.bind]
    by_cases hl : 10 ^ 100 < |f|
    · rw [if_pos hl, scale_ok _ _ _ _ (by omega) (fun i _ h2 => hi1 i (by omega)), Res.bind]
      obtain ⟨df', fs, h1, h2, h3⟩ := ih (j + 1) (f2 * (1 / 10 ^ 100)) (f * (1 / 10 ^ 100))
        (fun i => if 0 ≤ i ∧ i < 0 + j then (d1 i).map (1 / 10 ^ 100 * ·) else d1 i) (by omega) (by omega) (by
          intro i hi
          obtain ⟨x, hx⟩ := hi1 i (by omega)
          by_cases e : 0 ≤ i ∧ i < 0 + j
          · rw [if_pos e, hx]; exact ⟨_, rfl⟩
          · rw [if_neg e, hx]; exact ⟨_, rfl⟩)
      refine ⟨df', fs, h1, fun i hi => ?_, fun i hi => h3 i (by omega)⟩
      rw [h2 i hi, if_neg (by omega), hk1 i hi]
    · rw [if_neg hl]
      obtain ⟨df', fs, h1, h2, h3⟩ := ih (j + 1) f2 f d1 (by omega) (by omega) fun i hi => hi1 i (by omega)
      exact ⟨df', fs, h1, fun i hi => by rw [h2 i hi, hk1 i hi], fun i hi => h3 i (by omega)⟩

theorem ahead_safe (R : Rows) (cv : ℝ) (kb : Nat) (hk : kb < 200) (h0 : kb ≠ 0) (df : Buf)
    (h : ∃ x, df kb = some x) : ∃ df' fs, ahead R cv kb df = .ok (df', fs) ∧ (∀ i, kb < i → df' i = df i) ∧
      ∀ i, i ≤ kb → ∃ x, df' i = some x := by
  unfold ahead
  simp only
  obtain ⟨x, hx⟩ := h
  generalize -(R.d 0 - cv) / R.a 0 * (1 / 10 ^ 100) = f2
  rw [write_ok (by omega), Res.bind]
  by_cases h1 : kb = 1
  · rw [if_pos h1]
    refine ⟨_, _, rfl, fun i hi => if_neg (by omega), fun i hi => ?_⟩
    by_cases e : i = 0
    · exact ⟨_, if_pos e⟩
    · exact ⟨x, by rw [if_neg e, show i = kb by omega, hx]⟩
  · rw [if_neg h1, write_ok (by omega), Res.bind]
    by_cases h2 : kb = 2
    · rw [if_pos h2]
      refine ⟨_, _, rfl, fun i hi => by rw [if_neg (by omega), if_neg (by omega)], fun i hi => ?_⟩
      by_cases e : i = 1
      · exact ⟨_, if_pos e⟩
      · simp only [if_neg e]
        by_cases e : i = 0
        · exact ⟨_, if_pos e⟩
        · exact ⟨x, by rw [if_neg e, show i = kb by omega, hx]⟩
    · rw [if_neg h2]
      obtain ⟨df', fs, h3, h4, h5⟩ := fore_safe R cv kb hk (kb - 1) 3 (1 / 10 ^ 100) f2
        (fun j => if j = 1 then some f2 else if j = 0 then some (1 / 10 ^ 100) else df j) le_rfl (by omega) (by
          intro i hi
          by_cases e : i = 1
          · exact ⟨_, if_pos e⟩
          · simp only [if_neg e]
            by_cases e : i = 0
            · exact ⟨_, if_pos e⟩
            · exact ⟨x, by rw [if_neg e, show i = kb by omega, hx]⟩)
      refine ⟨df', fs, h3, fun i hi => ?_, fun i hi => h5 i (by omega)⟩
      rw [h4 i hi, if_neg (by omega), if_neg (by omega)]

/-! ## Sums -/

/-- The weights of the sums. -/
def wt (m : Nat) : Nat → ℝ
  | 0 => rStart m
  | i + 1 => rNext m (i + 2) (wt m i)

theorem sum1_spec (m : Nat) (df : Buf) (z : Nat → ℝ) (n : Nat) : ∀ k, 1 ≤ k → k + n ≤ 200 →
    (∀ i, k ≤ i → i < k + n → df i = some (z i)) → ∀ su,
      sum1 m df n (k + 1) (wt m (k - 1)) su =
        .ok (wt m (k + n - 1), su + ∑ i ∈ Finset.Ico k (k + n), wt m i * z i) := by
  induction n with
  | zero =>
    intro k _ _ _ su
    rw [sum1, Nat.add_zero, Finset.Ico_self, Finset.sum_empty, add_zero]
  | succ n ih =>
    intro k hk hn h su
    obtain ⟨q, rfl⟩ : ∃ q, k = q + 1 := ⟨k - 1, by omega⟩
    have ew : rNext m (q + 1 + 1) (wt m (q + 1 - 1)) = wt m (q + 1) := rfl
    rw [sum1, ew, Nat.add_sub_cancel, read_ok (by omega) (h (q + 1) le_rfl (by omega)), Res.bind]
    have := ih (q + 2) (by omega) (by omega) (fun i h1 h2 => h i (by omega) (by omega)) (su + wt m (q + 1) * z (q + 1))
    rw [show q + 2 - 1 = q + 1 by omega] at this
    rw [this, show q + 2 + n = q + 1 + (n + 1) by omega, add_assoc su,
      Finset.sum_eq_sum_Ico_succ_bot (show q + 1 < q + 1 + (n + 1) by omega)]

/-- The second sum stops at some term: the last, or one after which little changes. -/
theorem sum2_spec (m : Nat) (df : Buf) (z : Nat → ℝ) (n : Nat) : ∀ k, k + n ≤ 200 →
    (∀ i, k ≤ i → i < k + n → df i = some (z i)) → ∀ su,
      ∃ s, k ≤ s ∧ s ≤ k + n ∧
        sum2 m df n (k + 1) (wt m (k - 1)) su su = .ok (su + ∑ i ∈ Finset.Ico k s, wt m i * z i) ∧
        (s = k + n ∨ k < s ∧ |wt m (s - 1) * z (s - 1)| <
          |su + ∑ i ∈ Finset.Ico k s, wt m i * z i| * (1 / 10 ^ 14)) := by
  induction n with
  | zero =>
    intro k _ _ su
    exact ⟨k, le_rfl, le_rfl, by rw [sum2, Finset.Ico_self, Finset.sum_empty, add_zero], Or.inl rfl⟩
  | succ n ih =>
    intro k hn h su
    have ew : (if k + 1 ≠ 1 then rNext m (k + 1) (wt m (k - 1)) else wt m (k - 1)) = wt m k := by
      cases k with
      | zero => rw [if_neg (by omega)]
      | succ q => rw [if_pos (by omega)]; rfl
    rw [sum2]
    simp only
    rw [ew, Nat.add_sub_cancel, read_ok (by omega) (h k le_rfl (by omega)), Res.bind]
    by_cases hc : |su - (su + wt m k * z k)| < |su + wt m k * z k| * (1 / 10 ^ 14)
    · rw [if_pos hc]
      refine ⟨k + 1, by omega, by omega, ?_, Or.inr ⟨by omega, ?_⟩⟩
      · rw [Finset.sum_Ico_succ_top le_rfl, Finset.Ico_self, Finset.sum_empty, zero_add]
      · rw [Nat.add_sub_cancel, Finset.sum_Ico_succ_top le_rfl, Finset.Ico_self, Finset.sum_empty, zero_add]
        refine lt_of_eq_of_lt ?_ hc
        rw [← abs_neg]
        congr 1
        ring
    · rw [if_neg hc]
      obtain ⟨s, h1, h2, h3, h4⟩ := ih (k + 1) (by omega) (fun i h1 h2 => h i (by omega) (by omega)) (su + wt m k * z k)
      rw [Nat.add_sub_cancel] at h3
      have e : su + wt m k * z k + ∑ i ∈ Finset.Ico (k + 1) s, wt m i * z i =
          su + ∑ i ∈ Finset.Ico k s, wt m i * z i := by
        rw [Finset.sum_eq_sum_Ico_succ_bot (show k < s by omega), add_assoc]
      rw [e] at h3 h4
      exact ⟨s, by omega, by omega, h3, h4.imp (fun h => by omega) (fun h => ⟨by omega, h.2⟩)⟩

end
end Sdp.Pswf
