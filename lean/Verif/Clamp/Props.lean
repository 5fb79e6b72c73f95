import Mathlib.Tactic.Linarith
import Mathlib.Tactic.FieldSimp
import Mathlib.Tactic.NormNum
import Verif.Clamp.Spec

/-!
# C34, C35: channel clamping
-/

namespace Sdp.Clamp

variable {K : Type} [Field K] [LinearOrder K] [IsStrictOrderedRing K] [FloorRing K]

theorem eta_lt_iff (u0 du lo hi : K) : eta u0 lo hi < |du| ↔ resolved u0 du lo hi := by
  unfold eta resolved
  rw [div_lt_iff₀ (by norm_num), max_lt_iff, mul_comm |du|]

omit [FloorRing K] in
theorem eta_nonneg (u0 lo hi : K) : 0 ≤ eta u0 lo hi :=
  div_nonneg (le_trans (abs_nonneg _) (le_max_left _ _)) (by norm_num)

omit [FloorRing K] in
theorem resolved_ne {u0 du lo hi : K} (h : resolved u0 du lo hi) : du ≠ 0 := by
  rintro rfl
  have := h.1
  rw [abs_zero, mul_zero] at this
  exact absurd this (not_lt.2 (abs_nonneg _))

/-- The quotient fits an `int` whenever the guard passes. -/
theorem ceil_fits {a du : K} (h : |a| < 2147483645 * |du|) :
    -2147483645 ≤ ⌈a / du⌉ ∧ ⌈a / du⌉ ≤ 2147483645 := by
  have hd : 0 < |du| := by
    rcases (abs_nonneg du).lt_or_eq with h' | h'
    · exact h'
    · rw [← h', mul_zero] at h; exact absurd h (not_lt.2 (abs_nonneg _))
  have hq : |a / du| < 2147483645 := by
    rw [abs_div, div_lt_iff₀ hd]; exact h
  have h1 := (abs_lt.1 hq).1
  have h2 := (abs_lt.1 hq).2
  constructor
  · rw [Int.le_ceil_iff]
    push_cast
    linarith
  · rw [Int.ceil_le]
    push_cast
    exact h2.le

omit [IsStrictOrderedRing K] in
theorem ceil64_ok {x : K} (h1 : -2147483645 ≤ ⌈x⌉) (h2 : ⌈x⌉ ≤ 2147483645) :
    ceil64 x = some ⌈x⌉ := if_pos ⟨by omega, by omega⟩

theorem cast32_ok {x : Int} (h1 : -2147483645 ≤ x) (h2 : x ≤ 2147483645) :
    cast32 x = some x := if_pos ⟨by omega, by omega⟩

theorem ceil_le_pos {a du : K} (hd : 0 < du) (ch : Int) : ⌈a / du⌉ ≤ ch ↔ a ≤ du * ch := by
  rw [Int.ceil_le, div_le_iff₀ hd, mul_comm]

theorem ceil_le_neg {a du : K} (hd : du < 0) (ch : Int) : ⌈a / du⌉ ≤ ch ↔ du * ch ≤ a := by
  rw [Int.ceil_le, div_le_iff_of_neg hd, mul_comm]

/-- The clamped channel range of one row, explicitly. -/
theorem clampAxis_spec (u0 du lo hi : K) (s e : Int) :
    ∃ s' e', clampAxis u0 du lo hi s e = some (s', e') ∧ s' ≤ e' ∧
      ∀ ch : Int, (s' ≤ ch ∧ ch < e') ↔ (s ≤ ch ∧ ch < e ∧ Sel u0 du lo hi ch) := by
  unfold clampAxis
  by_cases hr : resolved u0 du lo hi
  · rw [if_pos ((eta_lt_iff _ _ _ _).2 hr)]
    obtain ⟨a1, a2⟩ := ceil_fits hr.1
    obtain ⟨b1, b2⟩ := ceil_fits hr.2
    rw [ceil64_ok a1 a2, ceil64_ok b1 b2]
    simp only [Option.bind_some]
    rcases lt_or_gt_of_ne (resolved_ne hr) with hd | hd
    · rw [if_neg (not_lt.2 hd.le), if_neg (not_lt.2 hd.le), cast32_ok b1 b2, cast32_ok a1 a2]
      refine ⟨_, _, rfl, le_max_right _ _, fun ch => ?_⟩
      have h1 := ceil_le_neg (a := hi - u0) hd ch
      have h2 := ceil_le_neg (a := lo - u0) hd ch
      have hs : Sel u0 du lo hi ch ↔ (⌈(hi - u0) / du⌉ ≤ ch ∧ ch < ⌈(lo - u0) / du⌉) := by
        rw [h1, ← not_le, h2]
        unfold Sel coord
        constructor
        · rintro (⟨_, h, _⟩ | ⟨_, _, h3, h4⟩ | ⟨h, _⟩)
          · exact absurd h (not_lt.2 hd.le)
          · exact ⟨by linarith, not_le.2 (by linarith)⟩
          · exact absurd hr h
        · rintro ⟨h3, h4⟩
          have h4 := not_le.1 h4
          exact Or.inr (Or.inl ⟨hr, hd, by linarith, by linarith⟩)
      rw [hs]
      simp only [max_le_iff, lt_max_iff, lt_min_iff]
      omega
    · rw [if_pos hd, if_pos hd, cast32_ok b1 b2, cast32_ok a1 a2]
      refine ⟨_, _, rfl, le_max_right _ _, fun ch => ?_⟩
      have h1 := ceil_le_pos (a := hi - u0) hd ch
      have h2 := ceil_le_pos (a := lo - u0) hd ch
      have hs : Sel u0 du lo hi ch ↔ (⌈(lo - u0) / du⌉ ≤ ch ∧ ch < ⌈(hi - u0) / du⌉) := by
        rw [h2, ← not_le, h1]
        unfold Sel coord
        constructor
        · rintro (⟨_, _, h3, h4⟩ | ⟨_, h, _⟩ | ⟨h, _⟩)
          · exact ⟨by linarith, not_le.2 (by linarith)⟩
          · exact absurd h (not_lt.2 hd.le)
          · exact absurd hr h
        · rintro ⟨h3, h4⟩
          have h4 := not_le.1 h4
          exact Or.inl ⟨hr, hd, by linarith, by linarith⟩
      rw [hs]
      simp only [max_le_iff, lt_max_iff, lt_min_iff]
      omega
  · rw [if_neg (fun h => hr ((eta_lt_iff _ _ _ _).1 h))]
    by_cases ho : u0 < lo ∨ hi ≤ u0
    · rw [if_pos ho]
      refine ⟨_, _, rfl, by simp, fun ch => ?_⟩
      have : ¬ Sel u0 du lo hi ch := by
        rintro (⟨h, _⟩ | ⟨h, _⟩ | ⟨_, h3, h4⟩)
        · exact hr h
        · exact hr h
        · rcases ho with h | h
          · exact absurd h3 (not_le.2 h)
          · exact absurd h4 (not_lt.2 h)
      simp only [this, and_false, iff_false]
      simp
    · rw [if_neg ho]
      refine ⟨_, _, rfl, le_max_right _ _, fun ch => ?_⟩
      have ho1 := not_lt.1 (fun h => ho (Or.inl h))
      have ho2 := not_le.1 (fun h => ho (Or.inr h))
      have : Sel u0 du lo hi ch := Or.inr (Or.inr ⟨hr, ho1, ho2⟩)
      simp only [this, and_true, lt_max_iff]
      omega

omit [IsStrictOrderedRing K] [FloorRing K] in
theorem sel_rising {u0 du lo hi : K} (hr : resolved u0 du lo hi) (hd : 0 < du) (ch : Int) :
    Sel u0 du lo hi ch ↔ inRange u0 du lo hi ch := by
  unfold Sel inRange
  constructor
  · rintro (⟨_, _, h⟩ | ⟨_, h, _⟩ | ⟨h, _⟩)
    · exact h
    · exact absurd h (not_lt.2 hd.le)
    · exact absurd hr h
  · exact fun h => Or.inl ⟨hr, hd, h⟩

omit [IsStrictOrderedRing K] [FloorRing K] in
theorem sel_falling {u0 du lo hi : K} (hr : resolved u0 du lo hi) (hd : du < 0) (ch : Int) :
    Sel u0 du lo hi ch ↔ lo < coord u0 du ch ∧ coord u0 du ch ≤ hi := by
  unfold Sel
  constructor
  · rintro (⟨_, h, _⟩ | ⟨_, _, h⟩ | ⟨h, _⟩)
    · exact absurd h (not_lt.2 hd.le)
    · exact h
    · exact absurd hr h
  · exact fun h => Or.inr (Or.inl ⟨hr, hd, h⟩)

omit [IsStrictOrderedRing K] [FloorRing K] in
theorem sel_guarded {u0 du lo hi : K} (hr : ¬ resolved u0 du lo hi) (ch : Int) :
    Sel u0 du lo hi ch ↔ lo ≤ u0 ∧ u0 < hi := by
  unfold Sel
  constructor
  · rintro (⟨h, _⟩ | ⟨h, _⟩ | ⟨_, h⟩)
    · exact absurd h hr
    · exact absurd h hr
    · exact h
  · exact fun h => Or.inr (Or.inr ⟨hr, h⟩)

omit [FloorRing K] in
/-- A zero step is never resolved, and then selection is exactly the documented one. -/
theorem sel_zero {u0 lo hi : K} (ch : Int) :
    Sel u0 0 lo hi ch ↔ inRange u0 0 lo hi ch := by
  rw [sel_guarded fun h => resolved_ne h rfl]
  simp [inRange, coord]

/-- C34, the part that holds as documented: for a coordinate that rises with channel
(or is constant) and a range resolved by the guard, the result is exactly the
documented sub-range; nothing overflows. -/
theorem C34_axis_partial (u0 du lo hi : K) (s e : Int)
    (h : du = 0 ∨ (0 < du ∧ resolved u0 du lo hi)) :
    ∃ s' e', clampAxis u0 du lo hi s e = some (s', e') ∧ s' ≤ e' ∧
      ∀ ch : Int, (s' ≤ ch ∧ ch < e') ↔ (s ≤ ch ∧ ch < e ∧ inRange u0 du lo hi ch) := by
  obtain ⟨s', e', he, hle, hs⟩ := clampAxis_spec u0 du lo hi s e
  refine ⟨s', e', he, hle, fun ch => ?_⟩
  rw [hs ch]
  rcases h with rfl | ⟨hd, hr⟩
  · rw [sel_zero]
  · rw [sel_rising hr hd]

/-- C34 for falling coordinates: the range is closed above and open below. -/
theorem C34_axis_falling (u0 du lo hi : K) (s e : Int) (hd : du < 0)
    (hr : resolved u0 du lo hi) :
    ∃ s' e', clampAxis u0 du lo hi s e = some (s', e') ∧ s' ≤ e' ∧
      ∀ ch : Int, (s' ≤ ch ∧ ch < e') ↔
        (s ≤ ch ∧ ch < e ∧ lo < coord u0 du ch ∧ coord u0 du ch ≤ hi) := by
  obtain ⟨s', e', he, hle, hs⟩ := clampAxis_spec u0 du lo hi s e
  exact ⟨s', e', he, hle, fun ch => by rw [hs ch, sel_falling hr hd]⟩

/-- C34 when the guard does not resolve the step: all or nothing by channel 0, and the
coordinate of a channel differs from that of channel 0 by at most `|channel|` times
the guard. -/
theorem C34_axis_guarded (u0 du lo hi : K) (s e : Int) (hr : ¬ resolved u0 du lo hi) :
    ∃ s' e', clampAxis u0 du lo hi s e = some (s', e') ∧ s' ≤ e' ∧
      (∀ ch : Int, (s' ≤ ch ∧ ch < e') ↔ (s ≤ ch ∧ ch < e ∧ lo ≤ u0 ∧ u0 < hi)) ∧
      ∀ ch : Int, 2147483645 * |coord u0 du ch - u0| ≤
        |(ch : K)| * max |lo - u0| |hi - u0| := by
  obtain ⟨s', e', he, hle, hs⟩ := clampAxis_spec u0 du lo hi s e
  refine ⟨s', e', he, hle, fun ch => by rw [hs ch, sel_guarded hr], fun ch => ?_⟩
  have h1 : ¬ eta u0 lo hi < |du| := fun h => hr ((eta_lt_iff _ _ _ _).1 h)
  have h2 := not_lt.1 h1
  unfold eta at h2
  rw [le_div_iff₀ (by norm_num)] at h2
  have h3 : coord u0 du ch - u0 = du * ch := by unfold coord; ring
  rw [h3, abs_mul]
  have := mul_le_mul_of_nonneg_right h2 (abs_nonneg (ch : K))
  calc (2147483645 : K) * (|du| * |(ch : K)|) = |du| * 2147483645 * |(ch : K)| := by ring
    _ ≤ _ := this
    _ = _ := by ring

/-- The documented statement is false: falling coordinate `3 - ch`, range `[1, 3)`:
channel 0 (coordinate 3, excluded by the documentation) is selected, channel 2
(coordinate 1, included by the documentation) is not. -/
theorem C34_axis_false :
    clampAxis (3 : ℚ) (-1) 1 3 0 10 = some (0, 2) ∧
      ¬ inRange (3 : ℚ) (-1) 1 3 0 ∧ inRange (3 : ℚ) (-1) 1 3 2 := by
  refine ⟨by decide +kernel, ?_, ?_⟩ <;> norm_num [inRange, coord]

/-- The documented statement also fails through the guard alone: coordinate `ch`,
range `[5, 2147483645)`: nothing is selected although channel 5 is in range. -/
theorem C34_guard_false :
    clampAxis (0 : ℚ) 1 5 2147483645 0 10 = some (0, 0) ∧
      inRange (0 : ℚ) 1 5 2147483645 5 := by
  refine ⟨by decide +kernel, ?_⟩; norm_num [inRange, coord]

/-- Non-vacuity of C34_axis_partial and C34_axis_falling. -/
example : resolved (0 : ℚ) (1 / 2) 2 4 ∧ clampAxis (0 : ℚ) (1 / 2) 2 4 1 7 = some (4, 7) ∧
    resolved (3 : ℚ) (-1) 1 3 := by
  refine ⟨?_, by decide +kernel, ?_⟩ <;> norm_num [resolved, abs_lt]

/-! ## The inline version -/

/-- C34 for `sdp_gridder_clamp_channels_inline`: same selection, empty ranges are
reported as `[0, 0)`. -/
theorem C34_inline (c0 u freq0 dfreq lo hi : K) (s e : Int) :
    ∃ s' e', clampInline c0 u freq0 dfreq s e lo hi = some (s', e') ∧
      (∀ ch : Int, (s' ≤ ch ∧ ch < e') ↔
        (s ≤ ch ∧ ch < e ∧ Sel (freq0 * u / c0) (dfreq * u / c0) lo hi ch)) ∧
      (s' < e' ∨ (s' = 0 ∧ e' = 0)) := by
  unfold clampInline
  simp only
  generalize freq0 * u / c0 = u0
  generalize dfreq * u / c0 = du
  have fin : ∀ r : Int × Int,
      (∀ ch : Int, (r.1 ≤ ch ∧ ch < r.2) ↔ (s ≤ ch ∧ ch < e ∧ Sel u0 du lo hi ch)) →
      ∃ s' e', ((some r).bind fun r => if r.2 ≤ r.1 then some ((0 : Int), (0 : Int)) else some r)
          = some (s', e') ∧
        (∀ ch : Int, (s' ≤ ch ∧ ch < e') ↔ (s ≤ ch ∧ ch < e ∧ Sel u0 du lo hi ch)) ∧
        (s' < e' ∨ (s' = 0 ∧ e' = 0)) := by
    intro r h
    by_cases h' : r.2 ≤ r.1
    · refine ⟨0, 0, by simp [h'], fun ch => ?_, Or.inr ⟨rfl, rfl⟩⟩
      rw [← h ch]; omega
    · exact ⟨r.1, r.2, by simp [h'], h, Or.inl (by omega)⟩
  by_cases hr : resolved u0 du lo hi
  · obtain ⟨a1, a2⟩ := ceil_fits hr.1
    obtain ⟨b1, b2⟩ := ceil_fits hr.2
    have he := (eta_lt_iff _ _ _ _).2 hr
    rcases lt_or_gt_of_ne (resolved_ne hr) with hd | hd
    · rw [abs_of_neg hd] at he
      have h0 := eta_nonneg u0 lo hi
      rw [if_neg (by linarith), if_pos (by linarith), ceil64_ok a1 a2, ceil64_ok b1 b2]
      simp only [Option.bind_some]
      apply fin (_, _)
      intro ch
      have h1 := ceil_le_neg (a := hi - u0) hd ch
      have h2 := ceil_le_neg (a := lo - u0) hd ch
      have hs : Sel u0 du lo hi ch ↔ (⌈(hi - u0) / du⌉ ≤ ch ∧ ch < ⌈(lo - u0) / du⌉) := by
        rw [h1, ← not_le, h2, sel_falling hr hd, not_le]
        unfold coord
        constructor
        · rintro ⟨h3, h4⟩; exact ⟨by linarith, by linarith⟩
        · rintro ⟨h3, h4⟩; exact ⟨by linarith, by linarith⟩
      rw [hs]
      simp only [max_le_iff, lt_min_iff]
      omega
    · rw [abs_of_pos hd] at he
      rw [if_pos he, ceil64_ok a1 a2, ceil64_ok b1 b2]
      simp only [Option.bind_some]
      apply fin (_, _)
      intro ch
      have h1 := ceil_le_pos (a := hi - u0) hd ch
      have h2 := ceil_le_pos (a := lo - u0) hd ch
      have hs : Sel u0 du lo hi ch ↔ (⌈(lo - u0) / du⌉ ≤ ch ∧ ch < ⌈(hi - u0) / du⌉) := by
        rw [h2, ← not_le, h1, sel_rising hr hd, not_le]
        unfold inRange coord
        constructor
        · rintro ⟨h3, h4⟩; exact ⟨by linarith, by linarith⟩
        · rintro ⟨h3, h4⟩; exact ⟨by linarith, by linarith⟩
      rw [hs]
      simp only [max_le_iff, lt_min_iff]
      omega
  · have he := not_lt.1 (fun h => hr ((eta_lt_iff _ _ _ _).1 h))
    have h3 := abs_le.1 he
    rw [if_neg (not_lt.2 h3.2), if_neg (not_lt.2 h3.1)]
    by_cases ho : u0 < lo ∨ hi ≤ u0
    · rw [if_pos ho]
      apply fin
      intro ch
      rw [sel_guarded hr]
      have : ¬ (lo ≤ u0 ∧ u0 < hi) := by
        rintro ⟨h4, h5⟩
        rcases ho with h | h
        · exact absurd h4 (not_le.2 h)
        · exact absurd h5 (not_lt.2 h)
      simp only [this, and_false, iff_false]
      simp
    · rw [if_neg ho]
      apply fin
      intro ch
      rw [sel_guarded hr]
      have ho1 := not_lt.1 (fun h => ho (Or.inl h))
      have ho2 := not_le.1 (fun h => ho (Or.inr h))
      simp [ho1, ho2]

/-! ## C35: adjacent ranges -/

/-- C35: with the coordinate step resolved in both calls (or in neither), adjacent
ranges never share a channel and lose none: the union is the selection of the joined
range, when the guard takes the same branch there too. -/
theorem C35_adjacent_partial (u0 du a b c : K) (s e : Int) (hab : a ≤ b) (hbc : b ≤ c)
    (h : (resolved u0 du a b ∧ resolved u0 du b c) ∨
      (¬ resolved u0 du a b ∧ ¬ resolved u0 du b c)) :
    ∃ s1 e1 s2 e2, clampAxis u0 du a b s e = some (s1, e1) ∧
      clampAxis u0 du b c s e = some (s2, e2) ∧
      (∀ ch : Int, ¬ ((s1 ≤ ch ∧ ch < e1) ∧ (s2 ≤ ch ∧ ch < e2))) ∧
      (∃ s3 e3, clampAxis u0 du a c s e = some (s3, e3) ∧
        ∀ ch : Int, (s3 ≤ ch ∧ ch < e3) ↔ ((s1 ≤ ch ∧ ch < e1) ∨ (s2 ≤ ch ∧ ch < e2))) := by
  obtain ⟨s1, e1, h1, -, hs1⟩ := clampAxis_spec u0 du a b s e
  obtain ⟨s2, e2, h2, -, hs2⟩ := clampAxis_spec u0 du b c s e
  obtain ⟨s3, e3, h3, -, hs3⟩ := clampAxis_spec u0 du a c s e
  refine ⟨s1, e1, s2, e2, h1, h2, fun ch => ?_, s3, e3, h3, fun ch => ?_⟩
  · rw [hs1 ch, hs2 ch]
    rintro ⟨⟨_, _, h4⟩, _, _, h5⟩
    rcases h with ⟨r1, r2⟩ | ⟨r1, r2⟩
    · rcases lt_or_gt_of_ne (resolved_ne r1) with hd | hd
      · rw [sel_falling r1 hd] at h4
        rw [sel_falling r2 hd] at h5
        exact absurd h5.1 (not_lt.2 h4.2)
      · rw [sel_rising r1 hd] at h4
        rw [sel_rising r2 hd] at h5
        exact absurd h4.2 (not_lt.2 h5.1)
    · rw [sel_guarded r1] at h4
      rw [sel_guarded r2] at h5
      exact absurd h4.2 (not_lt.2 h5.1)
  · rw [hs1 ch, hs2 ch, hs3 ch]
    have key : Sel u0 du a c ch ↔ (Sel u0 du a b ch ∨ Sel u0 du b c ch) := by
      rcases h with ⟨r1, r2⟩ | ⟨r1, r2⟩
      · have r3 : resolved u0 du a c := ⟨r1.1, r2.2⟩
        rcases lt_or_gt_of_ne (resolved_ne r1) with hd | hd
        · rw [sel_falling r1 hd, sel_falling r2 hd, sel_falling r3 hd]
          constructor
          · rintro ⟨h4, h5⟩
            rcases le_or_gt (coord u0 du ch) b with h6 | h6
            · exact Or.inl ⟨h4, h6⟩
            · exact Or.inr ⟨h6, h5⟩
          · rintro (⟨h4, h5⟩ | ⟨h4, h5⟩)
            · exact ⟨h4, h5.trans hbc⟩
            · exact ⟨lt_of_le_of_lt hab h4, h5⟩
        · rw [sel_rising r1 hd, sel_rising r2 hd, sel_rising r3 hd]
          unfold inRange
          constructor
          · rintro ⟨h4, h5⟩
            rcases lt_or_ge (coord u0 du ch) b with h6 | h6
            · exact Or.inl ⟨h4, h6⟩
            · exact Or.inr ⟨h6, h5⟩
          · rintro (⟨h4, h5⟩ | ⟨h4, h5⟩)
            · exact ⟨h4, lt_of_lt_of_le h5 hbc⟩
            · exact ⟨hab.trans h4, h5⟩
      · have r3 : ¬ resolved u0 du a c := by
          intro r3
          by_cases h4 : |b - u0| < 2147483645 * |du|
          · exact r1 ⟨r3.1, h4⟩
          · have h4 := not_lt.1 h4
            rcases abs_cases (b - u0) with ⟨h5, h6⟩ | ⟨h5, h6⟩
            · have := r3.2
              rw [abs_of_nonneg (by linarith)] at this
              linarith
            · have := r3.1
              rw [abs_of_nonpos (by linarith)] at this
              linarith
        rw [sel_guarded r1, sel_guarded r2, sel_guarded r3]
        constructor
        · rintro ⟨h4, h5⟩
          rcases lt_or_ge u0 b with h6 | h6
          · exact Or.inl ⟨h4, h6⟩
          · exact Or.inr ⟨h6, h5⟩
        · rintro (⟨h4, h5⟩ | ⟨h4, h5⟩)
          · exact ⟨h4, lt_of_lt_of_le h5 hbc⟩
          · exact ⟨hab.trans h4, h5⟩
    rw [key]
    constructor
    · rintro ⟨h4, h5, h6 | h6⟩
      · exact Or.inl ⟨h4, h5, h6⟩
      · exact Or.inr ⟨h4, h5, h6⟩
    · rintro (⟨h4, h5, h6⟩ | ⟨h4, h5, h6⟩)
      · exact ⟨h4, h5, Or.inl h6⟩
      · exact ⟨h4, h5, Or.inr h6⟩

/-- The header's promise "two calls where any min is equal to any max will never
return overlapping channel ranges" (h:137-141) is false: coordinate `ch`, ranges
`[-10^10, 10)` and `[10, 20)`: the first call is not resolved and keeps all channels,
the second keeps channels 10..19. -/
theorem C35_adjacent_false :
    clampAxis (0 : ℚ) 1 (-10000000000) 10 0 100 = some (0, 100) ∧
      clampAxis (0 : ℚ) 1 10 20 0 100 = some (10, 20) ∧
      clampInline (1 : ℚ) 1 0 1 0 100 (-10000000000) 10 = some (0, 100) ∧
      clampInline (1 : ℚ) 1 0 1 0 100 10 20 = some (10, 20) := by
  refine ⟨?_, ?_, ?_, ?_⟩ <;> decide +kernel

/-- Non-vacuity of C35_adjacent_partial. -/
example : resolved (1 : ℚ) (1 / 4) 0 2 ∧ resolved (1 : ℚ) (1 / 4) 2 3 := by
  constructor <;> norm_num [resolved, abs_lt]

end Sdp.Clamp
