import Mathlib.Tactic.Ring
import Mathlib.Algebra.BigOperators.Ring.Finset
import Mathlib.Tactic.FieldSimp
import Mathlib.Tactic.Linarith
import Mathlib.Data.List.Sort
import Mathlib.Algebra.Order.AbsoluteValue.Basic
import Verif.Flagger.Spec
import Verif.Flagger.Props2

/-!
# C100: which samples the flagger flags
-/

set_option linter.unusedSectionVars false

namespace Sdp.Flagger
section
variable {K : Type} [Field K] [LinearOrder K] [IsStrictOrderedRing K]

/-- A function that sorts. -/
structure Sorts (sort : List K → List K) : Prop where
  perm : ∀ l, (sort l).Perm l
  ordered : ∀ l, (sort l).Pairwise (· ≤ ·)

theorem Sorts.length {sort : List K → List K} (h : Sorts sort) (l : List K) : (sort l).length = l.length :=
  (h.perm l).length_eq

/-- Place `k` of a list in order. -/
theorem rank_of_sorted (l : List K) (hl : l.Pairwise (· ≤ ·)) (k : Nat) (hk : k < l.length) : AtRank l k (l[k]) := by
  have mono : ∀ i j (hi : i < l.length) (hj : j < l.length), i ≤ j → l[i] ≤ l[j] := by
    intro i j hi hj h
    rcases Nat.lt_or_eq_of_le h with h | h
    · exact List.pairwise_iff_getElem.1 hl i j hi hj h
    · subst h; exact le_rfl
  refine ⟨List.getElem_mem hk, ?_, ?_⟩
  · have e : ∀ p : K → Bool, l.countP p = (l.take k).countP p + (l.drop k).countP p := fun p => by
      rw [← List.countP_append, List.take_append_drop]
    rw [e]
    have h1 : (l.take k).countP (fun x => decide (x < l[k])) ≤ k :=
      (List.countP_le_length).trans (by simp)
    have h2 : (l.drop k).countP (fun x => decide (x < l[k])) = 0 := by
      rw [List.countP_eq_zero]
      intro x hx
      obtain ⟨i, hi, rfl⟩ := List.mem_iff_getElem.1 hx
      rw [List.getElem_drop]
      simp only [decide_eq_true_eq, not_lt]
      exact mono _ _ _ _ (by omega)
    omega
  · have e : ∀ p : K → Bool, l.countP p = (l.take (k + 1)).countP p + (l.drop (k + 1)).countP p := fun p => by
      rw [← List.countP_append, List.take_append_drop]
    rw [e]
    have h1 : (l.take (k + 1)).countP (fun x => decide (x ≤ l[k])) = k + 1 := by
      rw [List.countP_eq_length.2]
      · simp; omega
      · intro x hx
        obtain ⟨i, hi, rfl⟩ := List.mem_iff_getElem.1 hx
        rw [List.getElem_take]
        simp only [decide_eq_true_eq]
        rw [List.length_take] at hi
        exact mono _ _ _ _ (by omega)
    omega

theorem AtRank.perm {l l' : List K} (h : l.Perm l') {k : Nat} {v : K} (hv : AtRank l k v) : AtRank l' k v :=
  ⟨h.mem_iff.1 hv.1, by rw [← h.countP_eq]; exact hv.2.1, by rw [← h.countP_eq]; exact hv.2.2⟩

/-- There is only one number at a place. -/
theorem AtRank.unique {l : List K} {k : Nat} {v w : K} (hv : AtRank l k v) (hw : AtRank l k w) : v = w := by
  have key : ∀ {v w : K}, AtRank l k v → AtRank l k w → ¬ v < w := by
    intro v w hv hw h
    have : l.countP (fun x => decide (x ≤ v)) ≤ l.countP (fun x => decide (x < w)) :=
      List.countP_mono_left fun x _ hx => by
        simp only [decide_eq_true_eq] at hx ⊢
        exact hx.trans_lt h
    have h1 := hv.2.2
    have h2 := hw.2.1
    omega
  exact le_antisymm (not_lt.1 (key hw hv)) (not_lt.1 (key hv hw))

theorem getD_rank {sort : List K → List K} (hs : Sorts sort) (l : List K) (k : Nat) (hk : k < l.length) (j : K) :
    AtRank l k ((sort l).getD k j) := by
  have hk' : k < (sort l).length := by rw [hs.length]; exact hk
  have : (sort l).getD k j = (sort l)[k] := by
    simp only [List.getD_eq_getElem?_getD, List.getElem?_eq_getElem hk', Option.getD_some]
  rw [this]
  exact (rank_of_sorted _ (hs.ordered l) k hk').perm (hs.perm l)

theorem mid_lt {n : Nat} (h : 2 ≤ n) : mid n < n := by unfold mid; omega

/-- `median_calc` of sorted numbers. -/
theorem median_rank {sort : List K → List K} (hs : Sorts sort) (l : List K) (h : 2 ≤ l.length) (j : K) :
    AtRank l (mid l.length) (medianCalc j (sort l)) := by
  unfold medianCalc
  rw [hs.length]
  exact getD_rank hs l _ (mid_lt h) j

/-- `median_dev_calc` of sorted numbers. -/
theorem dev_rank {sort : List K → List K} (hs : Sorts sort) (l : List K) (h : 2 ≤ l.length) (j x : K) :
    AtRank (l.map fun y => |y - x|) (mid l.length) (medianDevCalc (exact sort) j (sort l) x) := by
  unfold medianDevCalc
  show AtRank _ _ ((sort ((sort l).map fun y => |y - x|)).getD (mid (sort l).length) j)
  rw [hs.length]
  have := getD_rank hs ((sort l).map fun y => |y - x|) (mid l.length)
    (by rw [List.length_map, hs.length]; exact mid_lt h) j
  exact this.perm ((hs.perm l).map _)

/-- The two comparisons with a threshold. -/
theorem outside_iff (sort : List K → List K) (middle dev thr v : K) :
    outside (exact sort) (zscore (exact sort) middle dev v) thr = true ↔ Far middle dev thr v := by
  unfold outside zscore Far
  simp only [exact, Bool.or_eq_true, decide_eq_true_eq, Bool.and_eq_true, Bool.not_eq_true', decide_eq_false_iff_not]
  by_cases hd : dev = 0
  · by_cases hv : v = middle <;> simp [hd, hv]
  · simp [hd]

/-! ## The run -/

theorem sampled_length (P : Params K) (f : Nat → K) : (sampled P f).length = nSamples P := by simp [sampled, nSamples]

variable (sort : List K → List K) (P : Params K) (m : Nat → Nat → K)

/-- The numbers that the code computes. -/
def cMid (t : Nat) : K := medianCalc 0 (sort (sampled P (m t)))
def cDev (t : Nat) : K := medianDevCalc (exact sort) 0 (sort (sampled P (m t))) (cMid sort P m t)
def cHmid (t : Nat) : K := medianCalc 0 (sort (recent (min (t + 1) P.hist) t (cMid sort P m)))
def cHdev (t : Nat) : K :=
  medianDevCalc (exact sort) 0 (sort (recent (min (t + 1) P.hist) t (cMid sort P m))) (cHmid sort P m t)
def cVmid (t : Nat) : K := medianCalc 0 (sort (sampled P fun c => |drift P m t c|))
def cVdev (t : Nat) : K := medianDevCalc (exact sort) 0 (sort (sampled P fun c => |drift P m t c|)) (cMid sort P m t)

theorem sane (hs : Sorts sort) (h1 : 0 < P.step) (h2 : 2 ≤ P.nChannels / P.step) (h3 : 2 ≤ P.hist) :
    Sane (exact sort) P := ⟨hs.length, h2, h1, h3⟩

/-- They are the levels: middle at rank `mid`, and changes measured from the middle magnitude. -/
def cLevels (hs : Sorts sort) (h2 : 2 ≤ P.nChannels / P.step) (h3 : 2 ≤ P.hist) :
    Levels P m Flagger.mid (cMid sort P m) where
  mid := cMid sort P m
  dev := cDev sort P m
  mid_is t _ := by
    have := median_rank hs (sampled P (m t)) (by rw [sampled_length]; exact h2) 0
    rw [sampled_length] at this
    exact this
  dev_is t _ := by
    have := dev_rank hs (sampled P (m t)) (by rw [sampled_length]; exact h2) 0 (cMid sort P m t)
    rw [sampled_length] at this
    exact this
  hmid := cHmid sort P m
  hdev := cHdev sort P m
  hmid_is t h0 _ := by
    have hl : (recent (min (t + 1) P.hist) t (cMid sort P m)).length = min (t + 1) P.hist := by simp [recent]
    have := median_rank hs (recent (min (t + 1) P.hist) t (cMid sort P m)) (by rw [hl]; omega) 0
    rw [hl] at this
    exact this
  hdev_is t h0 _ := by
    have hl : (recent (min (t + 1) P.hist) t (cMid sort P m)).length = min (t + 1) P.hist := by simp [recent]
    have := dev_rank hs (recent (min (t + 1) P.hist) t (cMid sort P m)) (by rw [hl]; omega) 0 (cHmid sort P m t)
    rw [hl] at this
    exact this
  vmid := cVmid sort P m
  vdev := cVdev sort P m
  vmid_is t _ _ := by
    have := median_rank hs (sampled P fun c => |drift P m t c|) (by rw [sampled_length]; exact h2) 0
    rw [sampled_length] at this
    exact this
  vdev_is t _ _ := by
    have := dev_rank hs (sampled P fun c => |drift P m t c|) (by rw [sampled_length]; exact h2) 0 (cMid sort P m t)
    rw [sampled_length] at this
    exact this

theorem drift_one (c : Nat) : drift P m 1 c = change m 1 c := by simp [drift]

theorem drift_succ (t c : Nat) (ht : 1 ≤ t) :
    drift P m (t + 1) c = P.alpha * change m (t + 1) c + (1 - P.alpha) * drift P m t c := by
  unfold drift
  rw [Finset.sum_Ico_succ_top (by omega), mul_add, Finset.mul_sum]
  have e1 : t + 1 - 1 = (t - 1) + 1 := by omega
  have e2 : ∑ s ∈ Finset.Ico 2 (t + 1), P.alpha * (1 - P.alpha) ^ (t + 1 - s) * change m s c =
      ∑ s ∈ Finset.Ico 2 (t + 1), (1 - P.alpha) * (P.alpha * (1 - P.alpha) ^ (t - s) * change m s c) := by
    refine Finset.sum_congr rfl fun s hs => ?_
    have : t + 1 - s = (t - s) + 1 := by have := Finset.mem_Ico.1 hs; omega
    rw [this, pow_succ]
    ring
  rw [e1, e2, pow_succ, Nat.sub_self, pow_zero]
  ring

/-- What methods 1 and 3 write. -/
theorem mem_method13 (hist : Nat → K) (score : Nat → K) (t : Nat) (hh : ∀ k < t, hist k = cMid sort P m k) (x : Nat × Nat) :
    x ∈ (method13 (exact sort) P (fun _ => 0) m t ⟨hist, score⟩).1 ↔ x.1 = t ∧ ∃ c₀ < P.nChannels, Beside P 1 c₀ x.2 ∧
      (Far (cMid sort P m t) (cDev sort P m t) P.thrMag (m t c₀) ∨
        (0 < t ∧ Far (cHmid sort P m t) (cHdev sort P m t) P.thrBroad (cMid sort P m t))) := by
  have hr : (List.range (min (t + 1) P.hist)).map (fun tt => if t - tt = t then cMid sort P m t else hist (t - tt)) =
      recent (min (t + 1) P.hist) t (cMid sort P m) := by
    unfold recent
    refine List.map_congr_left fun i hi => ?_
    by_cases e : t - i = t
    · rw [if_pos e, e]
    · rw [if_neg e]; exact hh _ (by omega)
  have e : (method13 (exact sort) P (fun _ => 0) m t ⟨hist, score⟩).1 = (List.range P.nChannels).flatMap fun c =>
      if outside (exact sort) (zscore (exact sort) (cMid sort P m t) (cDev sort P m t) (m t c)) P.thrMag ||
        (outside (exact sort) (zscore (exact sort) (cHmid sort P m t) (cHdev sort P m t) (cMid sort P m t)) P.thrBroad &&
          decide (t ≠ 0)) then (windowChannels P c).map fun c' => (t, c') else [] := by
    have h0 : (method13 (exact sort) P (fun _ => 0) m t ⟨hist, score⟩).1 = (List.range P.nChannels).flatMap fun c =>
      if outside (exact sort) (zscore (exact sort) (cMid sort P m t) (cDev sort P m t) (m t c)) P.thrMag ||
        (outside (exact sort) (zscore (exact sort)
          (medianCalc 0 (sort ((List.range (min (t + 1) P.hist)).map (fun tt => if t - tt = t then cMid sort P m t else hist (t - tt)))))
          (medianDevCalc (exact sort) 0
            (sort ((List.range (min (t + 1) P.hist)).map (fun tt => if t - tt = t then cMid sort P m t else hist (t - tt))))
            (medianCalc 0 (sort ((List.range (min (t + 1) P.hist)).map (fun tt => if t - tt = t then cMid sort P m t else hist (t - tt))))))
          (cMid sort P m t)) P.thrBroad &&
          decide (t ≠ 0)) then (windowChannels P c).map fun c' => (t, c') else [] := rfl
    rw [h0, hr]
    rfl
  rw [e]
  simp only [List.mem_flatMap, List.mem_range]
  constructor
  · rintro ⟨c₀, hc, hx⟩
    split at hx
    · next h =>
      obtain ⟨c', h1, rfl⟩ := List.mem_map.1 hx
      refine ⟨rfl, c₀, hc, (C12_window_exact P c₀ c' hc).1 h1, ?_⟩
      simp only [Bool.or_eq_true, Bool.and_eq_true, decide_eq_true_eq] at h
      rcases h with h | ⟨h, h0⟩
      · exact Or.inl ((outside_iff sort _ _ _ _).1 h)
      · exact Or.inr ⟨by omega, (outside_iff sort _ _ _ _).1 h⟩
    · exact absurd hx (by simp)
  · rintro ⟨h1, c₀, hc, hb, h⟩
    refine ⟨c₀, hc, ?_⟩
    rw [if_pos]
    · exact List.mem_map.2 ⟨x.2, (C12_window_exact P c₀ x.2 hc).2 hb, by rw [← h1]⟩
    · simp only [Bool.or_eq_true, Bool.and_eq_true, decide_eq_true_eq]
      rcases h with h | ⟨h0, h⟩
      · exact Or.inl ((outside_iff sort _ _ _ _).2 h)
      · exact Or.inr ⟨(outside_iff sort _ _ _ _).2 h, by omega⟩

/-- What method 2 writes. -/
theorem mem_method2 (h1 : 0 < P.step) (hist : Nat → K) (score : Nat → K) (t : Nat) (ht : 0 < t)
    (hsc : 2 ≤ t → ∀ c < P.nChannels, score c = drift P m (t - 1) c) (x : Nat × Nat) :
    (x ∈ (method2 (exact sort) P (fun _ => 0) m t ⟨hist, score⟩ (cMid sort P m t)).1 ↔
      (x.1 = t ∨ x.1 = t - 1) ∧ ∃ c₀ < P.nChannels, Beside P 1 c₀ x.2 ∧
        Far (cVmid sort P m t) (cVdev sort P m t) P.thrVar |drift P m t c₀|) ∧
    ∀ c < P.nChannels, (method2 (exact sort) P (fun _ => 0) m t ⟨hist, score⟩ (cMid sort P m t)).2.score c = drift P m t c := by
  have hn : ∀ c < P.nChannels, newScore (exact sort) P m t score c = drift P m t c := by
    intro c hc
    unfold newScore
    rw [if_pos hc]
    by_cases h1 : t = 1
    · subst h1
      rw [if_pos rfl, drift_one]
      rfl
    · rw [if_neg h1, hsc (by omega) c hc]
      obtain ⟨u, rfl⟩ : ∃ u, t = u + 1 := ⟨t - 1, by omega⟩
      rw [drift_succ P m u c (by omega)]
      rfl
  refine ⟨?_, hn⟩
  have hsam : (List.range (nSamples P)).map (fun s => |newScore (exact sort) P m t score (s * P.step)|) =
      sampled P fun c => |drift P m t c| := by
    unfold sampled
    refine List.map_congr_left fun s hs => ?_
    rw [hn]
    have h2 : s + 1 ≤ P.nChannels / P.step := List.mem_range.1 hs
    have h3 := (Nat.le_div_iff_mul_le h1).1 h2
    nlinarith
  have e : (method2 (exact sort) P (fun _ => 0) m t ⟨hist, score⟩ (cMid sort P m t)).1 =
      (List.range P.nChannels).flatMap fun c =>
        if outside (exact sort) (zscore (exact sort) (cVmid sort P m t) (cVdev sort P m t)
          |newScore (exact sort) P m t score c|) P.thrVar then
          (windowChannels P c).flatMap fun c' => [(t, c'), (t - 1, c')] else [] := by
    unfold cVmid cVdev
    rw [← hsam]
    rfl
  rw [e]
  simp only [List.mem_flatMap, List.mem_range]
  constructor
  · rintro ⟨c₀, hc, hx⟩
    split at hx
    · next h =>
      obtain ⟨c', h1, hx⟩ := List.mem_flatMap.1 hx
      rw [hn c₀ hc] at h
      have hb := (C12_window_exact P c₀ c' hc).1 h1
      have hf := (outside_iff sort _ _ _ _).1 h
      simp only [List.mem_cons, List.not_mem_nil, or_false] at hx
      rcases hx with rfl | rfl
      · exact ⟨Or.inl rfl, c₀, hc, hb, hf⟩
      · exact ⟨Or.inr rfl, c₀, hc, hb, hf⟩
    · exact absurd hx (by simp)
  · rintro ⟨h1, c₀, hc, hb, h⟩
    refine ⟨c₀, hc, ?_⟩
    rw [if_pos]
    · refine List.mem_flatMap.2 ⟨x.2, (C12_window_exact P c₀ x.2 hc).2 hb, ?_⟩
      rcases h1 with h1 | h1
      · rw [← h1]; simp
      · rw [← h1]; simp
    · rw [hn c₀ hc]; exact (outside_iff sort _ _ _ _).2 h

/-- After `n` times. -/
theorem run_exact (h1 : 0 < P.step) (n : Nat) :
    (∀ k < n, (runTimes (exact sort) P (fun _ _ => 0) m ⟨fun _ => 0, fun _ => 0⟩ n).2.hist k = cMid sort P m k) ∧
    (2 ≤ n → ∀ c < P.nChannels,
      (runTimes (exact sort) P (fun _ _ => 0) m ⟨fun _ => 0, fun _ => 0⟩ n).2.score c = drift P m (n - 1) c) ∧
    ∀ x : Nat × Nat, x ∈ (runTimes (exact sort) P (fun _ _ => 0) m ⟨fun _ => 0, fun _ => 0⟩ n).1 ↔
      x.1 < n ∧ ∃ c₀ < P.nChannels, Beside P 1 c₀ x.2 ∧
        (Far (cMid sort P m x.1) (cDev sort P m x.1) P.thrMag (m x.1 c₀) ∨
          (0 < x.1 ∧ Far (cHmid sort P m x.1) (cHdev sort P m x.1) P.thrBroad (cMid sort P m x.1)) ∨
          (0 < x.1 ∧ Far (cVmid sort P m x.1) (cVdev sort P m x.1) P.thrVar |drift P m x.1 c₀|) ∨
          (x.1 + 1 < n ∧ Far (cVmid sort P m (x.1 + 1)) (cVdev sort P m (x.1 + 1)) P.thrVar |drift P m (x.1 + 1) c₀|)) := by
  induction n with
  | zero => simp [runTimes]
  | succ n ih =>
    obtain ⟨i1, i2, i3⟩ := ih
    simp only [runTimes]
    generalize hr : runTimes (exact sort) P (fun _ _ => 0) m ⟨fun _ => 0, fun _ => 0⟩ n = r at i1 i2 i3 ⊢
    obtain ⟨w, hist, score⟩ := r
    simp only at i1 i2 i3 ⊢
    have a1 := mem_method13 sort P m hist score n i1
    have a2 : (method13 (exact sort) P (fun _ => 0) m n ⟨hist, score⟩).2.1 =
      ⟨fun k => if k = n then cMid sort P m n else hist k, score⟩ := rfl
    have a3 : (method13 (exact sort) P (fun _ => 0) m n ⟨hist, score⟩).2.2 = cMid sort P m n := rfl
    unfold timeStep
    generalize hq : method13 (exact sort) P (fun _ => 0) m n ⟨hist, score⟩ = q at a1 a2 a3 ⊢
    obtain ⟨w1, s1, med⟩ := q
    simp only at a1 a2 a3 ⊢
    subst a2 a3
    have hh : ∀ k < n + 1, (if k = n then cMid sort P m n else hist k) = cMid sort P m k := by
      intro k hk
      by_cases e : k = n
      · rw [if_pos e, e]
      · rw [if_neg e]; exact i1 k (by omega)
    by_cases h0 : 0 < n
    · simp only [h0, if_true]
      have b := mem_method2 sort P m h1 (fun k => if k = n then cMid sort P m n else hist k) score n h0 i2
      refine ⟨hh, fun _ => (b (0, 0)).2, fun x => ?_⟩
      rw [List.mem_append, List.mem_append, i3 x, a1 x, (b x).1]
      constructor
      · rintro (⟨h, c₀, hc, hb, g⟩ | ⟨h, c₀, hc, hb, g⟩ | ⟨h, c₀, hc, hb, g⟩)
        · refine ⟨by omega, c₀, hc, hb, ?_⟩
          rcases g with g | g | g | g
          · exact Or.inl g
          · exact Or.inr (Or.inl g)
          · exact Or.inr (Or.inr (Or.inl g))
          · exact Or.inr (Or.inr (Or.inr ⟨by omega, g.2⟩))
        · refine ⟨by omega, c₀, hc, hb, ?_⟩
          rw [h]
          rcases g with g | g
          · exact Or.inl g
          · exact Or.inr (Or.inl g)
        · refine ⟨by omega, c₀, hc, hb, ?_⟩
          rcases h with h | h
          · rw [h]; exact Or.inr (Or.inr (Or.inl ⟨h0, g⟩))
          · have e : x.1 + 1 = n := by omega
            exact Or.inr (Or.inr (Or.inr ⟨by omega, by rw [e]; exact g⟩))
      · rintro ⟨h, c₀, hc, hb, g⟩
        by_cases e : x.1 = n
        · rw [e] at g
          rcases g with g | g | g | g
          · exact Or.inr (Or.inl ⟨e, c₀, hc, hb, Or.inl g⟩)
          · exact Or.inr (Or.inl ⟨e, c₀, hc, hb, Or.inr g⟩)
          · exact Or.inr (Or.inr ⟨Or.inl e, c₀, hc, hb, g.2⟩)
          · exact absurd g.1 (by omega)
        · by_cases e' : x.1 + 1 = n
          · rcases g with g | g | g | g
            · exact Or.inl ⟨by omega, c₀, hc, hb, Or.inl g⟩
            · exact Or.inl ⟨by omega, c₀, hc, hb, Or.inr (Or.inl g)⟩
            · exact Or.inl ⟨by omega, c₀, hc, hb, Or.inr (Or.inr (Or.inl g))⟩
            · rw [e'] at g
              exact Or.inr (Or.inr ⟨Or.inr (by omega), c₀, hc, hb, g.2⟩)
          · refine Or.inl ⟨by omega, c₀, hc, hb, ?_⟩
            rcases g with g | g | g | g
            · exact Or.inl g
            · exact Or.inr (Or.inl g)
            · exact Or.inr (Or.inr (Or.inl g))
            · exact Or.inr (Or.inr (Or.inr ⟨by omega, g.2⟩))
    · have hn : n = 0 := by omega
      simp only [h0, if_false]
      refine ⟨hh, fun h2 => by omega, fun x => ?_⟩
      rw [List.mem_append, i3 x, a1 x]
      constructor
      · rintro (⟨h, -⟩ | ⟨h, c₀, hc, hb, g⟩)
        · omega
        · refine ⟨by omega, c₀, hc, hb, ?_⟩
          rw [h]
          rcases g with g | g
          · exact Or.inl g
          · exact Or.inr (Or.inl g)
      · rintro ⟨h, c₀, hc, hb, g⟩
        have e : x.1 = n := by omega
        refine Or.inr ⟨e, c₀, hc, hb, ?_⟩
        rw [e] at g
        rcases g with g | g | g | g
        · exact Or.inl g
        · exact Or.inr g
        · exact absurd g.1 h0
        · exact absurd g.1 (by omega)

theorem flagged_iff (hs : Sorts sort) (h1 : 0 < P.step) (h2 : 2 ≤ P.nChannels / P.step) (h3 : 2 ≤ P.hist) (t c : Nat) :
    (t, c) ∈ flagged (exact sort) P m ↔ ToFlag (cLevels sort P m hs h2 h3) 1 t c := by
  have h := (run_exact sort P m h1 P.nTimes).2.2 (t, c)
  refine (show (t, c) ∈ flagged (exact sort) P m ↔ _ from h).trans ?_
  unfold ToFlag Loud Burst Restless
  constructor
  · rintro ⟨ht, c₀, hc, hb, g⟩
    refine ⟨ht, c₀, hc, hb, ?_⟩
    rcases g with g | g | g | g
    · exact Or.inl g
    · exact Or.inr (Or.inl g)
    · exact Or.inr (Or.inr (Or.inl ⟨g.1, ht, g.2⟩))
    · exact Or.inr (Or.inr (Or.inr ⟨by omega, g.1, g.2⟩))
  · rintro ⟨ht, c₀, hc, hb, g⟩
    refine ⟨ht, c₀, hc, hb, ?_⟩
    rcases g with g | g | g | g
    · exact Or.inl g
    · exact Or.inr (Or.inl g)
    · exact Or.inr (Or.inr (Or.inl ⟨g.1, g.2.2⟩))
    · exact Or.inr (Or.inr (Or.inr ⟨g.2.1, g.2.2⟩))

end
end Sdp.Flagger
