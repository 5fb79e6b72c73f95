import Mathlib.Data.List.Sort
import Mathlib.Algebra.Order.Ring.Rat
import Verif.Flagger.Exact

set_option linter.unusedSectionVars false

/-!
# C100: which samples the flagger flags, for every execution; what differs from the description
-/

namespace Sdp.Flagger
section
variable {K : Type} [Field K] [LinearOrder K] [IsStrictOrderedRing K]

/-- The levels are determined by the magnitudes. -/
theorem Levels.unique {P : Params K} {m : Nat → Nat → K} {rank : Nat → Nat} {about about' : Nat → K}
    (L : Levels P m rank about) (L' : Levels P m rank about') (ha : ∀ t < P.nTimes, about t = about' t) :
    (∀ t < P.nTimes, L.mid t = L'.mid t ∧ L.dev t = L'.dev t) ∧
    ∀ t, 0 < t → t < P.nTimes → L.hmid t = L'.hmid t ∧ L.hdev t = L'.hdev t ∧ L.vmid t = L'.vmid t ∧ L.vdev t = L'.vdev t := by
  have hm : ∀ t < P.nTimes, L.mid t = L'.mid t := fun t ht => (L.mid_is t ht).unique (L'.mid_is t ht)
  refine ⟨fun t ht => ⟨hm t ht, ?_⟩, fun t h0 ht => ?_⟩
  · have h := L.dev_is t ht
    rw [hm t ht] at h
    exact h.unique (L'.dev_is t ht)
  · have hr : recent (min (t + 1) P.hist) t L.mid = recent (min (t + 1) P.hist) t L'.mid := by
      unfold recent
      exact List.map_congr_left fun i _ => hm _ (by omega)
    have e1 : L.hmid t = L'.hmid t := by
      have h := L.hmid_is t h0 ht
      rw [hr] at h
      exact h.unique (L'.hmid_is t h0 ht)
    refine ⟨e1, ?_, (L.vmid_is t h0 ht).unique (L'.vmid_is t h0 ht), ?_⟩
    · have h := L.hdev_is t h0 ht
      rw [hr, e1] at h
      exact h.unique (L'.hdev_is t h0 ht)
    · have h := L.vdev_is t h0 ht
      rw [ha t ht] at h
      exact h.unique (L'.vdev_is t h0 ht)

theorem ToFlag.congr {P : Params K} {m : Nat → Nat → K} {rank : Nat → Nat} {about about' : Nat → K}
    (L : Levels P m rank about) (L' : Levels P m rank about') (ha : ∀ t < P.nTimes, about t = about' t)
    {first t c : Nat} (h : ToFlag L first t c) : ToFlag L' first t c := by
  obtain ⟨u1, u2⟩ := L.unique L' ha
  obtain ⟨ht, c₀, hc, hb, g⟩ := h
  refine ⟨ht, c₀, hc, hb, ?_⟩
  have hR : ∀ u, Restless L u c₀ → Restless L' u c₀ := by
    rintro u ⟨g1, g2, g3⟩
    obtain ⟨-, -, e1, e2⟩ := u2 u g1 g2
    exact ⟨g1, g2, by rw [← e1, ← e2]; exact g3⟩
  rcases g with g | g | g | g
  · refine Or.inl ?_
    unfold Loud at g ⊢
    rw [← (u1 t ht).1, ← (u1 t ht).2]; exact g
  · refine Or.inr (Or.inl ⟨g.1, ?_⟩)
    obtain ⟨e1, e2, -, -⟩ := u2 t g.1 ht
    rw [← e1, ← e2, ← (u1 t ht).1]; exact g.2
  · exact Or.inr (Or.inr (Or.inl (hR _ g)))
  · exact Or.inr (Or.inr (Or.inr (hR _ g)))

open Classical in
/-- **C100 (part).**  With at least two samples and a median history of at least two: there are levels, and for every
parallel execution and every levels `L`, with middles at place `round(n / 2)` and mean changes measured from the middle
magnitude, the flag at (t, b, c, p) ends up set exactly if it was set already or (t, c) is to be flagged, channel 0 never
along with another.  Missing: middles that are medians (`C100_median_false`), changes measured from their own middle
(`C100_changes_false`), channel 0 (`C100_first_false`), and shorter histories (`C12_short_history_false`). -/
theorem C100_exact_partial (sort : List K → List K) (hs : Sorts sort) (P : Params K) (h1 : 0 < P.step)
    (h2 : 2 ≤ P.nChannels / P.step) (h3 : 2 ≤ P.hist) (mag : Nat → Nat → Nat → Nat → K) (flags : Nat → Int) (ws : List Nat)
    (e : Execution (exact sort) P mag ws) {b p : Nat} (hb : b < P.nBaselines) (hp : p < P.nPols) :
    (∃ (about : Nat → K) (L : Levels P (fun t c => mag t b c p) (fun n => (n + 1) / 2) about), L.mid = about) ∧
    ∀ (about : Nat → K) (L : Levels P (fun t c => mag t b c p) (fun n => (n + 1) / 2) about), L.mid = about →
      ∀ t, ∀ c < P.nChannels, applyWrites flags ws (pos P t b c p) =
        if ToFlag L 1 t c then 1 else flags (pos P t b c p) := by
  refine ⟨⟨_, cLevels sort P (fun t c => mag t b c p) hs h2 h3, rfl⟩, fun about L ha t c hc => ?_⟩
  rw [C12_independent_partial (exact sort) P (sane sort P hs h1 h2 h3) mag flags ws e hb hc hp]
  have key : ((t, c) ∈ flagged (exact sort) P fun t c => mag t b c p) ↔ ToFlag L 1 t c := by
    rw [flagged_iff sort P _ hs h1 h2 h3]
    have hm : ∀ t < P.nTimes, L.mid t = cMid sort P (fun t c => mag t b c p) t := fun t ht =>
      (L.mid_is t ht).unique ((cLevels sort P (fun t c => mag t b c p) hs h2 h3).mid_is t ht)
    rw [ha] at hm
    exact ⟨ToFlag.congr _ L (fun t ht => (hm t ht).symm), ToFlag.congr L _ hm⟩
  by_cases h : ToFlag L 1 t c
  · rw [if_pos h, if_pos (key.2 h)]
  · rw [if_neg h, if_neg (fun g => h (key.1 g))]

/-! ## Brightness does not matter -/

theorem AtRank.scale {a : K} (ha : 0 < a) {l : List K} {k : Nat} {v : K} (h : AtRank l k v) :
    AtRank (l.map fun x => a * x) k (a * v) := by
  refine ⟨List.mem_map.2 ⟨v, h.1, rfl⟩, ?_, ?_⟩
  · rw [List.countP_map]
    refine le_of_eq_of_le ?_ h.2.1
    refine List.countP_congr fun x _ => ?_
    simp only [Function.comp_apply, decide_eq_true_eq]
    exact mul_lt_mul_iff_right₀ ha
  · rw [List.countP_map]
    refine lt_of_lt_of_eq h.2.2 (Eq.symm ?_)
    refine List.countP_congr fun x _ => ?_
    simp only [Function.comp_apply, decide_eq_true_eq]
    exact mul_le_mul_iff_right₀ ha

theorem sampled_scale (P : Params K) (a : K) (f : Nat → K) :
    sampled P (fun c => a * f c) = (sampled P f).map fun x => a * x := by
  simp [sampled, Function.comp_def]

theorem dev_scale {a : K} (ha : 0 < a) (l : List K) (v : K) :
    (l.map fun x => a * x).map (fun x => |x - a * v|) = (l.map fun x => |x - v|).map fun x => a * x := by
  rw [List.map_map, List.map_map]
  refine List.map_congr_left fun x _ => ?_
  simp only [Function.comp_apply]
  rw [← mul_sub, abs_mul, abs_of_pos ha]

theorem drift_scale {a : K} (ha : 0 < a) (P : Params K) (m : Nat → Nat → K) (t c : Nat) :
    drift P (fun t c => a * m t c) t c = a * drift P m t c := by
  have hc : ∀ s, change (fun t c => a * m t c) s c = a * change m s c := by
    intro s
    unfold change
    rw [← mul_sub, abs_mul, abs_of_pos ha]
  unfold drift
  simp only [hc]
  rw [mul_add, Finset.mul_sum]
  congr 1
  · ring
  · exact Finset.sum_congr rfl fun s _ => by ring

theorem Far.scale {a : K} (ha : 0 < a) (mid dev thr v : K) : Far (a * mid) (a * dev) thr (a * v) ↔ Far mid dev thr v := by
  unfold Far
  have h1 : a * dev = 0 ↔ dev = 0 := by simp [ha.ne']
  have h2 : a * v = a * mid ↔ v = mid := mul_right_inj' ha.ne'
  by_cases hd : dev = 0
  · rw [if_pos (h1.2 hd), if_pos hd]
    by_cases hv : v = mid
    · rw [if_pos (h2.2 hv), if_pos hv]
    · rw [if_neg (fun g => hv (h2.1 g)), if_neg hv]
  · rw [if_neg (fun g => hd (h1.1 g)), if_neg hd]
    have e : 6795 / 10000 * (a * v - a * mid) / (a * dev) = 6795 / 10000 * (v - mid) / dev := by
      rw [← mul_sub, ← mul_assoc, mul_comm (6795 / 10000) a, mul_assoc, mul_div_mul_left _ _ ha.ne']
    rw [e]

/-- Levels of brighter magnitudes. -/
def Levels.scale {a : K} (ha : 0 < a) {P : Params K} {m : Nat → Nat → K} {rank : Nat → Nat} {about : Nat → K}
    (L : Levels P m rank about) : Levels P (fun t c => a * m t c) rank (fun t => a * about t) where
  mid t := a * L.mid t
  dev t := a * L.dev t
  hmid t := a * L.hmid t
  hdev t := a * L.hdev t
  vmid t := a * L.vmid t
  vdev t := a * L.vdev t
  mid_is t ht := by rw [sampled_scale]; exact (L.mid_is t ht).scale ha
  dev_is t ht := by rw [sampled_scale, dev_scale ha]; exact (L.dev_is t ht).scale ha
  hmid_is t h0 ht := by
    have e : recent (min (t + 1) P.hist) t (fun t => a * L.mid t) =
      (recent (min (t + 1) P.hist) t L.mid).map fun x => a * x := by simp [recent, Function.comp_def]
    rw [e]; exact (L.hmid_is t h0 ht).scale ha
  hdev_is t h0 ht := by
    have e : recent (min (t + 1) P.hist) t (fun t => a * L.mid t) =
      (recent (min (t + 1) P.hist) t L.mid).map fun x => a * x := by simp [recent, Function.comp_def]
    rw [e, dev_scale ha]; exact (L.hdev_is t h0 ht).scale ha
  vmid_is t h0 ht := by
    have e : (fun c => |drift P (fun t c => a * m t c) t c|) = fun c => a * |drift P m t c| := by
      funext c; rw [drift_scale ha, abs_mul, abs_of_pos ha]
    rw [e, sampled_scale]; exact (L.vmid_is t h0 ht).scale ha
  vdev_is t h0 ht := by
    have e : (fun c => |drift P (fun t c => a * m t c) t c|) = fun c => a * |drift P m t c| := by
      funext c; rw [drift_scale ha, abs_mul, abs_of_pos ha]
    rw [e, sampled_scale, dev_scale ha]; exact (L.vdev_is t h0 ht).scale ha

/-- **C100, brightness.**  Multiplying all visibilities by the same positive number changes no flag, for every pair of
executions. -/
theorem C100_scale (sort : List K → List K) (hs : Sorts sort) (P : Params K) (h1 : 0 < P.step)
    (h2 : 2 ≤ P.nChannels / P.step) (h3 : 2 ≤ P.hist) (mag : Nat → Nat → Nat → Nat → K) (a : K) (ha : 0 < a)
    (flags : Nat → Int) (ws ws' : List Nat) (e : Execution (exact sort) P mag ws)
    (e' : Execution (exact sort) P (fun t b c p => a * mag t b c p) ws') {b p : Nat} (hb : b < P.nBaselines) (hp : p < P.nPols)
    (t : Nat) (c : Nat) (hc : c < P.nChannels) :
    applyWrites flags ws (pos P t b c p) = applyWrites flags ws' (pos P t b c p) := by
  classical
  obtain ⟨⟨about, L, hL⟩, hall⟩ := C100_exact_partial sort hs P h1 h2 h3 mag flags ws e hb hp
  rw [hall about L hL t c hc, (C100_exact_partial sort hs P h1 h2 h3 _ flags ws' e' hb hp).2 _ (L.scale ha)
    (by show (fun t => a * L.mid t) = fun t => a * about t; rw [hL]) t c hc]
  have hF : ToFlag L 1 t c ↔ ToFlag (L.scale ha) 1 t c := by
    unfold ToFlag Loud Burst Restless
    simp only [Levels.scale, Far.scale ha, drift_scale ha, abs_mul, abs_of_pos ha]
  by_cases h : ToFlag L 1 t c
  · rw [if_pos h, if_pos (hF.1 h)]
  · rw [if_neg h, if_neg (fun g => h (hF.2 g))]

/-! ## Where the code falls short -/

/-- **C100 fails** for an odd number of samples: the middle is not the median.  Of `2 k + 1` different magnitudes `k + 1` are
below it and only `k - 1` above; of three it is the largest. -/
theorem C100_median_false (P : Params K) (m : Nat → Nat → K) (about : Nat → K) (L : Levels P m (fun n => (n + 1) / 2) about)
    (k : Nat) (hn : P.nChannels / P.step = 2 * k + 1) (t : Nat) (ht : t < P.nTimes) (hd : (sampled P (m t)).Nodup) :
    (sampled P (m t)).countP (fun x => decide (x < L.mid t)) = k + 1 ∧
      (sampled P (m t)).countP (fun x => decide (L.mid t < x)) + 1 = k := by
  obtain ⟨g1, g2, g3⟩ := L.mid_is t ht
  have hl : (sampled P (m t)).length = 2 * k + 1 := by rw [sampled_length]; exact hn
  rw [hn] at g2 g3
  generalize L.mid t = v at g1 g2 g3 ⊢
  generalize sampled P (m t) = l at hd g1 g2 g3 hl ⊢
  have key : ∀ l : List K, l.Nodup → l.countP (fun x => decide (x ≤ v)) =
      l.countP (fun x => decide (x < v)) + (if v ∈ l then 1 else 0) := by
    intro l
    induction l with
    | nil => simp
    | cons x l ih =>
      intro hd
      obtain ⟨hx, hd⟩ := List.nodup_cons.1 hd
      rw [List.countP_cons, List.countP_cons, ih hd]
      rcases lt_trichotomy x v with h | h | h
      · simp [h, h.le, h.ne']; omega
      · subst h; simp [hx]
      · simp [h.not_gt, h.not_ge, h.ne]
  have tot : ∀ l : List K, l.length = l.countP (fun x => decide (x ≤ v)) + l.countP (fun x => decide (v < x)) := by
    intro l
    induction l with
    | nil => simp
    | cons x l ih =>
      rw [List.countP_cons, List.countP_cons, List.length_cons, ih]
      by_cases h : x ≤ v
      · simp [h, h.not_gt]; omega
      · have h' := not_le.1 h
        simp [h, h']; omega
  have a1 := key l hd
  have a2 := tot l
  rw [if_pos g1] at a1
  omega

open Classical in
/-- **C100 fails** for channel 0: whatever the window, it is never flagged along with a channel beside it. -/
theorem C100_first_false (sort : List K → List K) (hs : Sorts sort) (P : Params K) (h1 : 0 < P.step)
    (h2 : 2 ≤ P.nChannels / P.step) (h3 : 2 ≤ P.hist) (mag : Nat → Nat → Nat → Nat → K) (flags : Nat → Int) (ws : List Nat)
    (e : Execution (exact sort) P mag ws) {b p : Nat} (hb : b < P.nBaselines) (hp : p < P.nPols) (about : Nat → K)
    (L : Levels P (fun t c => mag t b c p) (fun n => (n + 1) / 2) about) (hL : L.mid = about) (t : Nat) (ht : t < P.nTimes)
    (hq : ¬ Loud L t 0 ∧ ¬ Burst L t ∧ ¬ Restless L t 0 ∧ ¬ Restless L (t + 1) 0) :
    applyWrites flags ws (pos P t b 0 p) = flags (pos P t b 0 p) := by
  have hc : 0 < P.nChannels := by
    by_contra h
    have : P.nChannels = 0 := by omega
    rw [this, Nat.zero_div] at h2
    omega
  rw [(C100_exact_partial sort hs P h1 h2 h3 mag flags ws e hb hp).2 about L hL t 0 hc, if_neg]
  rintro ⟨-, c₀, -, hb, g⟩
  have : c₀ = 0 := by
    rcases hb with h | h | h
    · exact h.symm
    · omega
    · omega
  subst this
  rcases g with g | g | g | g
  · exact hq.1 g
  · exact hq.2.1 g
  · exact hq.2.2.1 g
  · exact hq.2.2.2 g

end

/-! ## Cases -/

/-- Insertion sort of rational numbers. -/
def sortQ (l : List ℚ) : List ℚ := l.insertionSort (· ≤ ·)

theorem sortQ_sorts : Sorts sortQ :=
  ⟨fun l => List.perm_insertionSort _ l, fun l => List.pairwise_insertionSort (· ≤ ·) l⟩

/-- Two times, four channels; nothing but changes can be flagged. -/
def calm : Params ℚ := ⟨1, 1000000000, 3, 1000000000, 1, 0, 2, 2, 1, 4, 1⟩

/-- All magnitudes are 1000 and stay so, but the last goes to 1050. -/
def jump : Nat → Nat → ℚ := fun t c => if t = 1 ∧ c = 3 then 1050 else 1000

/-- An execution by one thread. -/
def alone (P : Params ℚ) (mag : Nat → Nat → Nat → Nat → ℚ) :
    Execution (exact sortQ) P mag
      (runThread (exact sortQ) P (fun _ _ _ _ => 0) mag (List.range P.nBaselines) ⟨fun _ => 0, fun _ => 0⟩).1 :=
  ⟨[(List.range P.nBaselines, ⟨fun _ => 0, fun _ => 0⟩)], fun _ _ _ _ => 0, by simp, by simp⟩

/-- The levels with changes measured from their own middle. -/
def jumpLevels : Levels calm jump (fun n => (n + 1) / 2) (fun _ => 0) where
  mid _ := 1000
  dev _ := 0
  hmid _ := 1000
  hdev _ := 0
  vmid _ := 0
  vdev _ := 0
  mid_is t ht := by
    have : t = 0 ∨ t = 1 := by have : t < 2 := ht; omega
    rcases this with rfl | rfl <;> (unfold AtRank; decide +kernel)
  dev_is t ht := by
    have : t = 0 ∨ t = 1 := by have : t < 2 := ht; omega
    rcases this with rfl | rfl <;> (unfold AtRank; decide +kernel)
  hmid_is t h0 ht := by
    have : t = 1 := by have : t < 2 := ht; omega
    subst this; unfold AtRank; decide +kernel
  hdev_is t h0 ht := by
    have : t = 1 := by have : t < 2 := ht; omega
    subst this; unfold AtRank; decide +kernel
  vmid_is t h0 ht := by
    have : t = 1 := by have : t < 2 := ht; omega
    subst this; unfold AtRank; decide +kernel
  vdev_is t h0 ht := by
    have : t = 1 := by have : t < 2 := ht; omega
    subst this; unfold AtRank; decide +kernel

/-- **C100 fails** for changes: their distances are measured from the middle of the magnitudes, not from the middle of the
changes.  A jump in one channel while all others are constant is to be flagged, by any threshold below ten million, but no
execution sets any flag. -/
theorem C100_changes_false : ∃ (P : Params ℚ) (m : Nat → Nat → ℚ) (about : Nat → ℚ)
    (L : Levels P m (fun n => (n + 1) / 2) about), (∀ t, about t = L.vmid t) ∧ 0 < P.step ∧ 2 ≤ P.nChannels / P.step ∧ 2 ≤ P.hist ∧
    ToFlag L 1 1 3 ∧ ∀ (flags : Nat → Int) (ws : List Nat), Nonempty (Execution (exact sortQ) P (fun t _ c _ => m t c) ws) →
      ∀ t, ∀ c < 4, applyWrites flags ws (pos P t 0 c 0) = flags (pos P t 0 c 0) := by
  refine ⟨calm, jump, fun _ => 0, jumpLevels, fun _ => rfl, by decide, by decide, by decide,
    ⟨by decide, 3, by decide, Or.inl rfl, Or.inr (Or.inr (Or.inl ⟨by decide, by decide, ?_⟩))⟩, ?_⟩
  · unfold Far jumpLevels
    decide +kernel
  · rintro flags ws ⟨e⟩ t c hc
    rw [C12_independent_partial (exact sortQ) calm (sane sortQ calm sortQ_sorts (by decide) (by decide) (by decide))
      (fun t _ c _ => jump t c) flags ws e (by decide) hc (by decide), if_neg]
    have : flagged (exact sortQ) calm (fun t c => jump t c) = [] := by decide +kernel
    rw [this]
    simp

/-- The data meet the hypotheses of `C100_exact_partial` and `C100_scale`, and with a threshold of 1/100 the jump is flagged at
both times. -/
example : 0 < calm.step ∧ 2 ≤ calm.nChannels / calm.step ∧ 2 ≤ calm.hist ∧
    Nonempty (Execution (exact sortQ) calm (fun t _ c _ => jump t c)
      (runThread (exact sortQ) calm (fun _ _ _ _ => 0) (fun t _ c _ => jump t c) (List.range 1) ⟨fun _ => 0, fun _ => 0⟩).1) ∧
    flagged (exact sortQ) { calm with thrVar := 1 / 100 } jump = [(1, 3), (0, 3)] :=
  ⟨by decide, by decide, by decide, ⟨alone calm _⟩, by decide +kernel⟩

/-- Three different magnitudes: the middle is the largest. -/
example : ∃ (P : Params ℚ) (m : Nat → Nat → ℚ) (about : Nat → ℚ) (L : Levels P m (fun n => (n + 1) / 2) about),
    P.nChannels / P.step = 2 * 1 + 1 ∧ 0 < P.nTimes ∧ (sampled P (m 0)).Nodup ∧ L.mid 0 = 3 := by
  refine ⟨⟨1, 1, 1, 1, 1, 0, 2, 1, 1, 3, 1⟩, fun _ c => (c : ℚ) + 1, fun _ => 0,
    ⟨fun _ => 3, fun _ => 2, ?_, ?_, fun _ => 0, fun _ => 0, ?_, ?_, fun _ => 0, fun _ => 0, ?_, ?_⟩, by decide, by decide,
    by decide +kernel, rfl⟩
  · intro t ht
    have : t = 0 := by have : t < 1 := ht; omega
    subst this; unfold AtRank; decide +kernel
  · intro t ht
    have : t = 0 := by have : t < 1 := ht; omega
    subst this; unfold AtRank; decide +kernel
  all_goals
    intro t h0 ht
    have : t < 1 := ht
    omega

end Sdp.Flagger
