import Mathlib.Tactic.Linarith
import Mathlib.Tactic.Ring
import Mathlib.Data.List.Flatten
import Verif.Flagger.Model

/-!
# C12 — flagging only adds flags, and treats baselines and polarisations
independently, under every parallel schedule
-/

namespace Sdp.Flagger

variable {α : Type} (o : Ops α) (P : Params α)

theorem applyWrites_eq (flags : Nat → Int) (ks : List Nat) (j : Nat) :
    applyWrites flags ks j = if j ∈ ks then 1 else flags j := by
  induction ks generalizing flags with
  | nil => simp [applyWrites]
  | cons k ks ih =>
    rw [applyWrites, ih]
    by_cases h : j ∈ ks <;> by_cases h' : j = k <;> simp [h, h']

/-! ### Bounds of everything written -/

theorem windowChannels_lt (c c' : Nat) (hc : c < P.nChannels) (h : c' ∈ windowChannels P c) :
    c' < P.nChannels := by
  simp only [windowChannels, List.mem_cons, List.mem_flatMap, List.mem_range,
    List.mem_append] at h
  rcases h with rfl | ⟨w, _, h | h⟩
  · exact hc
  · split at h
    · simp at h; omega
    · simp at h
  · split at h
    · simp at h; omega
    · simp at h

theorem method13_bounds (junk : Nat → α) (m : Nat → Nat → α) (t : Nat) (sc : Scratch α)
    (x : Nat × Nat) (h : x ∈ (method13 o P junk m t sc).1) :
    x.1 = t ∧ x.2 < P.nChannels := by
  simp only [method13, List.mem_flatMap, List.mem_range] at h
  obtain ⟨c, hc, h⟩ := h
  split at h
  · simp only [List.mem_map] at h
    obtain ⟨c', h1, rfl⟩ := h
    exact ⟨rfl, windowChannels_lt P c c' hc h1⟩
  · simp at h

theorem method2_bounds (junk : Nat → α) (m : Nat → Nat → α) (t : Nat) (sc : Scratch α)
    (med : α) (x : Nat × Nat) (h : x ∈ (method2 o P junk m t sc med).1) :
    x.1 ≤ t ∧ x.2 < P.nChannels := by
  simp only [method2, List.mem_flatMap, List.mem_range] at h
  obtain ⟨c, hc, h⟩ := h
  split at h
  · simp only [List.mem_flatMap] at h
    obtain ⟨c', h1, h⟩ := h
    have := windowChannels_lt P c c' hc h1
    simp at h
    rcases h with rfl | rfl
    · exact ⟨le_refl _, this⟩
    · exact ⟨Nat.sub_le _ _, this⟩
  · simp at h

theorem timeStep_bounds (junk : Nat → α) (m : Nat → Nat → α) (t : Nat) (sc : Scratch α)
    (x : Nat × Nat) (h : x ∈ (timeStep o P junk m t sc).1) :
    x.1 ≤ t ∧ x.2 < P.nChannels := by
  unfold timeStep at h
  generalize hm : method13 o P junk m t sc = r at h
  obtain ⟨w1, sc1, med⟩ := r
  have h1 : ∀ y ∈ w1, y.1 ≤ t ∧ y.2 < P.nChannels := by
    intro y hy
    have := method13_bounds o P junk m t sc y (by rw [hm]; exact hy)
    exact ⟨this.1.le, this.2⟩
  simp only at h
  split at h
  · simp only [List.mem_append] at h
    rcases h with h | h
    · exact h1 x h
    · exact method2_bounds o P junk m t sc1 med x h
  · exact h1 x h

theorem runTimes_bounds (junk : Nat → Nat → α) (m : Nat → Nat → α) (sc : Scratch α) (n : Nat)
    (x : Nat × Nat) (h : x ∈ (runTimes o P junk m sc n).1) :
    x.1 < n ∧ x.2 < P.nChannels := by
  induction n with
  | zero => simp [runTimes] at h
  | succ n ih =>
    simp only [runTimes, List.mem_append] at h
    rcases h with h | h
    · have := ih h; exact ⟨by omega, this.2⟩
    · have := timeStep_bounds o P _ m n _ x h
      exact ⟨by omega, this.2⟩

/-! ### A run depends only on the magnitudes, not on scratch or junk -/

theorem medianCalc_ok (j j' : α) (l : List α) (h : 2 ≤ l.length) :
    medianCalc j l = medianCalc j' l := by
  have : mid l.length < l.length := by unfold mid; omega
  unfold medianCalc
  simp only [List.getD_eq_getElem?_getD, List.getElem?_eq_getElem this, Option.getD_some]

theorem medianDevCalc_ok (hs : ∀ l, (o.sort l).length = l.length) (j j' : α) (l : List α)
    (x : α) (h : 2 ≤ l.length) :
    medianDevCalc o j l x = medianDevCalc o j' l x := by
  have : mid l.length < (o.sort (l.map fun y => o.abs (o.sub y x))).length := by
    rw [hs]; simp only [List.length_map]; unfold mid; omega
  unfold medianDevCalc
  simp only [List.getD_eq_getElem?_getD, List.getElem?_eq_getElem this, Option.getD_some]

/-- The hypotheses under which no scratch array is read out of range in a way
that matters: at least two samples and a median history of at least two. -/
structure Sane (o : Ops α) (P : Params α) : Prop where
  sort_length : ∀ l, (o.sort l).length = l.length
  samples : 2 ≤ nSamples P
  step : 0 < P.step
  hist : 2 ≤ P.hist

theorem sample_lt (hS : Sane o P) {s : Nat} (h : s < nSamples P) :
    s * P.step < P.nChannels := by
  unfold nSamples at h
  have h1 : s + 1 ≤ P.nChannels / P.step := h
  have h2 := (Nat.le_div_iff_mul_le hS.step).1 h1
  have := hS.step
  nlinarith

theorem method13_indep (hS : Sane o P) (j j' : Nat → α) (m m' : Nat → Nat → α) (t : Nat)
    (sc sc' : Scratch α) (hm : ∀ c < P.nChannels, m t c = m' t c)
    (hh : ∀ k < t, sc.hist k = sc'.hist k) :
    (method13 o P j m t sc).1 = (method13 o P j' m' t sc').1 ∧
    (∀ k < t + 1, (method13 o P j m t sc).2.1.hist k = (method13 o P j' m' t sc').2.1.hist k) ∧
    (method13 o P j m t sc).2.1.score = sc.score ∧
    (method13 o P j' m' t sc').2.1.score = sc'.score ∧
    (method13 o P j m t sc).2.2 = (method13 o P j' m' t sc').2.2 := by
  have hsam : (List.range (nSamples P)).map (fun s => m t (s * P.step)) =
      (List.range (nSamples P)).map (fun s => m' t (s * P.step)) := by
    apply List.map_congr_left
    intro s hs
    exact hm _ (sample_lt o P hS (List.mem_range.1 hs))
  simp only [method13, hsam]
  set L := o.sort ((List.range (nSamples P)).map fun s => m' t (s * P.step)) with hL
  have hlen : 2 ≤ L.length := by
    rw [hL, hS.sort_length]; simpa using hS.samples
  have hmed : medianCalc (j 0) L = medianCalc (j' 0) L := medianCalc_ok _ _ _ hlen
  rw [hmed]
  set med := medianCalc (j' 0) L with hmed'
  have hdev : medianDevCalc o (j 1) L med = medianDevCalc o (j' 1) L med :=
    medianDevCalc_ok o hS.sort_length _ _ _ _ hlen
  rw [hdev]
  have hhist : ∀ k < t + 1, (if k = t then med else sc.hist k) =
      (if k = t then med else sc'.hist k) := by
    intro k hk
    by_cases hkt : k = t
    · simp [hkt]
    · simp only [hkt, if_false]; exact hh k (by omega)
  refine ⟨?_, hhist, trivial, trivial, rfl⟩
  by_cases ht : t = 0
  · simp only [ht, ne_eq, not_true_eq_false, decide_false, Bool.and_false, Bool.or_false]
    simp only [List.flatMap_def]
    congr 1
    apply List.map_congr_left
    intro c hc
    have := hm c (List.mem_range.1 hc)
    rw [ht] at this
    rw [this]
  · have hmw : 2 ≤ min (t + 1) P.hist := by have := hS.hist; omega
    have harr : (List.range (min (t + 1) P.hist)).map
        (fun tt => (if t - tt = t then med else sc.hist (t - tt))) =
        (List.range (min (t + 1) P.hist)).map
        (fun tt => (if t - tt = t then med else sc'.hist (t - tt))) := by
      apply List.map_congr_left
      intro s _
      exact hhist _ (by omega)
    rw [harr]
    set M := o.sort ((List.range (min (t + 1) P.hist)).map
        (fun tt => (if t - tt = t then med else sc'.hist (t - tt)))) with hM
    have hMl : 2 ≤ M.length := by rw [hM, hS.sort_length]; simpa using hmw
    rw [medianCalc_ok (j 2) (j' 2) M hMl,
      medianDevCalc_ok o hS.sort_length (j 3) (j' 3) M _ hMl]
    simp only [List.flatMap_def]
    congr 1
    apply List.map_congr_left
    intro c hc
    rw [hm c (List.mem_range.1 hc)]

theorem method2_indep (hS : Sane o P) (j j' : Nat → α) (m m' : Nat → Nat → α) (t : Nat)
    (ht : 0 < t) (sc sc' : Scratch α) (med : α)
    (hm : ∀ c < P.nChannels, m t c = m' t c ∧ m (t - 1) c = m' (t - 1) c)
    (hh : 2 ≤ t → ∀ c < P.nChannels, sc.score c = sc'.score c) :
    (method2 o P j m t sc med).1 = (method2 o P j' m' t sc' med).1 ∧
    (∀ c < P.nChannels, (method2 o P j m t sc med).2.score c =
      (method2 o P j' m' t sc' med).2.score c) ∧
    (method2 o P j m t sc med).2.hist = sc.hist ∧
    (method2 o P j' m' t sc' med).2.hist = sc'.hist := by
  have hsc : ∀ c < P.nChannels, newScore o P m t sc.score c =
      newScore o P m' t sc'.score c := by
    intro c hc
    simp only [newScore, hc, if_true, (hm c hc).1, (hm c hc).2]
    by_cases h1 : t = 1
    · simp [h1]
    · simp only [h1, if_false]; rw [hh (by omega) c hc]
  refine ⟨?_, hsc, rfl, rfl⟩
  simp only [method2]
  generalize newScore o P m t sc.score = s1 at hsc ⊢
  generalize newScore o P m' t sc'.score = s2 at hsc ⊢
  have hsam : (List.range (nSamples P)).map (fun s => o.abs (s1 (s * P.step))) =
      (List.range (nSamples P)).map (fun s => o.abs (s2 (s * P.step))) := by
    apply List.map_congr_left
    intro s hs
    rw [hsc _ (sample_lt o P hS (List.mem_range.1 hs))]
  rw [hsam]
  set L := o.sort ((List.range (nSamples P)).map fun s => o.abs (s2 (s * P.step))) with hL
  have hlen : 2 ≤ L.length := by
    rw [hL, hS.sort_length]; simpa using hS.samples
  rw [medianCalc_ok (j 4) (j' 4) L hlen,
    medianDevCalc_ok o hS.sort_length (j 5) (j' 5) L _ hlen]
  simp only [List.flatMap_def]
  congr 1
  apply List.map_congr_left
  intro c hc
  rw [hsc c (List.mem_range.1 hc)]

theorem runTimes_indep (hS : Sane o P) (j j' : Nat → Nat → α) (m m' : Nat → Nat → α)
    (sc sc' : Scratch α) (n : Nat) (hm : ∀ t < n, ∀ c < P.nChannels, m t c = m' t c) :
    (runTimes o P j m sc n).1 = (runTimes o P j' m' sc' n).1 ∧
    (∀ k < n, (runTimes o P j m sc n).2.hist k = (runTimes o P j' m' sc' n).2.hist k) ∧
    (2 ≤ n → ∀ c < P.nChannels, (runTimes o P j m sc n).2.score c =
      (runTimes o P j' m' sc' n).2.score c) := by
  induction n with
  | zero => simp [runTimes]
  | succ n ih =>
    obtain ⟨i1, i2, i3⟩ := ih fun t ht c hc => hm t (by omega) c hc
    simp only [runTimes]
    generalize hr : runTimes o P j m sc n = r at i1 i2 i3 ⊢
    generalize hr' : runTimes o P j' m' sc' n = r' at i1 i2 i3 ⊢
    obtain ⟨w, s⟩ := r
    obtain ⟨w', s'⟩ := r'
    simp only at i1 i2 i3 ⊢
    subst i1
    obtain ⟨a1, a2, a3, a4, a5⟩ := method13_indep o P hS (j n) (j' n) m m' n s s'
      (fun c hc => hm n (by omega) c hc) i2
    unfold timeStep
    generalize hq : method13 o P (j n) m n s = q at a1 a2 a3 a4 a5 ⊢
    generalize hq' : method13 o P (j' n) m' n s' = q' at a1 a2 a3 a4 a5 ⊢
    obtain ⟨w1, s1, med⟩ := q
    obtain ⟨w1', s1', med'⟩ := q'
    simp only at a1 a2 a3 a4 a5 ⊢
    subst a1 a5
    by_cases h0 : 0 < n
    · simp only [h0, if_true]
      obtain ⟨b1, b2, b3, b4⟩ := method2_indep o P hS (j n) (j' n) m m' n h0 s1 s1' med
        (fun c hc => ⟨hm n (by omega) c hc, hm (n - 1) (by omega) c hc⟩)
        (fun h2 c hc => by rw [a3, a4]; exact i3 h2 c hc)
      refine ⟨by rw [b1], fun k hk => ?_, fun _ => b2⟩
      rw [b3, b4]; exact a2 k hk
    · simp only [h0, if_false]
      exact ⟨trivial, a2, fun h2 => by omega⟩

/-- The set of (time, channel) pairs flagged for one baseline and polarisation
with magnitudes `m`: the run on fresh scratch space (all zero, sdp_flagger.cpp:151-154). -/
def flagged (m : Nat → Nat → α) : List (Nat × Nat) :=
  (runTimes o P (fun _ _ => o.zero) m ⟨fun _ => o.zero, fun _ => o.zero⟩ P.nTimes).1

theorem runPols_eq (hS : Sane o P) (junk : Nat → Nat → Nat → α)
    (mag : Nat → Nat → Nat → Nat → α) (b : Nat) (ps : List Nat) (sc : Scratch α) :
    (runPols o P junk mag b ps sc).1 =
      ps.flatMap fun p => (flagged o P fun t c => mag t b c p).map fun tc =>
        pos P tc.1 b tc.2 p := by
  induction ps generalizing sc with
  | nil => rfl
  | cons p ps ih =>
    simp only [runPols, List.flatMap_cons, ih]
    congr 2
    exact (runTimes_indep o P hS _ _ _ _ _ _ _ (fun _ _ _ _ => rfl)).1

theorem runThread_eq (hS : Sane o P) (junk : Nat → Nat → Nat → Nat → α)
    (mag : Nat → Nat → Nat → Nat → α) (bs : List Nat) (sc : Scratch α) :
    (runThread o P junk mag bs sc).1 =
      bs.flatMap fun b => (List.range P.nPols).flatMap fun p =>
        (flagged o P fun t c => mag t b c p).map fun tc => pos P tc.1 b tc.2 p := by
  induction bs generalizing sc with
  | nil => rfl
  | cons b bs ih => simp only [runThread, List.flatMap_cons, ih, runPols_eq o P hS]

/-- A parallel execution: the baselines are dealt out to threads (in any order,
to any number of threads, each with arbitrary scratch contents), and the threads'
writes are interleaved in any way (`ws` is any rearrangement of all of them). -/
structure Execution (o : Ops α) (P : Params α) (mag : Nat → Nat → Nat → Nat → α)
    (ws : List Nat) where
  threads : List (List Nat × Scratch α)
  junk : Nat → Nat → Nat → Nat → α
  dealt : (threads.flatMap Prod.fst).Perm (List.range P.nBaselines)
  interleaved : ws.Perm (threads.flatMap fun th => (runThread o P junk mag th.1 th.2).1)

theorem mem_execution (hS : Sane o P) (mag : Nat → Nat → Nat → Nat → α) (ws : List Nat)
    (e : Execution o P mag ws) (k : Nat) :
    k ∈ ws ↔ ∃ t b c p, b < P.nBaselines ∧ p < P.nPols ∧
      (t, c) ∈ flagged o P (fun t c => mag t b c p) ∧ k = pos P t b c p := by
  rw [e.interleaved.mem_iff]
  simp only [List.mem_flatMap]
  constructor
  · rintro ⟨th, hth, hk⟩
    rw [runThread_eq o P hS] at hk
    simp only [List.mem_flatMap, List.mem_map, List.mem_range] at hk
    obtain ⟨b, hb, p, hp, tc, htc, rfl⟩ := hk
    have : b ∈ e.threads.flatMap Prod.fst := List.mem_flatMap.2 ⟨th, hth, hb⟩
    rw [e.dealt.mem_iff, List.mem_range] at this
    exact ⟨tc.1, b, tc.2, p, this, hp, htc, rfl⟩
  · rintro ⟨t, b, c, p, hb, hp, htc, rfl⟩
    have : b ∈ e.threads.flatMap Prod.fst := by
      rw [e.dealt.mem_iff, List.mem_range]; exact hb
    obtain ⟨th, hth, hbt⟩ := List.mem_flatMap.1 this
    refine ⟨th, hth, ?_⟩
    rw [runThread_eq o P hS]
    simp only [List.mem_flatMap, List.mem_map, List.mem_range]
    exact ⟨b, hbt, p, hp, (t, c), htc, rfl⟩

/-- Positions of different (time, baseline, channel, polarisation) differ. -/
theorem pos_inj {t b c p t' b' c' p' : Nat} (hb : b < P.nBaselines) (hb' : b' < P.nBaselines)
    (hc : c < P.nChannels) (hc' : c' < P.nChannels) (hp : p < P.nPols) (hp' : p' < P.nPols)
    (h : pos P t b c p = pos P t' b' c' p') : t = t' ∧ b = b' ∧ c = c' ∧ p = p' := by
  have key : ∀ {n a b r s : Nat}, r < n → s < n → a * n + r = b * n + s → a = b ∧ r = s := by
    intro n a b r s hr hs h
    have h1 : (a * n + r) / n = (b * n + s) / n := by rw [h]
    rw [Nat.mul_comm a, Nat.mul_comm b, Nat.mul_add_div (by omega), Nat.mul_add_div (by omega),
      Nat.div_eq_of_lt hr, Nat.div_eq_of_lt hs] at h1
    simp at h1
    subst h1
    exact ⟨rfl, by omega⟩
  have e1 : ∀ t b c p, pos P t b c p =
      ((t * P.nBaselines + b) * P.nChannels + c) * P.nPols + p := by
    intros; unfold pos; ring
  rw [e1, e1] at h
  obtain ⟨h1, h2⟩ := key hp hp' h
  obtain ⟨h3, h4⟩ := key hc hc' h1
  obtain ⟨h5, h6⟩ := key hb hb' h3
  exact ⟨h5, h6, h4, h2⟩

theorem pos_lt {t b c p : Nat} (ht : t < P.nTimes) (hb : b < P.nBaselines)
    (hc : c < P.nChannels) (hp : p < P.nPols) :
    pos P t b c p < P.nTimes * P.nBaselines * P.nChannels * P.nPols := by
  have e1 : pos P t b c p = ((t * P.nBaselines + b) * P.nChannels + c) * P.nPols + p := by
    unfold pos; ring
  rw [e1]
  have key : ∀ {a n r N : Nat}, r < n → a + 1 ≤ N → a * n + r < N * n := by
    intro a n r N hr ha
    have : (a + 1) * n ≤ N * n := Nat.mul_le_mul_right n ha
    rw [Nat.add_mul, Nat.one_mul] at this
    omega
  exact key hp (key hc (key hb ht))

/-- C12, first part, with no assumption on the parameters: whatever the
schedule, whatever out-of-range scratch reads return, no flag other than a
written one changes, a written one becomes 1, so a set flag stays set. -/
theorem C12_flags_only_added (flags : Nat → Int) (ws : List Nat) (k : Nat) :
    (applyWrites flags ws k = 1 ∨ applyWrites flags ws k = flags k) ∧
    (flags k ≠ 0 → applyWrites flags ws k ≠ 0) := by
  rw [applyWrites_eq]
  split <;> simp

/-- C12, memory safety of the writes, with no assumption on the parameters: every
flag written by any thread is inside an array of the visibilities' shape. -/
theorem C12_writes_in_range (junk : Nat → Nat → Nat → Nat → α)
    (mag : Nat → Nat → Nat → Nat → α) (bs : List Nat) (hbs : ∀ b ∈ bs, b < P.nBaselines)
    (sc : Scratch α) (k : Nat) (hk : k ∈ (runThread o P junk mag bs sc).1) :
    k < P.nTimes * P.nBaselines * P.nChannels * P.nPols := by
  induction bs generalizing sc with
  | nil => simp [runThread] at hk
  | cons b bs ih =>
    simp only [runThread, List.mem_append] at hk
    rcases hk with hk | hk
    · have hb := hbs b (by simp)
      have : ∀ ps : List Nat, (∀ p ∈ ps, p < P.nPols) → ∀ sc : Scratch α,
          k ∈ (runPols o P (junk b) mag b ps sc).1 →
          k < P.nTimes * P.nBaselines * P.nChannels * P.nPols := by
        intro ps
        induction ps with
        | nil => intro _ sc h; simp [runPols] at h
        | cons p ps ih2 =>
          intro hps sc h
          simp only [runPols, List.mem_append, List.mem_map] at h
          rcases h with ⟨tc, htc, rfl⟩ | h
          · have := runTimes_bounds o P _ _ _ _ tc htc
            exact pos_lt P this.1 hb this.2 (hps p (by simp))
          · exact ih2 (fun p hp => hps p (by simp [hp])) _ h
      exact this _ (fun p hp => List.mem_range.1 hp) _ hk
    · exact ih (fun b hb => hbs b (by simp [hb])) _ hk

/-- C12, second part: with at least two samples and a median history of at least
two, for every parallel execution the flag at (t, b, c, p) ends up set exactly
when it was set already or belongs to the set computed from the magnitudes of
baseline b and polarisation p alone.  Missing from the full claim: fewer samples
or a shorter history (`C12_short_history_false`). -/
theorem C12_independent_partial (hS : Sane o P) (mag : Nat → Nat → Nat → Nat → α)
    (flags : Nat → Int) (ws : List Nat) (e : Execution o P mag ws)
    {t b c p : Nat} (hb : b < P.nBaselines) (hc : c < P.nChannels) (hp : p < P.nPols) :
    applyWrites flags ws (pos P t b c p) =
      if (t, c) ∈ flagged o P (fun t c => mag t b c p) then 1 else flags (pos P t b c p) := by
  rw [applyWrites_eq]
  have : pos P t b c p ∈ ws ↔ (t, c) ∈ flagged o P (fun t c => mag t b c p) := by
    rw [mem_execution o P hS mag ws e]
    constructor
    · rintro ⟨t', b', c', p', hb', hp', h, heq⟩
      have hc' : c' < P.nChannels := (runTimes_bounds o P _ _ _ _ _ h).2
      obtain ⟨rfl, rfl, rfl, rfl⟩ := pos_inj P hb hb' hc hc' hp hp' heq
      exact h
    · intro h; exact ⟨t, b, c, p, hb, hp, h, rfl⟩
  simp only [this]

/-- C12, in terms of two runs: if two data sets agree on one baseline and
polarisation, then whatever the rest of the data, the schedules and the scratch
contents, the resulting flags of that baseline and polarisation agree (given that
they agreed before). -/
theorem C12_two_runs_partial (hS : Sane o P) (mag mag' : Nat → Nat → Nat → Nat → α)
    (flags flags' : Nat → Int) (ws ws' : List Nat) (e : Execution o P mag ws)
    (e' : Execution o P mag' ws') {b p : Nat} (hb : b < P.nBaselines) (hp : p < P.nPols)
    (hmag : ∀ t < P.nTimes, ∀ c < P.nChannels, mag t b c p = mag' t b c p)
    (hfl : ∀ t < P.nTimes, ∀ c < P.nChannels,
      flags (pos P t b c p) = flags' (pos P t b c p)) :
    ∀ t < P.nTimes, ∀ c < P.nChannels,
      applyWrites flags ws (pos P t b c p) = applyWrites flags' ws' (pos P t b c p) := by
  intro t ht c hc
  rw [C12_independent_partial o P hS mag flags ws e hb hc hp,
    C12_independent_partial o P hS mag' flags' ws' e' hb hc hp, hfl t ht c hc]
  have : flagged o P (fun t c => mag t b c p) = flagged o P (fun t c => mag' t b c p) :=
    (runTimes_indep o P hS _ _ _ _ _ _ _ hmag).1
  rw [this]

/-! ### Where the code falls short -/

/-- Insertion into a sorted list, and insertion sort, for the witnesses. -/
def ins (x : Int) : List Int → List Int
  | [] => [x]
  | y :: ys => if x ≤ y then x :: y :: ys else y :: ins x ys

def isort : List Int → List Int
  | [] => []
  | x :: xs => ins x (isort xs)

theorem ins_length (x : Int) (l : List Int) : (ins x l).length = l.length + 1 := by
  induction l with
  | nil => rfl
  | cons y ys ih => unfold ins; split <;> simp [ih]

theorem isort_length (l : List Int) : (isort l).length = l.length := by
  induction l with
  | nil => rfl
  | cons x xs ih => simp [isort, ins_length, ih]

/-- Integers as a concrete arithmetic for the witnesses. -/
def intOps : Ops Int where
  abs x := x.natAbs
  neg x := -x
  add x y := x + y
  sub x y := x - y
  mul x y := x * y
  div x y := x / y
  lt x y := decide (x < y)
  eq x y := decide (x = y)
  zero := 0
  one := 1
  c6795 := 1
  big := 10000000
  sort := isort

/-- Already the first time sample reads one past the end of the one-element
median history, for every positive history length: index 1 of an array of 1. -/
theorem C12_scratch_read_false (hist : Nat) (h : 0 < hist) :
    min (0 + 1) hist ≤ mid (min (0 + 1) hist) := by
  have : min (0 + 1) hist = 1 := by omega
  rw [this]; decide

/-- With a median history of one, what lies beyond the scratch array decides
which flags are set: same data and parameters, different flags. -/
theorem C12_short_history_false :
    ∃ (P : Params Int) (m : Nat → Nat → Int) (junk junk' : Nat → Nat → Int),
      0 < P.hist ∧ 2 ≤ nSamples P ∧
      (runTimes intOps P junk m ⟨fun _ => 0, fun _ => 0⟩ P.nTimes).1 ≠
      (runTimes intOps P junk' m ⟨fun _ => 0, fun _ => 0⟩ P.nTimes).1 :=
  ⟨⟨1, 100, 100, 100, 1, 0, 1, 2, 1, 2, 1⟩, fun _ _ => 1, fun _ _ => 0, fun _ _ => 1,
    by decide, by decide, by decide⟩

/-- The parameter check does not compare the shapes: a one-element flag array is
accepted for a larger visibility array, whose writes then leave it. -/
theorem C12_flags_shape_false :
    ∃ (vis flags : Mem), checkParams vis flags .success = .success ∧
      vis.shape.prod > flags.shape.prod :=
  ⟨(createWrapper (some ⟨0, 0⟩) .complexDouble .cpu [2, 3, 4, 1] none .success).1,
   (createWrapper (some ⟨1, 0⟩) .int .cpu [1, 1, 1, 1] none .success).1, by decide, by decide⟩

/-- Non-vacuity: sane parameters exist and something is flagged, with a window. -/
example : Sane intOps ⟨1, 3, 100, 100, 1, 1, 2, 1, 1, 5, 1⟩ :=
  ⟨isort_length, by decide, by decide, by decide⟩

example : flagged intOps ⟨1, 3, 100, 100, 1, 1, 2, 1, 1, 5, 1⟩
    (fun _ c => if c = 3 then 50 else c) = [(0, 3), (0, 2), (0, 4)] := by decide

example : Nonempty (Execution intOps ⟨1, 3, 100, 100, 1, 1, 2, 1, 2, 5, 1⟩
    (fun _ _ c _ => if c = 3 then 50 else c) [3, 8, 2, 7, 4, 9]) :=
  ⟨⟨[([1], ⟨fun _ => 7, fun _ => 7⟩), ([0], ⟨fun _ => 0, fun _ => 0⟩)], fun _ _ _ _ => 3,
    by decide, by decide⟩⟩

end Sdp.Flagger
