import Verif.Timer.ReportSpec
import Mathlib.Algebra.Order.Ring.Rat
import Mathlib.Algebra.BigOperators.Group.List.Basic
import Mathlib.Tactic.Linarith
import Mathlib.Tactic.Common

/-
C124: the report of the timers lists every scope once and accounts for its time.
-/
namespace Sdp.TimerReport

theorem foldl_max (l : List Rat) (t : Rat) :
    (l.foldl max t = t ∨ l.foldl max t ∈ l) ∧ t ≤ l.foldl max t ∧ ∀ u ∈ l, u ≤ l.foldl max t := by
  induction l generalizing t with
  | nil => exact ⟨Or.inl rfl, le_refl _, fun u h => by cases h⟩
  | cons a l ih =>
    obtain ⟨h1, h2, h3⟩ := ih (max t a)
    rw [List.foldl_cons]
    refine ⟨?_, le_trans (le_max_left _ _) h2, fun u hu => ?_⟩
    · rcases h1 with h1 | h1
      · rw [h1]
        rcases max_choice t a with h | h
        · exact Or.inl h
        · rw [h]; exact Or.inr List.mem_cons_self
      · exact Or.inr (List.mem_cons_of_mem _ h1)
    · rcases List.mem_cons.1 hu with rfl | hu
      · exact le_trans (le_max_right _ _) h2
      · exact h3 u hu

theorem times_eq (timers : List (Option Rat)) : times timers = timesOf timers := by
  unfold times
  induction timers with
  | nil => rfl
  | cons a l ih =>
    cases a with
    | none => rw [List.map_cons, ih]; rfl
    | some t => rw [List.map_cons, ih]; rfl

theorem longest_some (timers : List (Option Rat)) (t : Rat) (h : longest timers = some t) :
    IsLongest t timers := by
  unfold longest at h
  unfold IsLongest
  rw [← times_eq]
  cases hl : times timers with
  | nil => rw [hl] at h; cases h
  | cons a l =>
    rw [hl] at h
    have e : l.foldl max a = t := by injection h
    obtain ⟨h1, h2, h3⟩ := foldl_max l a
    rw [e] at h1 h2 h3
    refine ⟨?_, fun u hu => ?_⟩
    · rcases h1 with h1 | h1
      · rw [h1]; exact List.mem_cons_self
      · exact List.mem_cons_of_mem _ h1
    · rcases List.mem_cons.1 hu with rfl | hu
      · exact h2
      · exact h3 u hu

theorem longest_none (timers : List (Option Rat)) : longest timers = none ↔ timers = [] := by
  unfold longest times
  cases timers <;> simp

/-! ### When the report is defined -/

mutual
theorem lines_defined (order : List Child → List Child) (d : Nat) : ∀ s : Scope,
    (∃ L, lines order d s = some L) ↔ (s.timers ≠ [] ∧ ∀ x ∈ below d s, x.2.2.timers ≠ [])
  | .mk timers cs => by
    have ih := gather_defined order d cs
    unfold lines below
    cases hl : longest timers with
    | none =>
      have := (longest_none timers).1 hl
      refine ⟨fun h => (by obtain ⟨L, h⟩ := h; cases h), fun h => absurd this h.1⟩
    | some t =>
      have ht : timers ≠ [] := fun e => by
        rw [(longest_none timers).2 e] at hl; cases hl
      rw [← ih]
      constructor
      · rintro ⟨L, h⟩
        refine ⟨ht, ?_⟩
        cases hg : gather order d cs with
        | none => rw [hg] at h; cases h
        | some l => exact ⟨l, rfl⟩
      · rintro ⟨_, l, h⟩
        rw [h]
        exact ⟨_, rfl⟩
theorem gather_defined (order : List Child → List Child) (d : Nat) : ∀ cs : Scopes,
    (∃ l, gather order d cs = some l) ↔ ∀ x ∈ belowAll d cs, x.2.2.timers ≠ []
  | .nil => by
    unfold gather belowAll
    exact ⟨fun _ x h => (by cases h), fun _ => ⟨_, rfl⟩⟩
  | .cons name s rest => by
    have ih1 := lines_defined order (d + 1) s
    have ih2 := gather_defined order d rest
    unfold gather belowAll
    cases hl : longest s.timers with
    | none =>
      have := (longest_none _).1 hl
      refine ⟨fun h => (by obtain ⟨L, h⟩ := h; cases h), fun h => ?_⟩
      exact absurd this (h (d, name, s) (by simp))
    | some t =>
      have ht : s.timers ≠ [] := fun e => by
        rw [(longest_none _).2 e] at hl; cases hl
      have split : (∀ x ∈ (d, name, s) :: below (d + 1) s ++ belowAll d rest, x.2.2.timers ≠ []) ↔
          ((s.timers ≠ [] ∧ ∀ x ∈ below (d + 1) s, x.2.2.timers ≠ []) ∧
            ∀ x ∈ belowAll d rest, x.2.2.timers ≠ []) := by
        simp only [List.cons_append, List.mem_cons, List.mem_append]
        constructor
        · intro h
          exact ⟨⟨h _ (Or.inl rfl), fun x hx => h x (Or.inr (Or.inl hx))⟩, fun x hx => h x (Or.inr (Or.inr hx))⟩
        · rintro ⟨⟨h1, h2⟩, h3⟩ x (rfl | hx | hx)
          · exact h1
          · exact h2 x hx
          · exact h3 x hx
      rw [split, ← ih1, ← ih2]
      constructor
      · rintro ⟨l, h⟩
        cases hs : lines order (d + 1) s with
        | none => rw [hs] at h; cases h
        | some sub =>
          cases hr : gather order d rest with
          | none => rw [hs, hr] at h; cases h
          | some l' => exact ⟨⟨_, rfl⟩, ⟨_, rfl⟩⟩
      · rintro ⟨⟨sub, hs⟩, l', hr⟩
        rw [hs, hr]
        exact ⟨_, rfl⟩
end

/-- C124: the report is defined exactly if every scope has a timer. -/
theorem C124_defined (order : List Child → List Child) (name : String) (root : Scope) :
    (∃ L, report order name root = some L) ↔
      (root.timers ≠ [] ∧ ∀ x ∈ below 0 root, x.2.2.timers ≠ []) := by
  rw [← lines_defined order 0 root]
  unfold report
  constructor
  · rintro ⟨L, h⟩
    cases hl : lines order 0 root with
    | none => rw [hl] at h; cases hh : longest root.timers <;> rw [hh] at h <;> cases h
    | some l => exact ⟨l, rfl⟩
  · rintro ⟨L, h⟩
    cases hl : longest root.timers with
    | none =>
      obtain ⟨ts, cs⟩ := root
      unfold lines at h
      rw [show longest ts = none from hl] at h
      cases h
    | some t => rw [h]; exact ⟨_, rfl⟩

/-! ### Depth of the lines -/

/-- Lines of scopes and remarks are at least this deep. -/
def Deep (d : Nat) : Line → Prop
  | .entry k _ _ _ => d ≤ k
  | .unaccounted k _ _ => d ≤ k
  | .title _ _ => False
  | _ => True

theorem figures_deep (k d : Nat) (total : Rat) (ts : List (Option Rat)) :
    ∀ x ∈ figures k total ts, Deep d x := by
  intro x hx
  simp only [figures, List.mem_cons, List.not_mem_nil, or_false] at hx
  rcases hx with rfl | rfl | rfl | rfl <;> trivial

mutual
theorem lines_deep (order : List Child → List Child) (ho : ∀ l, (order l).Perm l) (d : Nat) :
    ∀ (s : Scope) (L : List Line), lines order d s = some L → ∀ x ∈ L, Deep d x
  | .mk timers cs => by
    have ih := gather_deep order ho d cs
    intro L h
    unfold lines at h
    cases hl : longest timers with
    | none => rw [hl] at h; cases h
    | some t =>
      cases hg : gather order d cs with
      | none => rw [hl, hg] at h; cases h
      | some l =>
        rw [hl, hg] at h
        have e : body order d t l = L := by injection h
        subst e
        intro x hx
        unfold body at hx
        rw [List.mem_append] at hx
        rcases hx with hx | hx
        · obtain ⟨c, hc, hx⟩ := List.mem_flatMap.1 hx
          have hc := (ho l).mem_iff.1 hc
          unfold childLines at hx
          simp only [List.mem_append] at hx
          rcases hx with (hx | hx) | hx
          · rw [List.mem_singleton] at hx; subst hx; exact le_refl d
          · split at hx
            · exact figures_deep _ _ _ _ x hx
            · cases hx
          · split at hx
            · cases hx
            · have := ih l hg c hc x hx
              cases x <;> first | exact this | exact Nat.le_of_succ_le this
        · split at hx
          · rw [List.mem_singleton] at hx; subst hx; exact le_refl d
          · cases hx
theorem gather_deep (order : List Child → List Child) (ho : ∀ l, (order l).Perm l) (d : Nat) :
    ∀ (cs : Scopes) (l : List Child), gather order d cs = some l → ∀ c ∈ l, ∀ x ∈ c.sub, Deep (d + 1) x
  | .nil => by
    intro l h
    unfold gather at h
    have e : [] = l := by injection h
    subst e
    intro c hc
    cases hc
  | .cons name s rest => by
    have ih1 := lines_deep order ho (d + 1) s
    have ih2 := gather_deep order ho d rest
    intro l h
    unfold gather at h
    cases hl : longest s.timers with
    | none => rw [hl] at h; cases h
    | some t =>
      cases hs : lines order (d + 1) s with
      | none => rw [hl, hs] at h; cases h
      | some sub =>
        cases hr : gather order d rest with
        | none => rw [hl, hs, hr] at h; cases h
        | some l' =>
          rw [hl, hs, hr] at h
          have e : (⟨name, t, s.timers, s.leaf, sub⟩ :: l' : List Child) = l := by injection h
          subst e
          intro c hc
          rcases List.mem_cons.1 hc with rfl | hc
          · exact ih1 sub hs
          · exact ih2 l' hr c hc
end

/-! ### Sections add up -/

theorem timesAt_append (d : Nat) (a b : List Line) : timesAt d (a ++ b) = timesAt d a ++ timesAt d b :=
  List.filterMap_append

theorem missingAt_append (d : Nat) (a b : List Line) :
    missingAt d (a ++ b) = missingAt d a ++ missingAt d b :=
  List.filterMap_append

theorem timesAt_deep (d : Nat) (l : List Line) (h : ∀ x ∈ l, Deep (d + 1) x) : timesAt d l = [] := by
  unfold timesAt
  rw [List.filterMap_eq_nil_iff]
  intro x hx
  have := h x hx
  cases x with
  | entry k n t p =>
    have : d + 1 ≤ k := this
    dsimp only
    rw [if_neg (by omega)]
  | _ => rfl

theorem missingAt_deep (d : Nat) (l : List Line) (h : ∀ x ∈ l, Deep (d + 1) x) :
    missingAt d l = [] := by
  unfold missingAt
  rw [List.filterMap_eq_nil_iff]
  intro x hx
  have := h x hx
  cases x with
  | unaccounted k t p =>
    have : d + 1 ≤ k := this
    dsimp only
    rw [if_neg (by omega)]
  | _ => rfl

theorem child_rest_deep (d : Nat) (total : Rat) (c : Child) (h : ∀ x ∈ c.sub, Deep (d + 1) x) :
    ∀ x ∈ (if c.timers.length > 1 then figures d total c.timers else []) ++
      (if c.leaf then [] else c.sub), Deep (d + 1) x := by
  intro x hx
  rw [List.mem_append] at hx
  rcases hx with hx | hx
  · split at hx
    · exact figures_deep _ _ _ _ x hx
    · cases hx
  · split at hx
    · cases hx
    · exact h x hx

theorem childLines_times (d : Nat) (total : Rat) (c : Child) (h : ∀ x ∈ c.sub, Deep (d + 1) x) :
    timesAt d (childLines d total c) = [c.time] ∧ missingAt d (childLines d total c) = [] := by
  have hr := child_rest_deep d total c h
  unfold childLines
  rw [List.append_assoc, timesAt_append, missingAt_append, timesAt_deep d _ hr, missingAt_deep d _ hr]
  simp [timesAt, missingAt]

theorem flatMap_times (d : Nat) (total : Rat) : ∀ (l : List Child),
    (∀ c ∈ l, ∀ x ∈ c.sub, Deep (d + 1) x) →
    timesAt d (l.flatMap (childLines d total)) = l.map Child.time ∧
    missingAt d (l.flatMap (childLines d total)) = []
  | [], _ => ⟨rfl, rfl⟩
  | c :: l, h => by
    obtain ⟨h1, h2⟩ := flatMap_times d total l fun c hc => h c (List.mem_cons_of_mem _ hc)
    obtain ⟨h3, h4⟩ := childLines_times d total c (h c List.mem_cons_self)
    rw [List.flatMap_cons, timesAt_append, missingAt_append, h1, h2, h3, h4]
    exact ⟨rfl, rfl⟩

theorem body_addsUp (order : List Child → List Child) (ho : Sorts order) (d : Nat) (total : Rat)
    (l : List Child) (h : ∀ c ∈ l, ∀ x ∈ c.sub, Deep (d + 1) x) :
    AddsUp d total (body order d total l) := by
  have hd : ∀ c ∈ order l, ∀ x ∈ c.sub, Deep (d + 1) x :=
    fun c hc => h c ((ho l).1.mem_iff.1 hc)
  obtain ⟨h1, h2⟩ := flatMap_times d total (order l) hd
  have ht : timesAt d (body order d total l) = (order l).map Child.time := by
    unfold body
    dsimp only
    rw [timesAt_append, h1]
    split
    · simp [timesAt]
    · simp [timesAt]
  refine ⟨by rw [ht]; exact (ho l).2, ?_, ?_⟩
  · rw [ht]
    unfold body
    dsimp only
    rw [missingAt_append, h2]
    by_cases hs : ((order l).map Child.time).sum < 99 / 100 * total
    · rw [if_pos hs]
      refine Or.inr ⟨total - ((order l).map Child.time).sum, by simp [missingAt], by linarith⟩
    · rw [if_neg hs]
      exact Or.inl ⟨by simp [missingAt], not_lt.1 hs⟩
  · intro h0 n t p hx
    unfold body at hx
    rw [List.mem_append] at hx
    rcases hx with hx | hx
    · obtain ⟨c, hc, hx⟩ := List.mem_flatMap.1 hx
      unfold childLines at hx
      rw [List.append_assoc, List.mem_append] at hx
      rcases hx with hx | hx
      · rw [List.mem_singleton] at hx
        injection hx with e1 e2 e3 e4
        subst e3
        rw [e4]
        unfold percent
        rw [if_neg h0]
      · have : d + 1 ≤ d := child_rest_deep d total c (hd c hc) _ hx
        omega
    · split at hx
      · rw [List.mem_singleton] at hx; cases hx
      · cases hx

theorem lines_addsUp (order : List Child → List Child) (ho : Sorts order) (d : Nat) (s : Scope)
    (L : List Line) (h : lines order d s = some L) :
    ∃ total, longest s.timers = some total ∧ AddsUp d total L := by
  obtain ⟨timers, cs⟩ := s
  unfold lines at h
  cases hl : longest timers with
  | none => rw [hl] at h; cases h
  | some t =>
    cases hg : gather order d cs with
    | none => rw [hl, hg] at h; cases h
    | some l =>
      rw [hl, hg] at h
      have e : body order d t l = L := by injection h
      subst e
      exact ⟨t, hl, body_addsUp order ho d t l (gather_deep order (fun l => (ho l).1) d cs l hg)⟩

/-- Only lines with figures of a set of timers. -/
def OnlyFigures (l : List Line) : Prop :=
  ∀ x ∈ l, (∃ d w t p, x = .figure d w t p) ∨ ∃ d t, x = .interquartile d t

theorem figures_only (k : Nat) (total : Rat) (ts : List (Option Rat)) : OnlyFigures (figures k total ts) := by
  intro x hx
  simp only [figures, List.mem_cons, List.not_mem_nil, or_false] at hx
  rcases hx with rfl | rfl | rfl | rfl
  · exact Or.inl ⟨_, _, _, _, rfl⟩
  · exact Or.inl ⟨_, _, _, _, rfl⟩
  · exact Or.inl ⟨_, _, _, _, rfl⟩
  · exact Or.inr ⟨_, _, rfl⟩

/-- The section of a scope follows its line (and the figures of its timers). -/
def HasSection (order : List Child → List Child) (x : Nat × String × Scope) (L : List Line) : Prop :=
  ∃ pre t p figs sec post, L = pre ++ .entry x.1 x.2.1 t p :: (figs ++ sec) ++ post ∧
    longest x.2.2.timers = some t ∧ OnlyFigures figs ∧
    if x.2.2.leaf then sec = [] else lines order (x.1 + 1) x.2.2 = some sec

theorem HasSection.mono (order : List Child → List Child) (x : Nat × String × Scope)
    (a L b : List Line) (h : HasSection order x L) : HasSection order x (a ++ L ++ b) := by
  obtain ⟨pre, t, p, figs, sec, post, e, h⟩ := h
  exact ⟨a ++ pre, t, p, figs, sec, post ++ b, by rw [e]; simp, h⟩

/-- A child of the list stands for a scope. -/
def Stands (order : List Child → List Child) (d : Nat) (name : String) (s : Scope) (c : Child) : Prop :=
  c.name = name ∧ longest s.timers = some c.time ∧ c.timers = s.timers ∧ c.leaf = s.leaf ∧
    lines order (d + 1) s = some c.sub

theorem child_section (order : List Child → List Child) (d : Nat) (total : Rat) (name : String)
    (s : Scope) (c : Child) (h : Stands order d name s c) :
    HasSection order (d, name, s) (childLines d total c) := by
  obtain ⟨h1, h2, h3, h4, h5⟩ := h
  refine ⟨[], c.time, percent c.time total,
    if c.timers.length > 1 then figures d total c.timers else [],
    if c.leaf then [] else c.sub, [], ?_, h2, ?_, ?_⟩
  · unfold childLines
    rw [h1]
    simp
  · split
    · exact figures_only _ _ _
    · intro x hx; cases hx
  · dsimp only
    rw [h4]
    cases s.leaf
    · simpa using h5
    · rfl

/-- What is true of the report of a child is true of the report of its parent. -/
theorem in_body (order : List Child → List Child) (ho : ∀ l, (order l).Perm l) (d : Nat) (total : Rat)
    (l : List Child) (c : Child) (hc : c ∈ l) (x : Nat × String × Scope)
    (h : HasSection order x (childLines d total c)) : HasSection order x (body order d total l) := by
  have hc' := (ho l).mem_iff.2 hc
  obtain ⟨a, b, e⟩ := List.append_of_mem hc'
  unfold body
  dsimp only
  rw [e, List.flatMap_append, List.flatMap_cons]
  have := HasSection.mono order x (a.flatMap (childLines d total)) _
    (b.flatMap (childLines d total) ++ if ((a ++ c :: b).map Child.time).sum < 99 / 100 * total then
      [.unaccounted d (total - ((a ++ c :: b).map Child.time).sum)
        (percent (total - ((a ++ c :: b).map Child.time).sum) total)] else []) h
  simpa [List.append_assoc] using this

theorem leaf_below (d : Nat) (s : Scope) (h : s.leaf = true) : below d s = [] := by
  obtain ⟨ts, cs⟩ := s
  cases cs with
  | nil => rfl
  | cons n s r => cases h

mutual
theorem lines_sections (order : List Child → List Child) (ho : ∀ l, (order l).Perm l) (d : Nat) :
    ∀ (s : Scope) (L : List Line), lines order d s = some L →
      ∀ x ∈ below d s, HasSection order x L
  | .mk timers cs => by
    have ih := gather_sections order ho d cs
    intro L h x hx
    unfold lines at h
    cases hl : longest timers with
    | none => rw [hl] at h; cases h
    | some t =>
      cases hg : gather order d cs with
      | none => rw [hl, hg] at h; cases h
      | some l =>
        rw [hl, hg] at h
        have e : body order d t l = L := by injection h
        subst e
        unfold below at hx
        obtain ⟨c, hc, h'⟩ := ih l hg t x hx
        exact in_body order ho d t l c hc x h'
theorem gather_sections (order : List Child → List Child) (ho : ∀ l, (order l).Perm l) (d : Nat) :
    ∀ (cs : Scopes) (l : List Child), gather order d cs = some l → ∀ total,
      ∀ x ∈ belowAll d cs, ∃ c ∈ l, HasSection order x (childLines d total c)
  | .nil => by
    intro l _ _ x hx
    unfold belowAll at hx
    cases hx
  | .cons name s rest => by
    have ih1 := lines_sections order ho (d + 1) s
    have ih2 := gather_sections order ho d rest
    intro l h total x hx
    unfold gather at h
    cases hl : longest s.timers with
    | none => rw [hl] at h; cases h
    | some t =>
      cases hs : lines order (d + 1) s with
      | none => rw [hl, hs] at h; cases h
      | some sub =>
        cases hr : gather order d rest with
        | none => rw [hl, hs, hr] at h; cases h
        | some l' =>
          rw [hl, hs, hr] at h
          have e : (⟨name, t, s.timers, s.leaf, sub⟩ :: l' : List Child) = l := by injection h
          subst e
          unfold belowAll at hx
          rw [List.cons_append, List.mem_cons, List.mem_append] at hx
          rcases hx with rfl | hx | hx
          · exact ⟨_, List.mem_cons_self, child_section order d total name s _ ⟨rfl, hl, rfl, rfl, hs⟩⟩
          · refine ⟨_, List.mem_cons_self, ?_⟩
            have h1 := ih1 sub hs x hx
            have hleaf : s.leaf = false := by
              cases hf : s.leaf
              · rfl
              · rw [leaf_below _ s hf] at hx; cases hx
            unfold childLines
            dsimp only
            rw [hleaf, if_neg (by decide : ¬ (false = true))]
            have := HasSection.mono order x ([.entry d name t (percent t total)] ++
              if s.timers.length > 1 then figures d total s.timers else []) sub [] h1
            simpa using this
          · obtain ⟨c, hc, h'⟩ := ih2 l' hr total x hx
            exact ⟨c, List.mem_cons_of_mem _ hc, h'⟩
end

theorem addsUp_title (d : Nat) (total : Rat) (n : String) (t : Rat) (L : List Line)
    (h : AddsUp d total L) : AddsUp d total (.title n t :: L) := by
  have e1 : timesAt d (.title n t :: L) = timesAt d L := by simp [timesAt]
  have e2 : missingAt d (.title n t :: L) = missingAt d L := by simp [missingAt]
  unfold AddsUp
  rw [e1, e2]
  refine ⟨h.1, h.2.1, fun h0 n' t' p hx => ?_⟩
  rcases List.mem_cons.1 hx with hx | hx
  · cases hx
  · exact h.2.2 h0 n' t' p hx

/-- C124: the report starts with the time of the root; its lines at the first level add up
to that time; and after the line of every other scope, and figures of its timers,
follow lines that add up to the time on the line, if it has scopes below it. -/
theorem C124_sections (order : List Child → List Child) (ho : Sorts order) (name : String)
    (root : Scope) (L : List Line) (h : report order name root = some L) :
    (∃ total rest, L = .title name total :: rest ∧ IsLongest total root.timers ∧ AddsUp 0 total L) ∧
    ∀ x ∈ below 0 root, ∃ pre t p figs sec post,
      L = pre ++ .entry x.1 x.2.1 t p :: (figs ++ sec) ++ post ∧
      IsLongest t x.2.2.timers ∧ OnlyFigures figs ∧
      (x.2.2.leaf = false → AddsUp (x.1 + 1) t sec) ∧ (x.2.2.leaf = true → sec = []) := by
  unfold report at h
  cases hl : longest root.timers with
  | none => rw [hl] at h; cases h
  | some total =>
    cases hr : lines order 0 root with
    | none => rw [hl, hr] at h; cases h
    | some l =>
      rw [hl, hr] at h
      have e : .title name total :: l = L := by injection h
      subst e
      obtain ⟨t', ht', ha⟩ := lines_addsUp order ho 0 root l hr
      rw [hl] at ht'
      have et : total = t' := by injection ht'
      subst et
      refine ⟨⟨total, l, rfl, longest_some _ _ hl, addsUp_title _ _ _ _ _ ha⟩, fun x hx => ?_⟩
      obtain ⟨pre, t, p, figs, sec, post, e, h1, h2, h3⟩ :=
        lines_sections order (fun l => (ho l).1) 0 root l hr x hx
      refine ⟨.title name total :: pre, t, p, figs, sec, post, by rw [e]; simp, longest_some _ _ h1, h2,
        fun hf => ?_, fun hf => ?_⟩
      · rw [hf, if_neg (by decide : ¬ (false = true))] at h3
        obtain ⟨t'', e', h4⟩ := lines_addsUp order ho (x.1 + 1) x.2.2 sec h3
        rw [h1] at e'
        have et : t = t'' := by injection e'
        subst et
        exact h4
      · rw [hf, if_pos rfl] at h3
        exact h3

/-! ### Every scope once -/

theorem entries_append (a b : List Line) : entries (a ++ b) = entries a ++ entries b :=
  List.filterMap_append

theorem entries_flatMap (f : Child → List Line) : ∀ l : List Child,
    entries (l.flatMap f) = l.flatMap fun c => entries (f c)
  | [] => rfl
  | c :: l => by rw [List.flatMap_cons, entries_append, entries_flatMap f l, List.flatMap_cons]

theorem figures_entries (k : Nat) (total : Rat) (ts : List (Option Rat)) :
    entries (figures k total ts) = [] := rfl

theorem body_entries (order : List Child → List Child) (ho : ∀ l, (order l).Perm l) (d : Nat)
    (total : Rat) (l : List Child) :
    (entries (body order d total l)).Perm
      (l.flatMap fun c => (d, c.name, c.time) :: if c.leaf then [] else entries c.sub) := by
  have e : entries (body order d total l) = (order l).flatMap fun c =>
      (d, c.name, c.time) :: if c.leaf then [] else entries c.sub := by
    unfold body
    dsimp only
    rw [entries_append, entries_flatMap]
    have : entries (if ((order l).map Child.time).sum < 99 / 100 * total then
        [Line.unaccounted d (total - ((order l).map Child.time).sum)
          (percent (total - ((order l).map Child.time).sum) total)] else []) = [] := by
      split <;> rfl
    rw [this, List.append_nil]
    congr 1
    funext c
    unfold childLines
    rw [entries_append, entries_append]
    have f : entries (if c.timers.length > 1 then figures d total c.timers else []) = [] := by
      split
      · exact figures_entries _ _ _
      · rfl
    rw [f]
    cases c.leaf
    · rfl
    · rfl
  rw [e]
  exact (ho l).flatMap_right _

/-- A listed scope: depth, name and longest time. -/
def Lists (e : Nat × String × Rat) (x : Nat × String × Scope) : Prop :=
  e.1 = x.1 ∧ e.2.1 = x.2.1 ∧ IsLongest e.2.2 x.2.2.timers

mutual
theorem lines_entries (order : List Child → List Child) (ho : ∀ l, (order l).Perm l) (d : Nat) :
    ∀ (s : Scope) (L : List Line), lines order d s = some L →
      ∃ E, (entries L).Perm E ∧ List.Forall₂ Lists E (below d s)
  | .mk timers cs => by
    have ih := gather_entries order ho d cs
    intro L h
    unfold lines at h
    cases hl : longest timers with
    | none => rw [hl] at h; cases h
    | some t =>
      cases hg : gather order d cs with
      | none => rw [hl, hg] at h; cases h
      | some l =>
        rw [hl, hg] at h
        have e : body order d t l = L := by injection h
        subst e
        obtain ⟨E, h1, h2⟩ := ih l hg
        unfold below
        exact ⟨E, (body_entries order ho d t l).trans h1, h2⟩
theorem gather_entries (order : List Child → List Child) (ho : ∀ l, (order l).Perm l) (d : Nat) :
    ∀ (cs : Scopes) (l : List Child), gather order d cs = some l →
      ∃ E, (l.flatMap fun c => (d, c.name, c.time) :: if c.leaf then [] else entries c.sub).Perm E ∧
        List.Forall₂ Lists E (belowAll d cs)
  | .nil => by
    intro l h
    unfold gather at h
    have e : [] = l := by injection h
    subst e
    unfold belowAll
    exact ⟨[], List.Perm.refl _, List.Forall₂.nil⟩
  | .cons name s rest => by
    have ih1 := lines_entries order ho (d + 1) s
    have ih2 := gather_entries order ho d rest
    intro l h
    unfold gather at h
    cases hl : longest s.timers with
    | none => rw [hl] at h; cases h
    | some t =>
      cases hs : lines order (d + 1) s with
      | none => rw [hl, hs] at h; cases h
      | some sub =>
        cases hr : gather order d rest with
        | none => rw [hl, hs, hr] at h; cases h
        | some l' =>
          rw [hl, hs, hr] at h
          have e : (⟨name, t, s.timers, s.leaf, sub⟩ :: l' : List Child) = l := by injection h
          subst e
          obtain ⟨E1, p1, f1⟩ := ih1 sub hs
          obtain ⟨E2, p2, f2⟩ := ih2 l' hr
          unfold belowAll
          rw [List.flatMap_cons, List.cons_append, List.cons_append]
          dsimp only
          refine ⟨(d, name, t) :: (E1 ++ E2), List.Perm.cons _ (List.Perm.append ?_ p2),
            List.Forall₂.cons ⟨rfl, rfl, longest_some _ _ hl⟩ (List.rel_append f1 f2)⟩
          cases hf : s.leaf with
          | true =>
            rw [leaf_below _ s hf] at f1
            cases f1
            exact List.Perm.refl _
          | false => exact p1
end

/-- C124: the scopes on the lines of the report are those below the root, each once, with
depth, name and longest time. -/
theorem C124_every_scope_once (order : List Child → List Child) (ho : Sorts order) (name : String)
    (root : Scope) (L : List Line) (h : report order name root = some L) :
    ∃ E, (entries L).Perm E ∧ List.Forall₂ (fun e x => e.1 = x.1 ∧ e.2.1 = x.2.1 ∧
      IsLongest e.2.2 x.2.2.timers) E (below 0 root) := by
  unfold report at h
  cases hl : longest root.timers with
  | none => rw [hl] at h; cases h
  | some total =>
    cases hr : lines order 0 root with
    | none => rw [hl, hr] at h; cases h
    | some l =>
      rw [hl, hr] at h
      have e : .title name total :: l = L := by injection h
      subst e
      exact lines_entries order (fun l => (ho l).1) 0 root l hr

/-! ### Figures of a set of timers -/

theorem counts (l : List Rat) (hl : l.Pairwise (· ≤ ·)) (i : Nat) (hi : i < l.length) :
    i + 1 ≤ l.countP (fun u => decide (u ≤ l.getD i 0)) ∧
    l.length - i ≤ l.countP (fun u => decide (l.getD i 0 ≤ u)) := by
  have hg : l.getD i 0 = l[i] := by rw [List.getD_eq_getElem?_getD, List.getElem?_eq_getElem hi]; rfl
  rw [hg]
  have le : ∀ a b (ha : a < l.length) (hb : b < l.length), a ≤ b → l[a] ≤ l[b] := by
    intro a b ha hb hab
    rcases Nat.lt_or_eq_of_le hab with h | h
    · exact List.pairwise_iff_getElem.1 hl a b ha hb h
    · subst h; exact le_refl _
  constructor
  · have h1 : (l.take (i + 1)).countP (fun u => decide (u ≤ l[i])) = (l.take (i + 1)).length := by
      rw [List.countP_eq_length]
      intro u hu
      obtain ⟨k, hk, rfl⟩ := List.mem_iff_getElem.1 hu
      rw [List.length_take] at hk
      rw [List.getElem_take]
      exact decide_eq_true (le k i (by omega) hi (by omega))
    have h2 := (List.take_sublist (i + 1) l).countP_le (p := fun u => decide (u ≤ l[i]))
    rw [h1, List.length_take] at h2
    omega
  · have h1 : (l.drop i).countP (fun u => decide (l[i] ≤ u)) = (l.drop i).length := by
      rw [List.countP_eq_length]
      intro u hu
      obtain ⟨k, hk, rfl⟩ := List.mem_iff_getElem.1 hu
      rw [List.length_drop] at hk
      rw [List.getElem_drop]
      exact decide_eq_true (le i (i + k) hi (by omega) (by omega))
    have h2 := (List.drop_sublist i l).countP_le (p := fun u => decide (l[i] ≤ u))
    rw [h1, List.length_drop] at h2
    exact h2

/-- C124: for a set of timers the report gives the shortest and the longest time, a median,
and the difference of two times of which the second is a lower quartile, and the
first an upper quartile if the number of timers is 0 or 1 more than a multiple of
four. -/
theorem C124_figures_partial (depth : Nat) (total : Rat) (timers : List (Option Rat))
    (hn : timers ≠ []) :
    ∃ lo hi med q1 q3, figures depth total timers =
        [.figure depth .minimum lo (percent lo total), .figure depth .maximum hi (percent hi total),
          .figure depth .median med (percent med total), .interquartile depth (q3 - q1)] ∧
      IsShortest lo timers ∧ IsLongest hi timers ∧ IsQuantile 1 2 med (timesOf timers) ∧
      IsQuantile 1 4 q1 (timesOf timers) ∧
      (timers.length % 4 ≤ 1 → IsQuantile 3 4 q3 (timesOf timers)) := by
  unfold IsShortest IsLongest
  rw [← times_eq]
  have hp : ((times timers).mergeSort (fun a b => decide (a ≤ b))).Perm (times timers) :=
    List.mergeSort_perm _ _
  have hs : ((times timers).mergeSort (fun a b => decide (a ≤ b))).Pairwise (· ≤ ·) := by
    have := List.pairwise_mergeSort (le := fun a b : Rat => decide (a ≤ b))
      (fun a b c h1 h2 => by
        simp only [decide_eq_true_eq] at *
        exact le_trans h1 h2)
      (fun a b => by
        simp only [Bool.or_eq_true, decide_eq_true_eq]
        exact le_total a b) (times timers)
    simpa using this
  refine ⟨_, _, _, _, _, rfl, ?_⟩
  generalize (times timers).mergeSort (fun a b => decide (a ≤ b)) = l at hp hs ⊢
  have hlen : l.length = (times timers).length := hp.length_eq
  have hlen' : (times timers).length = timers.length := by unfold times; rw [List.length_map]
  have hpos : 0 < l.length := by
    rw [hlen, hlen']
    exact List.length_pos_iff.2 hn
  have mem : ∀ i, i < l.length → l.getD i 0 ∈ times timers := by
    intro i hi
    rw [List.getD_eq_getElem?_getD, List.getElem?_eq_getElem hi]
    exact hp.mem_iff.1 (List.getElem_mem hi)
  have quant : ∀ i a b, i < l.length → a * l.length ≤ b * (i + 1) →
      (b - a) * l.length ≤ b * (l.length - i) → IsQuantile a b (l.getD i 0) (times timers) := by
    intro i a b hi h1 h2
    obtain ⟨c1, c2⟩ := counts l hs i hi
    rw [hp.countP_eq] at c1 c2
    refine ⟨mem i hi, ?_, ?_⟩
    · rw [← hlen]
      exact le_trans h1 (Nat.mul_le_mul_left b c1)
    · rw [← hlen]
      exact le_trans h2 (Nat.mul_le_mul_left b c2)
  have all : ∀ u ∈ times timers, ∃ k, ∃ h : k < l.length, l[k] = u := by
    intro u hu
    obtain ⟨k, hk, e⟩ := List.mem_iff_getElem.1 (hp.mem_iff.2 hu)
    exact ⟨k, hk, e⟩
  have get : ∀ i (hi : i < l.length), l.getD i 0 = l[i] := fun i hi => by
    rw [List.getD_eq_getElem?_getD, List.getElem?_eq_getElem hi]; rfl
  have le : ∀ a b (ha : a < l.length) (hb : b < l.length), a ≤ b → l[a] ≤ l[b] := by
    intro a b ha hb hab
    rcases Nat.lt_or_eq_of_le hab with h | h
    · exact List.pairwise_iff_getElem.1 hs a b ha hb h
    · subst h; exact le_refl _
  refine ⟨⟨mem 0 hpos, fun u hu => ?_⟩, ⟨mem (l.length - 1) (by omega), fun u hu => ?_⟩,
    quant _ 1 2 (by omega) (by omega) (by omega), quant _ 1 4 (by omega) (by omega) (by omega),
    fun h4 => quant _ 3 4 (by omega) (by omega) (by omega)⟩
  · obtain ⟨k, hk, rfl⟩ := all u hu
    show l.getD 0 0 ≤ _
    rw [get 0 hpos]
    exact le 0 k hpos hk (by omega)
  · obtain ⟨k, hk, rfl⟩ := all u hu
    show _ ≤ l.getD (l.length - 1) 0
    rw [get _ (by omega)]
    exact le k _ hk (by omega) (by omega)

end Sdp.TimerReport
