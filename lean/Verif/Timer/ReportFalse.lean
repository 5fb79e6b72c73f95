import Verif.Timer.ReportProps

/-
C124 is false of some hierarchies; and cases that meet the hypotheses of the theorems.
-/
namespace Sdp.TimerReport

/-- Children by decreasing time, those of equal time in the order of their names. -/
def byTime (l : List Child) : List Child := l.mergeSort fun a b => decide (b.time ≤ a.time)

theorem byTime_sorts : Sorts byTime := by
  intro l
  refine ⟨List.mergeSort_perm _ _, ?_⟩
  have := List.pairwise_mergeSort (le := fun a b : Child => decide (b.time ≤ a.time))
    (fun a b c h1 h2 => by
      simp only [decide_eq_true_eq] at *
      exact le_trans h2 h1)
    (fun a b => by
      simp only [Bool.or_eq_true, decide_eq_true_eq]
      exact le_total b.time a.time) l
  unfold byTime
  rw [List.pairwise_map]
  simpa using this

/-- C124 is false of a set without timers: making the report is undefined. -/
theorem C124_empty_set_false (order : List Child → List Child) :
    report order "r" (.mk [some 1] (.cons "s" (.mk [] .nil) .nil)) = none := by
  unfold report lines gather
  rfl

/-- C124 is false of the interquartile range: for three timers with the times 1, 2 and 3
the report says 0, which is not the difference of an upper and a lower quartile. -/
theorem C124_interquartile_false (depth : Nat) (total : Rat) :
    Line.interquartile depth 0 ∈ figures depth total [some 1, some 2, some 3] ∧
    ¬ ∃ q1 q3, IsQuantile 1 4 q1 [1, 2, 3] ∧ IsQuantile 3 4 q3 [1, 2, 3] ∧ q3 - q1 = 0 := by
  constructor
  · have e : (times [some 1, some 2, some 3]).mergeSort (fun a b => decide (a ≤ b)) = [1, 2, 3] :=
      List.mergeSort_of_pairwise (by decide +kernel)
    unfold figures
    rw [e]
    simp
  · rintro ⟨q1, q3, ⟨m1, _, h1⟩, ⟨m3, h3, _⟩, e⟩
    have m1 : q1 = 1 ∨ q1 = 2 ∨ q1 = 3 := by simpa using m1
    have m3 : q3 = 1 ∨ q3 = 2 ∨ q3 = 3 := by simpa using m3
    rcases m1 with rfl | rfl | rfl
    · rcases m3 with rfl | rfl | rfl
      · exact absurd h3 (by decide +kernel)
      · exact absurd h3 (by decide +kernel)
      · exact absurd e (by decide +kernel)
    · exact absurd h1 (by decide +kernel)
    · exact absurd h1 (by decide +kernel)

/-- C124 is false of the percentages of a scope without time: they divide by zero. -/
theorem C124_zero_total_false (order : List Child → List Child) (ho : Sorts order) :
    ∃ L, report order "r" (.mk [some 0] (.cons "a" (.mk [some 0] .nil) .nil)) = some L ∧
      Line.entry 0 "a" 0 none ∈ L := by
  have h : order [⟨"a", 0, [some 0], true, []⟩] = [⟨"a", 0, [some 0], true, []⟩] :=
    List.perm_singleton.1 (ho _).1
  have h0 : order [] = [] := List.perm_nil.1 (ho _).1
  have e : gather order 0 (.cons "a" (.mk [some 0] .nil) .nil) = some [⟨"a", 0, [some 0], true, []⟩] := by
    unfold gather lines gather
    show some [(⟨"a", 0, [some 0], true, body order 1 0 []⟩ : Child)] = _
    have : body order 1 0 [] = [] := by
      unfold body
      rw [h0]
      decide +kernel
    rw [this]
  refine ⟨.title "r" 0 :: body order 0 0 [⟨"a", 0, [some 0], true, []⟩], ?_, ?_⟩
  · unfold report lines
    rw [e]
    rfl
  · unfold body
    rw [h]
    decide +kernel

/-- Three scopes, one in another, with sets of one, four and two timers; of 10 seconds 2
are missing. -/
def sample : Scope :=
  .mk [some 10] (.cons "fft" (.mk [some 1, none, some 2, some 1] .nil)
    (.cons "grid" (.mk [some 6] (.cons "kernel" (.mk [some 5, some 6] .nil) .nil)) .nil))

/-- Non-vacuity: the report of these scopes is defined. -/
example : ∃ L, report byTime "run, 4 threads" sample = some L :=
  (C124_defined byTime _ sample).2 ⟨by decide, by
    intro x hx
    simp only [sample, below, belowAll, List.cons_append, List.nil_append, List.append_nil, List.mem_cons,
      List.not_mem_nil, or_false] at hx
    rcases hx with rfl | rfl | rfl <;> simp [Scope.timers]⟩

/-- The report without "kernel", line by line. -/
example : report byTime "run" (.mk [some 10] (.cons "fft" (.mk [some 2] .nil)
      (.cons "grid" (.mk [some 6] .nil) .nil))) =
    some [.title "run" 10, .entry 0 "grid" 6 (some 60), .entry 0 "fft" 2 (some 20),
      .unaccounted 0 2 (some 20)] := by
  obtain ⟨s1, s2, e1⟩ : ∃ s1 s2, gather byTime 0
      (.cons "fft" (.mk [some 2] .nil) (.cons "grid" (.mk [some 6] .nil) .nil)) =
      some [⟨"fft", 2, [some 2], true, s1⟩, ⟨"grid", 6, [some 6], true, s2⟩] := by
    refine ⟨body byTime 1 2 [], body byTime 1 6 [], ?_⟩
    unfold gather gather gather lines gather
    rfl
  have e2 : byTime [⟨"fft", 2, [some 2], true, s1⟩, ⟨"grid", 6, [some 6], true, s2⟩] =
      [⟨"grid", 6, [some 6], true, s2⟩, ⟨"fft", 2, [some 2], true, s1⟩] := by
    unfold byTime
    simp [List.mergeSort, List.MergeSort.Internal.splitInTwo, List.merge]
    decide +kernel
  unfold report lines
  rw [e1]
  show some (Line.title "run" 10 :: body byTime 0 10 _) = _
  unfold body
  rw [e2]
  show some (Line.title "run" 10 :: ([.entry 0 "grid" 6 (percent 6 10), .entry 0 "fft" 2 (percent 2 10)] ++
    if ([6, 2] : List Rat).sum < 99 / 100 * 10 then
      [.unaccounted 0 (10 - ([6, 2] : List Rat).sum) (percent (10 - ([6, 2] : List Rat).sum) 10)]
    else [])) = _
  decide +kernel

/-- The figures of four timers. -/
example : ([some 1, none, some 2, some 1] : List (Option Rat)) ≠ [] ∧
    ([some 1, none, some 2, some 1] : List (Option Rat)).length % 4 ≤ 1 := by decide

end Sdp.TimerReport
