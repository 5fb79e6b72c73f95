import Mathlib.Tactic.Abel
import Mathlib.Tactic.Linarith
import Mathlib.Algebra.Order.Ring.Rat
import Verif.Timer.Spec

/-!
# C10 — a timer reports the time spent running;  C11 — nested timing scopes
-/

namespace Sdp
open TimerSpec

section
variable {T : Type} [AddCommGroup T]

/-! ## C10 -/

theorem runningTime_shift (h : List (T × TimerOp)) (a b : T) :
    runningTime h b = runningTime h a + (if running h then b - a else 0) := by
  cases h with
  | nil => simp [runningTime, running]
  | cons e older =>
    obtain ⟨t, op⟩ := e
    simp only [runningTime]
    by_cases hr : running ((t, op) :: older) = true
    · simp only [hr, if_true]; abel
    · simp [hr]

theorem runningTime_query (h : List (T × TimerOp)) (t now : T) :
    runningTime ((t, .query) :: h) now = runningTime h now := by
  rw [runningTime_shift h t now]
  by_cases hr : running h = true <;> simp [runningTime, running, hr, add_comm]

theorem timer_invariant (h : List (T × TimerOp)) (hn : NoRestartWhileRunning h) :
    (timerRun h).paused = !running h ∧
    ∀ now, (if (timerRun h).paused then (timerRun h).elapsed
      else (timerRun h).elapsed + (now - (timerRun h).start)) = runningTime h now := by
  induction h with
  | nil => simp [timerRun, timerCreate, running, runningTime]
  | cons e older ih =>
    obtain ⟨t, op⟩ := e
    obtain ⟨hop, hn'⟩ := hn
    obtain ⟨ih1, ih2⟩ := ih hn'
    have hsh := runningTime_shift older
    by_cases hp : (timerRun older).paused = true
    · have hr : running older = false := by rw [hp] at ih1; simpa using ih1
      simp only [hp, if_true] at ih2
      cases op <;> refine ⟨?_, fun now => ?_⟩ <;>
        simp [timerRun, timerStep, timerStart, timerRestart, timerPause, timerResume, timerReset,
          timerElapsed, hp, running, runningTime, hr, ih2 t]
      abel
      abel
    · have hp' : (timerRun older).paused = false := by simpa using hp
      have hr : running older = true := by rw [hp'] at ih1; simpa using ih1.symm
      simp only [hp', Bool.false_eq_true, if_false] at ih2
      cases op <;> refine ⟨?_, fun now => ?_⟩ <;>
        simp [timerRun, timerStep, timerStart, timerRestart, timerPause, timerResume, timerReset,
          timerElapsed, hp', running, runningTime, hr]
      · exact ih2 t
      · rw [← ih2 t]; abel
      · exact absurd hr (by simp [hop rfl])
      · rw [← ih2 t]; abel

/-- C10 for every history in which no restart is issued to a running timer: the
reported time is the time spent running.  Missing: restart of a running timer,
for which the claim is false (`C10_restart_false`). -/
theorem C10_elapsed_partial (h : List (T × TimerOp)) (now : T)
    (hn : NoRestartWhileRunning h) :
    (timerElapsed (timerRun h) now).2 = runningTime h now := by
  obtain ⟨_, h2⟩ := timer_invariant h hn
  rw [← h2 now]
  unfold timerElapsed
  by_cases hp : (timerRun h).paused = true <;> simp [hp]

omit [AddCommGroup T] in
theorem running_filter (h : List (T × TimerOp)) :
    running (h.filter fun e => e.2 ≠ .query) = running h := by
  induction h with
  | nil => rfl
  | cons e older ih =>
    obtain ⟨t, op⟩ := e
    cases op <;> simp [running]
    simpa using ih

theorem runningTime_filter (h : List (T × TimerOp)) (now : T) :
    runningTime (h.filter fun e => e.2 ≠ .query) now = runningTime h now := by
  induction h generalizing now with
  | nil => rfl
  | cons e older ih =>
    obtain ⟨t, op⟩ := e
    by_cases hq : op = .query
    · subst hq
      rw [runningTime_query, ← ih now]; simp
    · rw [List.filter_cons_of_pos (by simpa using hq)]
      have hr : running ((t, op) :: older.filter fun e => e.2 ≠ .query) =
          running ((t, op) :: older) := by
        cases op <;> simp_all [running]
      simp only [runningTime, hr, ih t]

theorem noRestart_filter (h : List (T × TimerOp)) (hn : NoRestartWhileRunning h) :
    NoRestartWhileRunning (h.filter fun e => e.2 ≠ .query) := by
  induction h with
  | nil => trivial
  | cons e older ih =>
    obtain ⟨t, op⟩ := e
    by_cases hq : op = .query
    · subst hq
      simpa using ih hn.2
    · rw [List.filter_cons_of_pos (by simpa using hq)]
      exact ⟨fun hr => by rw [running_filter]; exact hn.1 hr, ih hn.2⟩

/-- C10: queries leave no trace — deleting every query from such a history does
not change what is reported. -/
theorem C10_queries_invisible_partial (h : List (T × TimerOp)) (now : T)
    (hn : NoRestartWhileRunning h) :
    (timerElapsed (timerRun (h.filter fun e => e.2 ≠ .query)) now).2 =
      (timerElapsed (timerRun h) now).2 := by
  rw [C10_elapsed_partial h now hn, C10_elapsed_partial _ now (noRestart_filter h hn),
    runningTime_filter]

end

/-- With a non-decreasing clock the report is never negative and never more than
the time since the first call. -/
theorem C10_bounds_partial (h : List (ℚ × TimerOp)) (t0 now : ℚ) (hn : NoRestartWhileRunning h)
    (hmono : (h.map Prod.fst).Pairwise (· ≥ ·)) (hnow : ∀ e ∈ h, e.1 ≤ now)
    (h0 : ∀ e ∈ h, t0 ≤ e.1) (h0n : t0 ≤ now) :
    0 ≤ (timerElapsed (timerRun h) now).2 ∧ (timerElapsed (timerRun h) now).2 ≤ now - t0 := by
  rw [C10_elapsed_partial h now hn]
  clear hn
  induction h generalizing now with
  | nil => simp [runningTime, h0n]
  | cons e older ih =>
    obtain ⟨t, op⟩ := e
    simp only [List.map_cons, List.pairwise_cons] at hmono
    have ht : t ≤ now := hnow (t, op) (by simp)
    have ht0 : t0 ≤ t := h0 (t, op) (by simp)
    have hi := ih t hmono.2
      (fun e he => hmono.1 e.1 (List.mem_map_of_mem he)) (fun e he => h0 e (by simp [he])) ht0
    simp only [runningTime]
    split <;> split <;> constructor <;> linarith [hi.1, hi.2]

/-- A restart of a running timer loses the time since the last query, so a query
does change a later report: start at 0, [query at 5,] restart at 5, query at 5. -/
theorem C10_restart_false :
    ∃ (h h' : List (ℤ × TimerOp)) (now : ℤ),
      h = h'.filter (fun e => e.2 ≠ .query) ∧
      (timerElapsed (timerRun h) now).2 ≠ runningTime h now ∧
      (timerElapsed (timerRun h) now).2 ≠ (timerElapsed (timerRun h') now).2 :=
  ⟨[(5, .restart), (0, .start)], [(5, .restart), (5, .query), (0, .start)], 5,
    by decide, by decide, by decide⟩

/-- Non-vacuity: start 0, pause 4, query 5, resume 7, resume 8; asked at 10: 4+3. -/
example : NoRestartWhileRunning
      [((8 : ℤ), .resume), (7, .resume), (5, .query), (4, .pause), (0, .start)] ∧
    (timerElapsed (timerRun
      [((8 : ℤ), .resume), (7, .resume), (5, .query), (4, .pause), (0, .start)]) 10).2 = 7 := by
  refine ⟨by simp [NoRestartWhileRunning], by decide⟩

end Sdp
