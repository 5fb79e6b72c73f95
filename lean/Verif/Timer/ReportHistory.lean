import Verif.Timer.ReportProps
import Verif.Timer.Model

/-
C124: which histories lead to scopes without timers.
-/
namespace Sdp.TimerReport

variable {T : Type} [AddCommGroup T]

/-- What a program can do with the hierarchy; the report itself changes no number of
timers. -/
inductive Step (T : Type) where
  | push (name : String) (idx : Nat) (parent : Option TPath) (now : T)
  | pop (idx : Nat) (timer : Option TPath) (now : T)
  | createSet (name : String) (num : Nat) (parent : Option TPath)

/-- A step: src/ska-sdp-func/utility/sdp_timer.cpp:355-411 (sdp_timers_pop_push is a pop and
a push). -/
def step (s : Timers T) : Step T → Outcome (Timers T)
  | .push name idx parent now =>
    match timersPush s name idx parent now with | .ok r => .ok r.1 | .ub => .ub
  | .pop idx timer now => match timersPop s idx timer now with | .ok r => .ok r.1 | .ub => .ub
  | .createSet name num parent => .ok (timersCreateSet s name num parent).1

/-- A whole history, most recent step first. -/
def history (now : T) : List (Step T) → Outcome (Timers T)
  | [] => .ok (timersCreate now)
  | a :: older => match history now older with | .ok s => step s a | .ub => .ub

/-- Every scope has a timer. -/
def Everywhere (s : Timers T) : Prop := ∀ p x, s.nodes p = some x → x ≠ []

omit [AddCommGroup T] in
theorem setNode_everywhere (s : Timers T) (h : Everywhere s) (p : TPath) (x : TSlots T) (hx : x ≠ []) :
    Everywhere (s.setNode p x) := by
  intro q y hq
  unfold Timers.setNode at hq
  dsimp only at hq
  split at hq
  · injection hq with e; exact e ▸ hx
  · exact h q y hq

theorem step_everywhere (s s' : Timers T) (h : Everywhere s) (a : Step T)
    (hs : ∀ name num parent, a = .createSet name num parent → num ≠ 0) (e : step s a = .ok s') :
    Everywhere s' := by
  cases a with
  | push name idx parent now =>
    unfold step timersPush at e
    dsimp only at e
    generalize hsl : (if (s.getSlots (name :: parent.getD s.current)).length = 0 then [none]
      else s.getSlots (name :: parent.getD s.current)) = slots at e
    have hne : slots ≠ [] := by
      rw [← hsl]
      split
      · simp
      · intro h0
        rename_i h1
        exact h1 (by rw [h0]; rfl)
    cases hi : slots[idx]? with
    | none => rw [hi] at e; cases e
    | some slot =>
      rw [hi] at e
      have set_ne : ∀ v, slots.set idx v ≠ [] := by
        intro v h0
        have := congrArg List.length h0
        rw [List.length_set] at this
        exact hne (List.length_eq_zero_iff.1 this)
      cases parent with
      | some p =>
        dsimp only at e
        injection e with e
        subst e
        exact setNode_everywhere s h _ _ (set_ne _)
      | none =>
        dsimp only at e
        injection e with e
        subst e
        exact setNode_everywhere s h _ _ (set_ne _)
  | pop idx timer now =>
    unfold step timersPop at e
    dsimp only at e
    cases hp : timer.getD s.current with
    | nil =>
      rw [hp] at e
      dsimp only at e
      injection e with e
      subst e
      exact h
    | cons name parent =>
      rw [hp] at e
      dsimp only at e
      cases hi : (s.getSlots (name :: parent))[idx]? with
      | none => rw [hi] at e; cases e
      | some slot =>
        rw [hi] at e
        cases slot with
        | none => cases e
        | some tm =>
          have set_ne : ∀ v, (s.getSlots (name :: parent)).set idx v ≠ [] := by
            intro v h0
            have h1 := congrArg List.length h0
            rw [List.length_set] at h1
            rw [List.length_eq_zero_iff.1 h1] at hi
            cases hi
          cases timer with
          | some p =>
            dsimp only at e
            injection e with e
            subst e
            exact setNode_everywhere s h _ _ (set_ne _)
          | none =>
            dsimp only at e
            injection e with e
            subst e
            exact setNode_everywhere s h _ _ (set_ne _)
  | createSet name num parent =>
    unfold step timersCreateSet at e
    dsimp only at e
    injection e with e
    subst e
    refine setNode_everywhere s h _ _ ?_
    split
    · have := hs name num parent rfl
      intro h0
      have h1 := congrArg List.length h0
      rw [List.length_replicate] at h1
      exact this h1
    · intro h0
      rename_i h1
      exact h1 (by rw [h0]; rfl)

/-- C124: a history without sets of no timers leads to a hierarchy in which every scope has
a timer, as the report requires. -/
theorem C124_history (now : T) (l : List (Step T)) (s : Timers T)
    (hs : ∀ name num parent, Step.createSet name num parent ∈ l → num ≠ 0)
    (e : history now l = .ok s) : ∀ p x, s.nodes p = some x → x ≠ [] := by
  induction l generalizing s with
  | nil =>
    unfold history at e
    injection e with e
    subst e
    intro p x hp
    unfold timersCreate at hp
    dsimp only at hp
    split at hp
    · injection hp with e; rw [← e]; simp
    · cases hp
  | cons a older ih =>
    unfold history at e
    cases ho : history now older with
    | ub => rw [ho] at e; cases e
    | ok s0 =>
      rw [ho] at e
      exact step_everywhere s0 s
        (ih s0 (fun n k p h => hs n k p (List.mem_cons_of_mem _ h)) ho) a
        (fun n k p ha => hs n k p (by rw [ha]; exact List.mem_cons_self)) e

/-- Non-vacuity: a scope entered, a set of four in it, a second scope, and out again. -/
example : ∃ s, history (0 : Int) [.pop 0 none 9, .push "a" 0 none 5, .createSet "t" 4 none, .push "b" 0 none 1] =
    .ok s := ⟨_, rfl⟩

end Sdp.TimerReport
