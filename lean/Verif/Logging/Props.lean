import Verif.Logging.Model
import Mathlib.Tactic.Common

/-!
# C127: log messages

A message is printed exactly if its level is not below the configured one, with its level, place, text and time, on a
line of its own.
-/

namespace Sdp.Logging

/-! ## Specification -/

/-- What the documentation says of the environment variable (docs/src/logging.rst); without it, messages from `INFO` on
are shown. -/
inductive Means : Option (List Char) → Level → Prop
  | unset : Means none .info
  | debug : Means (some ['D', 'E', 'B', 'U', 'G']) .debug
  | info : Means (some ['I', 'N', 'F', 'O']) .info
  | warning : Means (some ['W', 'A', 'R', 'N', 'I', 'N', 'G']) .warning
  | error : Means (some ['E', 'R', 'R', 'O', 'R']) .error
  | critical : Means (some ['C', 'R', 'I', 'T', 'I', 'C', 'A', 'L']) .critical

/-- `a` is less severe than `b`. -/
inductive Milder : Level → Level → Prop
  | debugInfo : Milder .debug .info
  | infoWarning : Milder .info .warning
  | warningError : Milder .warning .error
  | errorCritical : Milder .error .critical
  | trans {a b c : Level} : Milder a b → Milder b c → Milder a c

/-- A line tells of a message: its level by name, its stream, place and text. -/
def Tells (c : Call) (l : Line) : Prop :=
  (∀ s, Means (some s) c.level → l.level = s) ∧ l.stream = c.stream ∧ l.func = c.func ∧ l.file = c.file ∧
    l.line = c.line ∧ l.text = c.text

open Classical in
/-- The messages to be shown. -/
noncomputable def wanted (l : Level) (calls : List Call) : List Call :=
  calls.filter fun c => decide (¬ Milder c.level l)

/-! ## One thread -/

theorem milder_num {a b : Level} (h : Milder a b) : a.num < b.num := by
  induction h with
  | trans _ _ h1 h2 => exact Nat.lt_trans h1 h2
  | _ => decide

theorem milder_iff (a b : Level) (ha : a ≠ .undef) : Milder a b ↔ a.num < b.num := by
  refine ⟨milder_num, fun h => ?_⟩
  have e1 := Milder.debugInfo
  have e2 := Milder.infoWarning
  have e3 := Milder.warningError
  have e4 := Milder.errorCritical
  cases a <;> cases b <;> first
    | exact absurd rfl ha
    | exact absurd h (by decide)
    | assumption
    | exact e1.trans e2
    | exact e2.trans e3
    | exact e3.trans e4
    | exact e1.trans (e2.trans e3)
    | exact e2.trans (e3.trans e4)
    | exact e1.trans (e2.trans (e3.trans e4))

theorem means_assign {env : Option (List Char)} {l : Level} (h : Means env l) (f : Level) :
    assign env f = l ∧ l ≠ .undef := by
  cases h <;> exact ⟨rfl, by decide⟩

theorem tells_made (c : Call) : Tells c c.made := by
  refine ⟨fun s h => ?_, rfl, rfl, rfl, rfl, rfl⟩
  obtain ⟨lv, st, fn, fl, ln, tx, c1, c2⟩ := c
  simp only at h
  unfold Call.made
  simp only
  cases h <;> rfl

theorem tells_map (calls : List Call) : List.Forall₂ Tells calls (calls.map Call.made) := by
  induction calls with
  | nil => exact .nil
  | cons c cs ih => exact .cons (tells_made c) ih

/-- What is printed once the variable is set, or before it is. -/
theorem run_calls (env : Option (List Char)) (l : Level) (h : Means env l) (calls : List Call)
    (hc : ∀ c ∈ calls, c.level ≠ .undef) (f : Level) (hf : f = .undef ∨ f = l) :
    run env f (calls.map .log) = (wanted l calls).map Call.made := by
  induction calls generalizing f with
  | nil => rfl
  | cons c cs ih =>
    have hn : (if f = .undef then assign env f else f) = l := by
      by_cases h0 : f = .undef
      · rw [if_pos h0]
        exact (means_assign h f).1
      · rw [if_neg h0]
        exact hf.resolve_left h0
    have hm := milder_iff c.level l (hc c List.mem_cons_self)
    have ih' := ih (fun x hx => hc x (List.mem_cons_of_mem _ hx)) l (Or.inr rfl)
    rw [List.map_cons]
    show (logMessage env f c).2.toList ++ run env (logMessage env f c).1 _ = _
    unfold logMessage
    simp only
    rw [hn]
    unfold wanted at ih' ⊢
    by_cases hlt : c.level.num < l.num
    · rw [if_pos hlt, List.filter_cons_of_neg (by simpa using hm.2 hlt)]
      exact ih'
    · rw [if_neg hlt, List.filter_cons_of_pos (by simpa using fun hh => hlt (hm.1 hh)), List.map_cons, ← ih']
      rfl

/-- **C127, which messages.**  With a documented value of the variable, or without it, the lines printed for any sequence
of messages are those of the messages that are not below the configured level, in order. -/
theorem C127_shown (env : Option (List Char)) (l : Level) (h : Means env l) (calls : List Call)
    (hc : ∀ c ∈ calls, c.level ≠ .undef) :
    List.Forall₂ Tells (wanted l calls) (run env .undef (calls.map .log)) := by
  rw [run_calls env l h calls hc .undef (Or.inl rfl)]
  exact tells_map _

/-- **C127, the level stays.**  After the first message, changes of the variable have no effect: for any history that
starts with a documented value and a message, the lines are those of its messages at the first level. -/
theorem C127_fixed (env : Option (List Char)) (l : Level) (h : Means env l) (ops : List Op) (first : Call)
    (hc : ∀ c, Op.log c ∈ Op.log first :: ops → c.level ≠ .undef) :
    List.Forall₂ Tells
      (wanted l (first :: ops.filterMap fun o => match o with | .log c => some c | .setenv _ => none))
      (run env .undef (.log first :: ops)) := by
  have key : ∀ (ops : List Op), ∀ e e', run e l ops = run e' l ((ops.filterMap fun o => match o with
      | .log c => some c | .setenv _ => none).map .log) := by
    have hl : l ≠ .undef := (means_assign h .undef).2
    intro ops
    induction ops with
    | nil => intro e e'; rfl
    | cons o os ih =>
      intro e e'
      cases o with
      | setenv v => exact ih v e'
      | log c =>
        show (logMessage e l c).2.toList ++ run e (logMessage e l c).1 os =
          (logMessage e' l c).2.toList ++ run e' (logMessage e' l c).1 _
        have e1 : ∀ e, logMessage e l c = if c.level.num < l.num then (l, none) else (l, some c.made) := by
          intro e
          unfold logMessage
          simp only [if_neg hl]
        rw [e1, e1]
        split_ifs
        · exact congrArg _ (ih e e')
        · exact congrArg _ (ih e e')
  have h1 : (logMessage env .undef first).1 = l := by
    unfold logMessage
    simp only [if_true]
    rw [(means_assign h _).1]
    split_ifs <;> rfl
  have h2 : run env .undef (.log first :: ops) = run env .undef ((first :: ops.filterMap fun o => match o with
      | .log c => some c | .setenv _ => none).map .log) := by
    rw [List.map_cons]
    show (logMessage env .undef first).2.toList ++ run env (logMessage env .undef first).1 ops =
      (logMessage env .undef first).2.toList ++ run env (logMessage env .undef first).1 _
    rw [h1, key ops env env]
  rw [h2]
  refine C127_shown env l h _ fun c hcm => ?_
  rcases List.mem_cons.1 hcm with rfl | hcm
  · exact hc _ List.mem_cons_self
  · obtain ⟨o, ho, hoc⟩ := List.mem_filterMap.1 hcm
    cases o with
    | setenv v => cases hoc
    | log c' =>
      cases hoc
      exact hc _ (List.mem_cons_of_mem _ ho)

/-- **C127, time.**  If the clock does not pass a full second between its two readings, the time stamp is the time of the
second one in whole milliseconds. -/
theorem C127_time_partial (c : Call) (h : c.clock1 / 1000000 = c.clock2 / 1000000) :
    1000 * c.made.seconds + c.made.millis = c.clock2 / 1000 := by
  unfold Call.made
  simp only
  omega

/-! ## Threads -/

/-- Messages of which thread `i` has begun to print the line. -/
def begun (i : Nat) (out : List (Nat × Piece)) : List Call :=
  out.filterMap fun p => match p with
    | (j, .header c) => if j = i then some c else none
    | _ => none

/-- Messages of a thread whose lines are still to be begun. -/
noncomputable def ahead (l : Level) : List Call × At → List Call
  | (_ :: cs, .text) => wanted l cs
  | (_ :: cs, .newline) => wanted l cs
  | (cs, _) => wanted l cs

structure Inv (l : Level) (calls : Nat → List Call) (s : State) : Prop where
  filter : s.filter = .undef ∨ s.filter = l
  ready : ∀ i, (s.todo i).2 = .filter → s.filter = l
  go : ∀ i c cs, s.todo i = (c :: cs, .header) → ¬ Milder c.level l
  levels : ∀ i, ∀ c ∈ (s.todo i).1, c.level ≠ .undef
  sum : ∀ i, begun i s.out ++ ahead l (s.todo i) = wanted l (calls i)

theorem begun_append (i : Nat) (a b : List (Nat × Piece)) : begun i (a ++ b) = begun i a ++ begun i b := by
  unfold begun
  rw [List.filterMap_append]

theorem wanted_no (l : Level) (c : Call) (cs : List Call) (h : Milder c.level l) : wanted l (c :: cs) = wanted l cs := by
  unfold wanted
  rw [List.filter_cons_of_neg (by simpa using h)]

theorem wanted_yes (l : Level) (c : Call) (cs : List Call) (h : ¬ Milder c.level l) :
    wanted l (c :: cs) = c :: wanted l cs := by
  unfold wanted
  rw [List.filter_cons_of_pos (by simpa using h)]

/-- A step of thread `i` to `t`, with a new value of the variable and new output. -/
theorem inv_set {l : Level} {calls : Nat → List Call} {s : State} (h : Inv l calls s) (i : Nat) (t : List Call × At)
    (f : Level) (o : List (Nat × Piece)) (hf : f = s.filter ∨ f = l) (h1 : t.2 = .filter → f = l)
    (h2 : ∀ c cs, t = (c :: cs, .header) → ¬ Milder c.level l) (h3 : ∀ c ∈ t.1, c ∈ (s.todo i).1)
    (h4 : begun i o ++ ahead l t = ahead l (s.todo i)) (h5 : ∀ j, j ≠ i → begun j o = []) :
    Inv l calls (State.set ⟨f, s.out ++ o, s.todo⟩ i t) := by
  have hf' : f = .undef ∨ f = l := by
    rcases hf with rfl | rfl
    · exact h.filter
    · exact Or.inr rfl
  refine ⟨hf', fun j hj => ?_, fun j c cs hj => ?_, fun j c hj => ?_, fun j => ?_⟩
  · by_cases e : j = i
    · subst e
      simp only [State.set, if_true] at hj
      exact h1 hj
    · simp only [State.set, if_neg e] at hj
      have := h.ready j hj
      rcases hf with rfl | rfl
      · exact this
      · rfl
  · by_cases e : j = i
    · subst e
      simp only [State.set, if_true] at hj
      exact h2 c cs hj
    · simp only [State.set, if_neg e] at hj
      exact h.go j c cs hj
  · by_cases e : j = i
    · subst e
      simp only [State.set, if_true] at hj
      exact h.levels j c (h3 c hj)
    · simp only [State.set, if_neg e] at hj
      exact h.levels j c hj
  · by_cases e : j = i
    · subst e
      simp only [State.set, if_true]
      rw [begun_append, List.append_assoc, h4]
      exact h.sum j
    · simp only [State.set, if_neg e]
      rw [begun_append, h5 j e, List.append_nil]
      exact h.sum j

theorem inv_step {env : Option (List Char)} {l : Level} (hm : Means env l) {calls : Nat → List Call} {s : State}
    (h : Inv l calls s) (i : Nat) : Inv l calls (step env s i) := by
  have nil : ∀ t, Inv l calls (State.set ⟨s.filter, s.out ++ [], s.todo⟩ i t) → Inv l calls (s.set i t) := by
    intro t ht
    rw [List.append_nil] at ht
    exact ht
  unfold step
  split
  · exact h
  · rename_i c cs e
    apply nil
    refine inv_set h i _ s.filter [] (Or.inl rfl) ?_ ?_ ?_ ?_ (fun _ _ => rfl)
    · intro h1
      by_cases hu : s.filter = .undef
      · simp [hu] at h1
      · exact h.filter.resolve_left hu
    · intro c' cs' h1
      split_ifs at h1 <;> simp at h1
    · rw [e]; exact fun _ hx => hx
    · rw [e]; split_ifs <;> rfl
  · rename_i c cs e
    have ha := (means_assign hm s.filter).1
    rw [ha]
    have : Inv l calls (State.set ⟨l, s.out ++ [], s.todo⟩ i (c :: cs, .filter)) := by
      refine inv_set h i _ l [] (Or.inr rfl) (fun _ => rfl) ?_ ?_ ?_ (fun _ _ => rfl)
      · intro c' cs' h1
        simp at h1
      · rw [e]; exact fun _ hx => hx
      · rw [e]; rfl
    rw [List.append_nil] at this
    exact this
  · rename_i c cs e
    have hl := h.ready i (by rw [e])
    have hmem : c.level ≠ .undef := h.levels i c (by rw [e]; exact List.mem_cons_self)
    have hmi := milder_iff c.level l hmem
    rw [hl]
    split_ifs with hlt
    · apply nil
      refine inv_set h i _ s.filter [] (Or.inl rfl) (fun h1 => by cases h1) ?_ ?_ ?_ (fun _ _ => rfl)
      · intro c' cs' h1
        simp at h1
      · rw [e]; exact fun _ hx => List.mem_cons_of_mem _ hx
      · rw [e]
        show _ = wanted l (c :: cs)
        rw [wanted_no l c cs (hmi.2 hlt)]
        cases cs <;> rfl
    · apply nil
      refine inv_set h i _ s.filter [] (Or.inl rfl) (fun h1 => by cases h1) ?_ ?_ ?_ (fun _ _ => rfl)
      · intro c' cs' h1
        simp only [Prod.mk.injEq, List.cons.injEq, and_true] at h1
        obtain ⟨rfl, -⟩ := h1
        exact fun hh => hlt (hmi.1 hh)
      · rw [e]; exact fun _ hx => hx
      · rw [e]; rfl
  · rename_i c cs e
    refine inv_set h i _ s.filter _ (Or.inl rfl) (fun h1 => by cases h1) ?_ ?_ ?_ ?_
    · intro c' cs' h1
      simp at h1
    · rw [e]; exact fun _ hx => hx
    · rw [e]
      show begun i [(i, Piece.header c)] ++ wanted l cs = wanted l (c :: cs)
      rw [wanted_yes l c cs (h.go i c cs e)]
      simp [begun]
    · intro j hj
      simp [begun, Ne.symm hj]
  · rename_i c cs e
    refine inv_set h i _ s.filter _ (Or.inl rfl) (fun h1 => by cases h1) ?_ ?_ ?_ ?_
    · intro c' cs' h1
      simp at h1
    · rw [e]; exact fun _ hx => hx
    · rw [e]; rfl
    · intro j _
      rfl
  · rename_i c cs e
    refine inv_set h i _ s.filter _ (Or.inl rfl) (fun h1 => by cases h1) ?_ ?_ ?_ ?_
    · intro c' cs' h1
      simp at h1
    · rw [e]; exact fun _ hx => List.mem_cons_of_mem _ hx
    · rw [e]
      show begun i [(i, Piece.newline)] ++ ahead l (cs, .test) = wanted l cs
      cases cs <;> rfl
    · intro j _
      rfl

/-- **C127, which messages, on threads.**  However threads interleave, a thread that has made all its calls has printed
the headers of exactly those of its messages that are not below the configured level, in order; before that, of a first
part of them. -/
theorem C127_threads (env : Option (List Char)) (l : Level) (h : Means env l) (calls : Nat → List Call)
    (hc : ∀ i, ∀ c ∈ calls i, c.level ≠ .undef) (schedule : List Nat) (i : Nat) :
    begun i (runThreads env calls schedule).out <+: wanted l (calls i) ∧
    (((runThreads env calls schedule).todo i).1 = [] →
      begun i (runThreads env calls schedule).out = wanted l (calls i)) := by
  have main : ∀ (schedule : List Nat) (s : State), Inv l calls s → Inv l calls (schedule.foldl (step env) s) := by
    intro schedule
    induction schedule with
    | nil => exact fun s h => h
    | cons a as ih => exact fun s hs => ih _ (inv_step h hs a)
  have h0 : Inv l calls ⟨.undef, [], fun i => (calls i, .test)⟩ := by
    refine ⟨Or.inl rfl, fun i hi => (by cases hi), fun i c cs hi => ?_, hc, fun i => ?_⟩
    · simp at hi
    · show ahead l (calls i, .test) = _
      cases calls i <;> rfl
  have hi := (main schedule _ h0).sum i
  refine ⟨⟨_, hi⟩, fun hn => ?_⟩
  unfold runThreads at hn ⊢
  generalize (schedule.foldl (step env) ⟨.undef, [], fun i => (calls i, .test)⟩) = s at hi hn ⊢
  have : ahead l (s.todo i) = [] := by
    obtain ⟨a, b⟩ : ∃ b, s.todo i = ([], b) := ⟨(s.todo i).2, Prod.ext hn rfl⟩
    rw [b]
    cases a <;> rfl
  rw [this, List.append_nil] at hi
  exact hi

/-! ## What does not hold -/

/-- **C127 is false of other values.**  With a value that the documentation does not list, such as `Warning`, nothing is
suppressed. -/
theorem C127_other_value_false (e : List Char) (h : parse e = none) (calls : List Call) :
    List.Forall₂ Tells calls (run (some e) .undef (calls.map .log)) := by
  have : run (some e) .undef (calls.map .log) = calls.map Call.made := by
    induction calls with
    | nil => rfl
    | cons c cs ih =>
      rw [List.map_cons]
      show (logMessage (some e) .undef c).2.toList ++ run (some e) (logMessage (some e) .undef c).1 _ = _
      have : logMessage (some e) .undef c = (.undef, some c.made) := by
        unfold logMessage assign
        simp only [h, if_true, Option.getD_none]
        rw [if_neg (by simp [Level.num])]
      rw [this, List.map_cons]
      exact congrArg _ ih
  rw [this]
  exact tells_map _

/-- **C127 is false of the time.**  For two messages of which the second is made later, it can have the earlier time
stamp: if a second passes between the two readings of the clock, the stamp is a second too early. -/
theorem C127_time_false : ∃ a b : Call, a.clock1 ≤ a.clock2 ∧ a.clock2 < b.clock1 ∧ b.clock1 ≤ b.clock2 ∧
    1000 * b.made.seconds + b.made.millis < 1000 * a.made.seconds + a.made.millis := by
  refine ⟨⟨.info, .out, [], [], 1, [], 11500000, 11500000⟩, ⟨.info, .out, [], [], 2, [], 11999999, 12000000⟩, ?_⟩
  decide

/-- **C127 is false of lines.**  Two threads that each log one message: what is printed can be both headers, both texts
and two ends of a line. -/
theorem C127_lines_false (a b : Call) (ha : a.level = .error) (hb : b.level = .error) :
    (runThreads none (fun i => if i = 0 then [a] else [b]) [0, 0, 0, 1, 1, 0, 1, 0, 1, 0, 1]).out =
      [(0, .header a), (1, .header b), (0, .text a), (1, .text b), (0, .newline), (1, .newline)] ∧
    ∀ i, i < 2 → ((runThreads none (fun i => if i = 0 then [a] else [b]) [0, 0, 0, 1, 1, 0, 1, 0, 1, 0, 1]).todo i).1 = [] := by
  obtain ⟨lv, st, fn, fl, ln, tx, c1, c2⟩ := a
  obtain ⟨lv', st', fn', fl', ln', tx', c1', c2'⟩ := b
  simp only at ha hb
  subst ha hb
  refine ⟨rfl, fun i hi => ?_⟩
  have : i = 0 ∨ i = 1 := by omega
  rcases this with rfl | rfl <;> rfl

/-- Non-vacuity: a documented value, two messages of which one is shown, and a value that is not documented. -/
example : Means (some ['W', 'A', 'R', 'N', 'I', 'N', 'G']) .warning ∧ Milder .info .warning ∧ ¬ Milder .error .warning ∧
    parse ['W', 'a', 'r', 'n', 'i', 'n', 'g'] = none ∧
    (run (some ['W', 'A', 'R', 'N', 'I', 'N', 'G']) .undef
      [.log ⟨.info, .out, [], [], 1, [], 0, 0⟩, .log ⟨.error, .err, [], [], 2, [], 0, 0⟩]).length = 1 := by
  refine ⟨.warning, .infoWarning, fun h => absurd (milder_num h) (by decide), by decide, by decide⟩

end Sdp.Logging
