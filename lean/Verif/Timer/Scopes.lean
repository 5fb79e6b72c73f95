import Mathlib.Tactic.Abel
import Verif.Timer.Spec

/-!
# C11 — nested timing scopes pair up

`timersCall` runs one call of the explicit-node interface; the internal-cursor
interface (NULL node arguments) is `timersCallCur`.
-/

namespace Sdp
open TimerSpec

section
variable {T : Type} [AddCommGroup T]

/-- One call through the explicit-node interface; `cur i` is the node handle held
by thread `i` (usage documented at sdp_timer.h:118-121). -/
def timersCall (s : Timers T) (cur : Nat → TPath) : TEv T →
    Outcome (Timers T × (Nat → TPath))
  | .act i (.push n t) =>
    match timersPush s n i (some (cur i)) t with
    | .ok (s', some p) => .ok (s', fun j => if j = i then p else cur j)
    | .ok (s', none) => .ok (s', cur)
    | .ub => .ub
  | .act i (.pop t) =>
    match timersPop s i (some (cur i)) t with
    | .ok (s', some p) => .ok (s', fun j => if j = i then p else cur j)
    | .ok (s', none) => .ok (s', cur)
    | .ub => .ub
  | .read p i t => .ok ((timersRead s p i t).1, cur)

/-- A sequence of such calls. -/
def timersCalls (s : Timers T) (cur : Nat → TPath) : List (TEv T) →
    Outcome (Timers T × (Nat → TPath))
  | [] => .ok (s, cur)
  | e :: es =>
    match timersCall s cur e with
    | .ok (s', cur') => timersCalls s' cur' es
    | .ub => .ub

/-- One call through the internal-cursor interface, slot 0 (the macros
`SDP_TMR_PUSH` / `SDP_TMR_POP`). -/
def timersCallCur (s : Timers T) : TEv T → Outcome (Timers T)
  | .act _ (.push n t) =>
    match timersPush s n 0 none t with
    | .ok (s', _) => .ok s'
    | .ub => .ub
  | .act _ (.pop t) =>
    match timersPop s 0 none t with
    | .ok (s', _) => .ok s'
    | .ub => .ub
  | .read p i t => .ok (timersRead s p i t).1

def timersCallsCur (s : Timers T) : List (TEv T) → Outcome (Timers T)
  | [] => .ok s
  | e :: es =>
    match timersCallCur s e with
    | .ok s' => timersCallsCur s' es
    | .ub => .ub

/-- The timer in slot `i` of node `p`, if there is one. -/
def Timers.slot (s : Timers T) (p : TPath) (i : Nat) : Option (Timer T) :=
  ((s.getSlots p)[i]?).join

omit [AddCommGroup T] in
theorem getSlots_setNode (s : Timers T) (p q : TPath) (l : TSlots T) :
    (s.setNode p l).getSlots q = if q = p then l else s.getSlots q := by
  unfold Timers.getSlots Timers.setNode
  by_cases h : q = p <;> simp [h]

omit [AddCommGroup T] in
theorem slot_setNode (s : Timers T) (p q : TPath) (l : TSlots T) (i j : Nat) (x : Timer T)
    (hi : i < l.length) :
    (s.setNode p (l.set i (some x))).slot q j =
      if q = p then (if j = i then some x else (l[j]?).join) else s.slot q j := by
  unfold Timers.slot
  rw [getSlots_setNode]
  by_cases hq : q = p
  · simp only [hq, if_true]
    by_cases hj : j = i
    · subst hj; simp [hi]
    · rw [List.getElem?_set_ne (Ne.symm hj)]; simp [hj]
  · simp [hq]

/-- State of the timer of a scope. -/
def SlotOk (sc : Scopes T) (p : TPath) (tm : Option (Timer T)) : Prop :=
  match openSince sc.opened p with
  | some t0 => ∃ x, tm = some x ∧ x.paused = false ∧ x.elapsed - x.start = sc.done p - t0
  | none =>
    match tm with
    | none => sc.done p = 0
    | some x => x.paused = true ∧ x.elapsed = sc.done p

structure ScopesInv (s : Timers T) (cur : Nat → TPath) (sc : Nat → Scopes T) : Prop where
  cursor : ∀ i, cur i = pathOf (sc i).opened
  slots : ∀ i p, p ≠ [] → SlotOk (sc i) p (s.slot p i)

omit [AddCommGroup T] in
theorem openSince_long (l : List (String × T)) (p : TPath) (h : l.length < p.length) :
    openSince l p = none := by
  induction l with
  | nil => rfl
  | cons e rest ih =>
    obtain ⟨n, t⟩ := e
    simp only [openSince]
    rw [if_neg, ih (by simp at h; omega)]
    intro hp
    rw [hp] at h
    simp [pathOf] at h

theorem step_inv_scopes (s : Timers T) (cur : Nat → TPath) (sc : Nat → Scopes T)
    (len : TPath → Nat) (hI : ScopesInv s cur sc)
    (hlen : ∀ p, len p ≤ (s.getSlots p).length) (e : TEv T)
    (hr : match e with
      | .act i (.push n _) => (i = 0 ∨ i < len (n :: pathOf (sc i).opened))
      | _ => True) :
    ∃ s' cur', timersCall s cur e = .ok (s', cur') ∧ s'.current = s.current ∧
      ScopesInv s' cur' (stepAll sc e) ∧ ∀ p, len p ≤ (s'.getSlots p).length := by
  cases e with
  | act i ev =>
    cases ev with
    | push n t =>
      simp only at hr
      have hc := hI.cursor i
      set p : TPath := n :: cur i with hp
      set l : TSlots T := if (s.getSlots p).length = 0 then [none] else s.getSlots p with hl
      have hil : i < l.length := by
        have := hlen p
        rw [← hc, ← hp] at hr
        rw [hl]
        split
        · simp; omega
        · omega
      have hjoin : ∀ j, (l[j]?).join = s.slot p j := by
        intro j
        rw [hl]; unfold Timers.slot
        split
        · rename_i h0
          rw [List.length_eq_zero_iff.1 h0]
          cases j <;> simp
        · rfl
      obtain ⟨slot, hslot⟩ : ∃ x, l[i]? = some x := ⟨l[i], List.getElem?_eq_getElem hil⟩
      obtain ⟨tm, htm⟩ : ∃ tm : Timer T, tm = slot.getD timerCreate := ⟨_, rfl⟩
      refine ⟨s.setNode p (l.set i (some (timerResume tm t))),
        (fun j => if j = i then p else cur j), ?_, rfl, ⟨?_, ?_⟩, ?_⟩
      · simp only [timersCall, timersPush, Option.getD_some]
        rw [← hp, ← hl, hslot]
        cases slot <;> simp [htm]
      · intro j
        by_cases hj : j = i
        · subst hj
          simp [stepAll, Scopes.step, pathOf, hp, hc]
        · simp [stepAll, hj, hI.cursor j]
      · intro j q hq
        rw [slot_setNode _ _ _ _ _ _ _ hil, hjoin]
        have hI' := hI.slots j q hq
        by_cases hj : j = i
        · subst hj
          simp only [stepAll, if_true]
          by_cases hqp : q = p
          · subst hqp
            simp only [if_true]
            have hno : openSince (sc j).opened p = none := by
              apply openSince_long
              rw [hp, hc]; simp [pathOf]
            have hs : s.slot p j = slot := by rw [← hjoin, hslot]; rfl
            simp only [SlotOk, hno, hs] at hI'
            simp only [SlotOk, Scopes.step, openSince, hp, hc, if_true]
            have hpaused : tm.paused = true ∧ tm.elapsed = (sc j).done p := by
              cases slot with
              | none => simpa [htm, timerCreate] using hI'.symm
              | some x => simpa [htm] using hI'
            refine ⟨_, rfl, ?_, ?_⟩
            · simp [timerResume, timerRestart, hpaused.1]
            · simp only [timerResume, timerRestart, hpaused.1, hpaused.2, hp, hc]
              simp
          · simp only [hqp, if_false]
            have : openSince ((sc j).step (.push n t)).opened q = openSince (sc j).opened q := by
              simp only [Scopes.step, openSince]
              rw [if_neg]; rw [← hc]; exact hqp
            simp only [SlotOk, this] at hI' ⊢
            exact hI'
        · simp only [stepAll, hj, if_false]
          by_cases hqp : q = p
          · subst hqp; simpa using hI'
          · simpa [hqp] using hI'
      · intro q
        rw [getSlots_setNode]
        by_cases hq : q = p
        · simp only [hq, if_true, List.length_set]
          have := hlen p
          rw [hl]; split
          · simp; omega
          · exact this
        · simpa [hq] using hlen q
    | pop t =>
      have hc := hI.cursor i
      cases ho : (sc i).opened with
      | nil =>
        have hcur : cur i = [] := by rw [hc, ho]; rfl
        refine ⟨s, cur, ?_, rfl, ?_, hlen⟩
        · simp only [timersCall, timersPop, Option.getD_some, hcur]
          congr 2
          funext j
          by_cases hj : j = i <;> simp [hj, hcur]
        · have : stepAll sc (.act i (.pop t)) = sc := by
            funext j
            by_cases hj : j = i
            · subst hj; simp [stepAll, Scopes.step, ho]
            · simp [stepAll, hj]
          rw [this]; exact hI
      | cons e rest =>
        obtain ⟨n, t0⟩ := e
        have hcur : cur i = n :: pathOf rest := by rw [hc, ho]; rfl
        set p : TPath := n :: pathOf rest with hp
        have hIi := hI.slots i p (by simp [hp])
        have hopen : openSince (sc i).opened p = some t0 := by
          rw [ho]; simp [openSince, hp]
        simp only [SlotOk, hopen] at hIi
        obtain ⟨x, hx, hxp, hxe⟩ := hIi
        have hslot : (s.getSlots p)[i]? = some (some x) := by
          unfold Timers.slot at hx
          cases hg : (s.getSlots p)[i]? with
          | none => simp [hg] at hx
          | some y => rw [hg] at hx; simpa using hx
        have hil : i < (s.getSlots p).length := by
          by_contra hh
          rw [List.getElem?_eq_none (by omega)] at hslot
          simp at hslot
        refine ⟨s.setNode p ((s.getSlots p).set i (some (timerPause x t))),
          (fun j => if j = i then pathOf rest else cur j), ?_, rfl, ⟨?_, ?_⟩, ?_⟩
        · simp only [timersCall, timersPop, Option.getD_some, hcur]
          rw [hp] at hslot
          simp only [hp, hslot]
        · intro j
          by_cases hj : j = i
          · subst hj; simp [stepAll, Scopes.step, ho]
          · simp [stepAll, hj, hI.cursor j]
        · intro j q hq
          rw [slot_setNode _ _ _ _ _ _ _ hil]
          have hI' := hI.slots j q hq
          by_cases hj : j = i
          · subst hj
            simp only [stepAll, if_true]
            by_cases hqp : q = p
            · subst hqp
              simp only [if_true]
              have hno : openSince rest p = none := by
                apply openSince_long; rw [hp]; simp [pathOf]
              simp only [SlotOk, Scopes.step, ho, hno, ← hp, if_true]
              refine ⟨by simp [timerPause, hxp], ?_⟩
              simp only [timerPause, timerElapsed, hxp]
              simp only [Bool.false_eq_true, if_false]
              have : x.elapsed + (t - x.start) = (x.elapsed - x.start) + t := by abel
              rw [this, hxe]; abel
            · simp only [hqp, if_false]
              have h1 : openSince (sc j).opened q = openSince rest q := by
                rw [ho]; simp only [openSince]; rw [if_neg hqp]
              simp only [SlotOk, h1] at hI'
              simp only [SlotOk, Scopes.step, ho, ← hp, hqp, if_false]
              exact hI'
          · simp only [stepAll, hj, if_false]
            by_cases hqp : q = p
            · subst hqp; simp only [if_true]; exact hI'
            · simpa [hqp] using hI'
        · intro q
          rw [getSlots_setNode]
          by_cases hq : q = p
          · simpa [hq] using hlen p
          · simpa [hq] using hlen q
  | read p i t =>
    refine ⟨(timersRead s p i t).1, cur, rfl, ?_, ?_, ?_⟩
    · unfold timersRead; split <;> rfl
    · unfold timersRead
      split
      · rename_i tm hslot
        have hil : i < (s.getSlots p).length := by
          by_contra hh
          rw [List.getElem?_eq_none (by omega)] at hslot
          simp at hslot
        refine ⟨hI.cursor, fun j q hq => ?_⟩
        rw [slot_setNode _ _ _ _ _ _ _ hil]
        have hI' := hI.slots j q hq
        by_cases hqp : q = p
        · subst hqp
          by_cases hj : j = i
          · subst hj
            have hs : s.slot q j = some tm := by unfold Timers.slot; rw [hslot]; rfl
            simp only [if_true, stepAll]
            rw [hs] at hI'
            unfold SlotOk at hI' ⊢
            cases ho : openSince (sc j).opened q with
            | some t0 =>
              simp only [ho] at hI' ⊢
              obtain ⟨x, hx, hxp, hxe⟩ := hI'
              cases hx
              refine ⟨_, rfl, ?_, ?_⟩
              · simp [timerElapsed, hxp]
              · rw [← hxe]; simp only [timerElapsed, hxp, Bool.false_eq_true, if_false]; abel
            | none =>
              simp only [ho] at hI' ⊢
              simp only [timerElapsed, hI'.1, if_true]
              exact ⟨trivial, hI'.2⟩
          · simp only [if_true, hj, if_false, stepAll]
            exact hI'
        · simp only [hqp, if_false, stepAll]; exact hI'
      · exact hI
    · intro q
      unfold timersRead
      split
      · rw [getSlots_setNode]
        by_cases hq : q = p
        · simpa [hq] using hlen p
        · simpa [hq] using hlen q
      · exact hlen q

theorem calls_inv (es : List (TEv T)) (s : Timers T) (cur : Nat → TPath) (sc : Nat → Scopes T)
    (len : TPath → Nat) (hI : ScopesInv s cur sc)
    (hlen : ∀ p, len p ≤ (s.getSlots p).length) (hr : SlotsReady len sc es) :
    ∃ s' cur', timersCalls s cur es = .ok (s', cur') ∧ ScopesInv s' cur' (runAll sc es) := by
  induction es generalizing s cur sc with
  | nil => exact ⟨s, cur, rfl, hI⟩
  | cons e es ih =>
    obtain ⟨s1, c1, h1, -, hI1, hl1⟩ := step_inv_scopes s cur sc len hI hlen e hr.1
    obtain ⟨s2, c2, h2, hI2⟩ := ih s1 c1 _ hI1 hl1 hr.2
    exact ⟨s2, c2, by simp only [timersCalls, h1, h2], hI2⟩

theorem read_total (s : Timers T) (cur : Nat → TPath) (sc : Nat → Scopes T)
    (hI : ScopesInv s cur sc) (p : TPath) (hp : p ≠ []) (i : Nat) (now : T) :
    (timersRead s p i now).2 = (sc i).total p now := by
  have h := hI.slots i p hp
  unfold timersRead Scopes.total
  unfold SlotOk at h
  cases ho : openSince (sc i).opened p with
  | some t0 =>
    simp only [ho] at h ⊢
    obtain ⟨x, hx, hxp, hxe⟩ := h
    have hslot : (s.getSlots p)[i]? = some (some x) := by
      unfold Timers.slot at hx
      cases hg : (s.getSlots p)[i]? with
      | none => simp [hg] at hx
      | some y => rw [hg] at hx; simpa using hx
    simp only [hslot, timerElapsed, hxp, Bool.false_eq_true, if_false]
    have : x.elapsed + (now - x.start) = (x.elapsed - x.start) + now := by abel
    rw [this, hxe]; abel
  | none =>
    simp only [ho] at h ⊢
    cases hg : (s.getSlots p)[i]? with
    | none =>
      have : s.slot p i = none := by unfold Timers.slot; rw [hg]; rfl
      rw [this] at h
      simpa using h.symm
    | some y =>
      have : s.slot p i = y := by unfold Timers.slot; rw [hg]; rfl
      rw [this] at h
      cases y with
      | none => simpa using h.symm
      | some x =>
        simp only at h ⊢
        simp [timerElapsed, h.1, h.2]

/-- Hierarchies before any scope is entered: created, then any number of
`sdp_timers_create_set` calls. -/
inductive Prepared (T : Type) [AddCommGroup T] : Timers T → Prop
  | create (t : T) : Prepared T (timersCreate t)
  | set {s} (n : String) (num : Nat) (p : Option TPath) :
      Prepared T s → Prepared T (timersCreateSet s n num p).1

theorem prepared_slots {s : Timers T} (h : Prepared T s) :
    s.current = [] ∧ ∀ p, p ≠ [] → ∀ i, s.slot p i = none := by
  induction h with
  | create t =>
    refine ⟨rfl, fun p hp i => ?_⟩
    simp [Timers.slot, Timers.getSlots, timersCreate, hp]
  | @set s n num par _ ih =>
    refine ⟨ih.1, fun p hp i => ?_⟩
    have h2 := ih.2 p hp i
    simp only [timersCreateSet]
    unfold Timers.slot at h2 ⊢
    rw [getSlots_setNode]
    by_cases hq : p = n :: par.getD s.current
    · simp only [hq, if_true]
      split
      · rw [List.getElem?_replicate]; split <;> rfl
      · rw [hq] at h2; exact h2
    · simpa [hq] using h2

theorem prepared_inv {s : Timers T} (h : Prepared T s) :
    ScopesInv s (fun _ => []) (fun _ => Scopes.empty) := by
  refine ⟨fun _ => rfl, fun i p hp => ?_⟩
  rw [(prepared_slots h).2 p hp i]
  simp [SlotOk, Scopes.empty, openSince]

/-- C11, threads with explicit node handles.  Starting from a hierarchy with slots
set up for the threads, any interleaving of the calls of any number of threads,
with reports in between, runs without touching a missing slot; each thread's
handle is at its innermost open scope, and what is reported for a scope path and
thread is the sum of (exit − entry) over that thread's completed executions of
exactly that path, plus the time since entry if it is open. -/
theorem C11_threads (s : Timers T) (hs : Prepared T s) (es : List (TEv T))
    (hr : SlotsReady (fun p => (s.getSlots p).length) (fun _ => Scopes.empty) es) :
    ∃ s' cur', timersCalls s (fun _ => []) es = .ok (s', cur') ∧
      (∀ i, cur' i = pathOf (runAll (fun _ => Scopes.empty) es i).opened) ∧
      ∀ p, p ≠ [] → ∀ i now, (timersRead s' p i now).2 =
        (runAll (fun _ => Scopes.empty) es i).total p now := by
  obtain ⟨s', cur', h, hI⟩ := calls_inv es s _ _ _ (prepared_inv hs) (fun _ => le_refl _) hr
  exact ⟨s', cur', h, hI.cursor, fun p hp i now => read_total s' cur' _ hI p hp i now⟩

theorem push_cur (s : Timers T) (n : String) (t : T) :
    timersPush s n 0 none t =
      match timersPush s n 0 (some s.current) t with
      | .ok (s', some p) => .ok ({ s' with current := p }, none)
      | .ok (s', none) => .ok (s', none)
      | .ub => .ub := by
  simp only [timersPush, Option.getD_none, Option.getD_some]
  split <;> rfl

theorem pop_cur (s : Timers T) (t : T) :
    timersPop s 0 none t =
      match timersPop s 0 (some s.current) t with
      | .ok (s', some p) => .ok ({ s' with current := p }, none)
      | .ok (s', none) => .ok (s', none)
      | .ub => .ub := by
  cases s with
  | mk nodes current =>
    cases current with
    | nil => rfl
    | cons n rest =>
      simp only [timersPop, Option.getD_none, Option.getD_some]
      split
      · rfl
      · rfl

/-- All events come from the one thread 0. -/
def OneThread (es : List (TEv T)) : Prop :=
  ∀ e ∈ es, match e with | .act i _ => i = 0 | .read .. => True

omit [AddCommGroup T] in
theorem slot_current (s : Timers T) (c p : TPath) (i : Nat) :
    ({ s with current := c } : Timers T).slot p i = s.slot p i := rfl

theorem calls_cur_inv (es : List (TEv T)) (h1 : OneThread es) (s : Timers T)
    (sc : Nat → Scopes T) (hI : ScopesInv s (fun i => if i = 0 then s.current else []) sc) :
    ∃ s', timersCallsCur s es = .ok s' ∧
      ScopesInv s' (fun i => if i = 0 then s'.current else []) (runAll sc es) := by
  induction es generalizing s sc with
  | nil => exact ⟨s, rfl, hI⟩
  | cons e es ih =>
    have he := h1 e (by simp)
    obtain ⟨s1, c1, hc, hcur, hI1, -⟩ := step_inv_scopes s _ sc (fun _ => 0) hI
      (fun _ => Nat.zero_le _) e (by
        cases e with
        | act i ev => cases ev with
          | push n t => exact Or.inl he
          | pop t => trivial
        | read => trivial)
    have key : ∃ s2, timersCallCur s e = .ok s2 ∧
        ScopesInv s2 (fun i => if i = 0 then s2.current else []) (stepAll sc e) := by
      cases e with
      | read p i t =>
        refine ⟨_, rfl, ?_⟩
        simp only [timersCall, Outcome.ok.injEq, Prod.mk.injEq] at hc
        obtain ⟨rfl, rfl⟩ := hc
        rw [hcur]; exact hI1
      | act i ev =>
        simp only at he
        subst he
        cases ev with
        | push n t =>
          simp only [timersCall, if_true] at hc
          simp only [timersCallCur, push_cur]
          cases hp : timersPush s n 0 (some s.current) t with
          | ub => rw [hp] at hc; simp at hc
          | ok r =>
            obtain ⟨s2, o⟩ := r
            rw [hp] at hc
            cases o with
            | none =>
              exfalso
              simp only [timersPush] at hp
              split at hp <;> simp at hp
            | some p =>
              simp only [Outcome.ok.injEq, Prod.mk.injEq] at hc
              obtain ⟨rfl, rfl⟩ := hc
              refine ⟨_, rfl, ⟨fun j => ?_, fun j q hq => hI1.slots j q hq⟩⟩
              rw [← hI1.cursor j]
              by_cases hj : j = 0 <;> simp [hj]
        | pop t =>
          simp only [timersCall, if_true] at hc
          simp only [timersCallCur, pop_cur]
          cases hp : timersPop s 0 (some s.current) t with
          | ub => rw [hp] at hc; simp at hc
          | ok r =>
            obtain ⟨s2, o⟩ := r
            rw [hp] at hc
            cases o with
            | none =>
              exfalso
              simp only [timersPop] at hp
              split at hp
              · simp at hp
              · split at hp <;> simp at hp
            | some p =>
              simp only [Outcome.ok.injEq, Prod.mk.injEq] at hc
              obtain ⟨rfl, rfl⟩ := hc
              refine ⟨_, rfl, ⟨fun j => ?_, fun j q hq => hI1.slots j q hq⟩⟩
              rw [← hI1.cursor j]
              by_cases hj : j = 0 <;> simp [hj]
    obtain ⟨s2, h2, hI2⟩ := key
    obtain ⟨s3, h3, hI3⟩ := ih (fun e he => h1 e (by simp [he])) s2 _ hI2
    exact ⟨s3, by simp only [timersCallsCur, h2, h3], hI3⟩

/-- C11, one thread with the internally kept position (push/pop macros): any
sequence of scope entries, exits (also surplus ones) and reports runs without
undefined behaviour, the position is the innermost open scope, and every entry
reports the summed duration of the executions of its path. -/
theorem C11_single_thread (t : T) (es : List (TEv T)) (h1 : OneThread es) :
    ∃ s', timersCallsCur (timersCreate t) es = .ok s' ∧
      s'.current = pathOf (runAll (fun _ => Scopes.empty) es 0).opened ∧
      ∀ p, p ≠ [] → ∀ now, (timersRead s' p 0 now).2 =
        (runAll (fun _ => Scopes.empty) es 0).total p now := by
  have hI := prepared_inv (Prepared.create t)
  obtain ⟨s', h, hI'⟩ := calls_cur_inv es h1 (timersCreate t) (fun _ => Scopes.empty) (by
    have : (fun i : Nat => if i = 0 then (timersCreate t).current else ([] : TPath)) =
        fun _ => [] := by funext i; simp [timersCreate]
    rw [this]; exact hI)
  exact ⟨s', h, by simpa using hI'.cursor 0, fun p hp now => read_total s' _ _ hI' p hp 0 now⟩

end

/-- Matching exits return to the enclosing scope: a properly nested sequence. -/
inductive Nested (T : Type) : List (TEv T) → Prop
  | nil : Nested T []
  | scope (n : String) (a b : T) {body rest} : Nested T body → Nested T rest →
      Nested T (.act 0 (.push n a) :: (body ++ .act 0 (.pop b) :: rest))

section
variable {T : Type} [AddCommGroup T]

theorem runAll_append (sc : Nat → Scopes T) (a b : List (TEv T)) :
    runAll sc (a ++ b) = runAll (runAll sc a) b := by
  induction a generalizing sc with
  | nil => rfl
  | cons e es ih => simp only [List.cons_append, runAll, ih]

theorem nested_returns {es : List (TEv T)} (h : Nested T es) (sc : Nat → Scopes T) :
    (runAll sc es 0).opened = (sc 0).opened := by
  induction h generalizing sc with
  | nil => rfl
  | @scope n a b body rest _ _ ihb ihr =>
    have hb := ihb (stepAll sc (.act 0 (.push n a)))
    simp only [runAll]
    rw [runAll_append]
    simp only [runAll]
    rw [ihr]
    simp only [stepAll, if_true]
    have hb' : (runAll (stepAll sc (.act 0 (.push n a))) body 0).opened =
        (n, a) :: (sc 0).opened := by
      rw [hb]; simp [stepAll, Scopes.step]
    generalize hX : runAll (stepAll sc (.act 0 (.push n a))) body 0 = X at hb' ⊢
    cases X with
    | mk o d =>
      simp only at hb'; subst hb'
      simp only [stepAll] at hX
      rw [hX]; rfl

theorem nested_one {es : List (TEv T)} (h : Nested T es) : OneThread es := by
  induction h with
  | nil => intro e he; simp at he
  | scope n a b _ _ ihb ihr =>
    intro e he
    simp only [List.mem_cons, List.mem_append] at he
    rcases he with rfl | he | rfl | he
    · rfl
    · exact ihb e he
    · rfl
    · exact ihr e he

/-- C11: after a properly nested sequence inside any open scopes, the position is
back where it was. -/
theorem C11_nested_returns (t : T) (before es : List (TEv T)) (h1 : OneThread before)
    (hn : Nested T es) :
    ∃ s1 s2, timersCallsCur (timersCreate t) before = .ok s1 ∧
      timersCallsCur (timersCreate t) (before ++ es) = .ok s2 ∧ s2.current = s1.current := by
  obtain ⟨s1, h1', hc1, -⟩ := C11_single_thread t before h1
  obtain ⟨s2, h2', hc2, -⟩ := C11_single_thread t (before ++ es) (by
    intro e he
    rcases List.mem_append.1 he with he | he
    · exact h1 e he
    · exact nested_one hn e he)
  refine ⟨s1, s2, h1', h2', ?_⟩
  rw [hc1, hc2, runAll_append, nested_returns hn]

end

/-- Non-vacuity: A(0..10) containing B(1..3) and B(5..6), read at time 20. -/
example :
    (∃ s', timersCallsCur (timersCreate (0 : ℤ))
      [.act 0 (.push "A" 0), .act 0 (.push "B" 1), .act 0 (.pop 3), .act 0 (.push "B" 5),
       .act 0 (.pop 6), .act 0 (.pop 10)] = .ok s' ∧
      (timersRead s' ["B", "A"] 0 20).2 = 3 ∧ (timersRead s' ["A"] 0 20).2 = 10) := by
  refine ⟨_, rfl, by decide, by decide⟩

/-- Non-vacuity of `C11_threads`: slots for two threads. -/
example : SlotsReady (T := ℤ)
    (fun p => (((timersCreateSet (timersCreate (0 : ℤ)) "A" 2 none).1).getSlots p).length)
    (fun _ => Scopes.empty)
    [.act 0 (.push "A" 0), .act 1 (.push "A" 1), .act 0 (.pop 4), .act 1 (.pop 9)] := by
  simp [SlotsReady, timersCreateSet, stepAll, pathOf, Scopes.empty,
    Timers.getSlots, timersCreate, Timers.setNode]

/-- Without the set-up call a second thread's entry is out of range. -/
example : timersPush (timersCreate (0 : ℤ)) "A" 1 (some []) 0 = .ub := by rfl

end Sdp
