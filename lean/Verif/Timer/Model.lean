import Mathlib.Algebra.Group.Basic
import Verif.Mem.Model

/-!
# Model of utility/sdp_timer.cpp (native timers)

Clock readings (`sdp_get_wtime`, sdp_timer.cpp:44-64) are arguments, in an
arbitrary additive group (exact arithmetic; the C code uses `double` seconds).
CUDA event timers are not modelled; the report is in Report.lean.
-/

namespace Sdp

/-- `struct sdp_Timer`, sdp_timer.cpp:30-41 (native fields). -/
structure Timer (T : Type) where
  paused : Bool
  start : T
  elapsed : T

section
variable {T : Type} [AddCommGroup T]

/-- `sdp_timer_create`, sdp_timer.cpp:67-88 (`calloc` zeroes the rest). -/
def timerCreate : Timer T := ⟨true, 0, 0⟩

/-- `sdp_timer_elapsed`, sdp_timer.cpp:105-132: new state and returned value. -/
def timerElapsed (tm : Timer T) (now : T) : Timer T × T :=
  if tm.paused then (tm, tm.elapsed)
  else
    let e := tm.elapsed + (now - tm.start)
    ({ tm with elapsed := e, start := now }, e)

/-- `sdp_timer_pause`, sdp_timer.cpp:135-140. -/
def timerPause (tm : Timer T) (now : T) : Timer T :=
  if tm.paused then tm else { (timerElapsed tm now).1 with paused := true }

/-- `sdp_timer_reset`, sdp_timer.cpp:143-148. -/
def timerReset (_tm : Timer T) : Timer T := ⟨true, 0, 0⟩

/-- `sdp_timer_restart`, sdp_timer.cpp:158-169. -/
def timerRestart (tm : Timer T) (now : T) : Timer T :=
  { tm with paused := false, start := now }

/-- `sdp_timer_resume`, sdp_timer.cpp:151-155. -/
def timerResume (tm : Timer T) (now : T) : Timer T :=
  if !tm.paused then tm else timerRestart tm now

/-- `sdp_timer_start`, sdp_timer.cpp:172-176. -/
def timerStart (tm : Timer T) (now : T) : Timer T :=
  timerRestart { tm with elapsed := 0 } now

/-- The calls a user can make on a timer. -/
inductive TimerOp
  | start | pause | resume | restart | reset | query
  deriving DecidableEq, Repr

/-- One call at clock reading `now` (sdp_timer.cpp:105-176). -/
def timerStep (tm : Timer T) : TimerOp → T → Timer T
  | .start, now => timerStart tm now
  | .pause, now => timerPause tm now
  | .resume, now => timerResume tm now
  | .restart, now => timerRestart tm now
  | .reset, _ => timerReset tm
  | .query, now => (timerElapsed tm now).1

/-- A whole history, most recent call first. -/
def timerRun : List (T × TimerOp) → Timer T
  | [] => timerCreate
  | (t, op) :: older => timerStep (timerRun older) op t

/-! ### The timer hierarchy -/

/-- A node of the hierarchy is named by its path, innermost name first; `[]` is
the root.  (`std::map` nodes have stable addresses, so a pointer and a path are
interchangeable; `parent` of `n :: p` is `p`, sdp_timer.cpp:228-230.) -/
abbrev TPath := List String

/-- `struct sdp_TimerNode`'s timer vector, sdp_timer.cpp:199; `none` = NULL. -/
abbrev TSlots (T : Type) := List (Option (Timer T))

/-- `struct sdp_Timers`, sdp_timer.cpp:312-332. -/
structure Timers (T : Type) where
  nodes : TPath → Option (TSlots T)
  current : TPath

/-- `sdp_timers_create`, sdp_timer.cpp:319-326, 335-346. -/
def timersCreate (now : T) : Timers T :=
  { nodes := fun p => if p = [] then some [some (timerResume timerCreate now)] else none
    current := [] }

/-- Store the slots of one node. -/
def Timers.setNode (s : Timers T) (p : TPath) (x : TSlots T) : Timers T :=
  { s with nodes := fun q => if q = p then some x else s.nodes q }

/-- `sdp_TimerNode::get`, sdp_timer.cpp:223-233: the slots of the child, an empty
vector if it has just been created. -/
def Timers.getSlots (s : Timers T) (p : TPath) : TSlots T := (s.nodes p).getD []

/-- `sdp_timers_create_set`, sdp_timer.cpp:355-367. -/
def timersCreateSet (s : Timers T) (name : String) (num : Nat) (parent : Option TPath) :
    Timers T × TPath :=
  let p := name :: parent.getD s.current
  let slots := s.getSlots p
  (s.setNode p (if slots.length = 0 then List.replicate num none else slots), p)

/-- `sdp_timers_push`, sdp_timer.cpp:396-411.  Slot index out of range is UB. -/
def timersPush (s : Timers T) (name : String) (idx : Nat) (parent : Option TPath) (now : T) :
    Outcome (Timers T × Option TPath) :=
  let p := name :: parent.getD s.current
  let slots := s.getSlots p
  let slots := if slots.length = 0 then [none] else slots
  match slots[idx]? with
  | none => .ub
  | some slot =>
    let tm := match slot with | some tm => tm | none => timerCreate
    let s := s.setNode p (slots.set idx (some (timerResume tm now)))
    match parent with
    | some _ => .ok (s, some p)
    | none => .ok ({ s with current := p }, none)

/-- `sdp_timers_pop`, sdp_timer.cpp:370-381.  A missing slot or a NULL timer is UB. -/
def timersPop (s : Timers T) (idx : Nat) (timer : Option TPath) (now : T) :
    Outcome (Timers T × Option TPath) :=
  match timer.getD s.current with
  | [] => .ok (s, timer)
  | name :: parent =>
    match (s.getSlots (name :: parent))[idx]? with
    | some (some tm) =>
      let s := s.setNode (name :: parent)
        ((s.getSlots (name :: parent)).set idx (some (timerPause tm now)))
      match timer with
      | some _ => .ok (s, some parent)
      | none => .ok ({ s with current := parent }, none)
    | _ => .ub

/-- `sdp_timers_pop_push`, sdp_timer.cpp:384-393 (one clock reading per half). -/
def timersPopPush (s : Timers T) (name : String) (idx : Nat) (timer : Option TPath)
    (now1 now2 : T) : Outcome (Timers T × Option TPath) :=
  match timersPop s idx timer now1 with
  | .ok (s, node) => timersPush s name idx node now2
  | .ub => .ub

/-- What the report does to one timer: `sdp_timer_elapsed` on the timer in slot
`idx` of node `p`, if there is one (sdp_timer.cpp:239-242, 285-288).  Returns the
value read, 0 for a NULL timer. -/
def timersRead (s : Timers T) (p : TPath) (idx : Nat) (now : T) : Timers T × T :=
  match (s.getSlots p)[idx]? with
  | some (some tm) =>
    (s.setNode p ((s.getSlots p).set idx (some (timerElapsed tm now).1)),
      (timerElapsed tm now).2)
  | _ => (s, 0)

end
end Sdp
